import Verif.Lemmas.Vehicle
import Verif.Props.Lane
import Verif.Spec.Sample

/-!
# Properties of the road queries (C25, C26)
-/

noncomputable section
namespace HighwayEnv.Props
open Spec Classical

/-! ## C25 — front and rear neighbours -/

/-- Longitudinal coordinate of an entity along a lane. -/
def along (lane : Lane) (e : Entity) : ℝ := (lane.localCoordinates e.pos).1

/-- `e` is another entity than `self`, not a landmark, within the lane's strip widened by 1 m (and by a vehicle length at both
ends). -/
def OnQueriedLane (lane : Lane) (self : ℕ) (e : Entity) : Prop :=
  e.uid ≠ self ∧ e.isLandmark = false ∧ |(lane.localCoordinates e.pos).2| ≤ lane.width / 2 + 1 ∧
    -5 ≤ along lane e ∧ along lane e < lane.length + 5

/-- `f` is a nearest candidate of `es` ahead of (or level with) abscissa `s`; nothing exactly when there is no candidate. -/
def NearestAhead (lane : Lane) (self : ℕ) (s : ℝ) (es : List Entity) (f : Option Entity) : Prop :=
  (f = none ↔ ∀ e ∈ es, OnQueriedLane lane self e → along lane e < s) ∧
  ∀ e, f = some e → e ∈ es ∧ OnQueriedLane lane self e ∧ s ≤ along lane e ∧
    ∀ e' ∈ es, OnQueriedLane lane self e' → s ≤ along lane e' → along lane e ≤ along lane e'

/-- `f` is a nearest candidate of `es` strictly behind abscissa `s`; nothing exactly when there is no candidate. -/
def NearestBehind (lane : Lane) (self : ℕ) (s : ℝ) (es : List Entity) (f : Option Entity) : Prop :=
  (f = none ↔ ∀ e ∈ es, OnQueriedLane lane self e → s ≤ along lane e) ∧
  ∀ e, f = some e → e ∈ es ∧ OnQueriedLane lane self e ∧ along lane e < s ∧
    ∀ e' ∈ es, OnQueriedLane lane self e' → along lane e' < s → along lane e' ≤ along lane e

theorem nbStep_eq (lane : Lane) (s : ℝ) (self : ℕ) (st : Road.NbState) (e : Entity) :
    Road.nbStep lane s self st e =
      if OnQueriedLane lane self e then
        { front := if s ≤ along lane e ∧ (∀ f ∈ st.front, along lane e ≤ f.1) then some (along lane e, e) else st.front
          rear := if along lane e < s ∧ (∀ f ∈ st.rear, f.1 < along lane e) then some (along lane e, e) else st.rear }
      else st := by
  have hon : lane.onLane e.pos (some (lane.localCoordinates e.pos).1) (some (lane.localCoordinates e.pos).2) 1 = true ↔
      |(lane.localCoordinates e.pos).2| ≤ lane.width / 2 + 1 ∧ -5 ≤ along lane e ∧ along lane e < lane.length + 5 := by
    rw [onLane_precomputed, onLane_iff]; rfl
  unfold Road.nbStep
  by_cases h1 : e.uid ≠ self ∧ e.isLandmark = false
  · rw [if_pos h1]
    dsimp only
    by_cases h2 : lane.onLane e.pos (some (lane.localCoordinates e.pos).1) (some (lane.localCoordinates e.pos).2) 1 = true
    · rw [if_neg (by simp [h2])]
      have hq : OnQueriedLane lane self e := ⟨h1.1, h1.2, hon.1 h2⟩
      rw [if_pos hq]
      change (if along lane e < s ∧ _ then _ else _) = _
      unfold along
      split_ifs <;> rfl
    · rw [if_pos (by simpa using h2)]
      rw [if_neg]
      rintro ⟨_, _, h⟩
      exact h2 (hon.2 h)
  · rw [if_neg h1, if_neg]
    rintro ⟨a, b, _⟩
    exact h1 ⟨a, b⟩

private theorem nb_fold (lane : Lane) (s : ℝ) (self : ℕ) (es : List Entity) :
    let st := es.foldl (Road.nbStep lane s self) {}
    (∀ p ∈ st.front, p.1 = along lane p.2) ∧ (∀ p ∈ st.rear, p.1 = along lane p.2) ∧
    NearestAhead lane self s es (st.front.map Prod.snd) ∧ NearestBehind lane self s es (st.rear.map Prod.snd) := by
  induction es using List.reverseRecOn with
  | nil => simp [NearestAhead, NearestBehind]
  | append_singleton es e ih =>
    simp only [List.foldl_append, List.foldl_cons, List.foldl_nil] at ih ⊢
    generalize es.foldl (Road.nbStep lane s self) {} = st at ih ⊢
    obtain ⟨i1, i2, ⟨i3, i4⟩, ⟨i5, i6⟩⟩ := ih
    rw [nbStep_eq]
    by_cases hq : OnQueriedLane lane self e
    · rw [if_pos hq]
      refine ⟨?_, ?_, ?_, ?_⟩
      · intro p hp
        dsimp only at hp
        split_ifs at hp with h
        · simp only [Option.mem_def, Option.some.injEq] at hp; rw [← hp]
        · exact i1 p hp
      · intro p hp
        dsimp only at hp
        split_ifs at hp with h
        · simp only [Option.mem_def, Option.some.injEq] at hp; rw [← hp]
        · exact i2 p hp
      · dsimp only
        split_ifs with h
        · refine ⟨by simp only [Option.map_some, reduceCtorEq, false_iff]; push Not; exact ⟨e, by simp, hq, h.1⟩, ?_⟩
          intro e' he'
          simp only [Option.map_some, Option.some.injEq] at he'; subst he'
          refine ⟨by simp, hq, h.1, fun e'' he'' hq'' hs'' => ?_⟩
          rcases List.mem_append.1 he'' with hm | hm
          · rcases hf : st.front with _ | p
            · rw [hf] at i3
              have := (i3.1 rfl) e'' hm hq''
              linarith
            · have h1 := h.2 p (by rw [hf]; rfl)
              have h2 := (i4 p.2 (by rw [hf]; rfl)).2.2.2 e'' hm hq'' hs''
              rw [i1 p (by rw [hf]; rfl)] at h1
              linarith
          · rw [List.mem_singleton.1 hm]
        · rcases hf : st.front with _ | p
          · rw [hf] at i3 h
            have hlt : along lane e < s := by
              by_contra hc
              exact h ⟨not_lt.1 hc, by simp⟩
            refine ⟨?_, by simp⟩
            simp only [Option.map_none, true_iff]
            intro e' he' hq'
            rcases List.mem_append.1 he' with hm | hm
            · exact i3.1 rfl e' hm hq'
            · rw [List.mem_singleton.1 hm]; exact hlt
          · rw [hf] at i4 i3 h
            obtain ⟨a1, a2, a3, a4⟩ := i4 p.2 rfl
            refine ⟨?_, ?_⟩
            · simp only [Option.map_some, reduceCtorEq, false_iff]
              push Not
              exact ⟨p.2, by simp [a1], a2, a3⟩
            · intro e' he'
              simp only [Option.map_some, Option.some.injEq] at he'; subst he'
              refine ⟨by simp [a1], a2, a3, fun e'' he'' hq'' hs'' => ?_⟩
              rcases List.mem_append.1 he'' with hm | hm
              · exact a4 e'' hm hq'' hs''
              · rw [List.mem_singleton.1 hm] at hs'' ⊢
                by_contra hc
                refine h ⟨hs'', fun f hf' => ?_⟩
                simp only [Option.mem_def, Option.some.injEq] at hf'; subst hf'
                rw [i1 p (by rw [hf]; rfl)]
                exact (not_le.1 hc).le
      · dsimp only
        split_ifs with h
        · refine ⟨by simp only [Option.map_some, reduceCtorEq, false_iff]; push Not; exact ⟨e, by simp, hq, h.1⟩, ?_⟩
          intro e' he'
          simp only [Option.map_some, Option.some.injEq] at he'; subst he'
          refine ⟨by simp, hq, h.1, fun e'' he'' hq'' hs'' => ?_⟩
          rcases List.mem_append.1 he'' with hm | hm
          · rcases hf : st.rear with _ | p
            · rw [hf] at i5
              have := (i5.1 rfl) e'' hm hq''
              linarith
            · have h1 := h.2 p (by rw [hf]; rfl)
              have h2 := (i6 p.2 (by rw [hf]; rfl)).2.2.2 e'' hm hq'' hs''
              rw [i2 p (by rw [hf]; rfl)] at h1
              linarith
          · rw [List.mem_singleton.1 hm]
        · rcases hf : st.rear with _ | p
          · rw [hf] at i5 h
            have hlt : s ≤ along lane e := by
              by_contra hc
              exact h ⟨not_le.1 hc, by simp⟩
            refine ⟨?_, by simp⟩
            simp only [Option.map_none, true_iff]
            intro e' he' hq'
            rcases List.mem_append.1 he' with hm | hm
            · exact i5.1 rfl e' hm hq'
            · rw [List.mem_singleton.1 hm]; exact hlt
          · rw [hf] at i5 i6 h
            obtain ⟨a1, a2, a3, a4⟩ := i6 p.2 rfl
            refine ⟨?_, ?_⟩
            · simp only [Option.map_some, reduceCtorEq, false_iff]
              push Not
              exact ⟨p.2, by simp [a1], a2, a3⟩
            · intro e' he'
              simp only [Option.map_some, Option.some.injEq] at he'; subst he'
              refine ⟨by simp [a1], a2, a3, fun e'' he'' hq'' hs'' => ?_⟩
              rcases List.mem_append.1 he'' with hm | hm
              · exact a4 e'' hm hq'' hs''
              · rw [List.mem_singleton.1 hm] at hs'' ⊢
                by_contra hc
                refine h ⟨hs'', fun f hf' => ?_⟩
                simp only [Option.mem_def, Option.some.injEq] at hf'; subst hf'
                rw [i2 p (by rw [hf]; rfl)]
                exact not_le.1 hc
    · rw [if_neg hq]
      refine ⟨i1, i2, ⟨?_, ?_⟩, ⟨?_, ?_⟩⟩
      · rw [i3]
        constructor
        · intro h e' he' hq'
          rcases List.mem_append.1 he' with hm | hm
          · exact h e' hm hq'
          · rw [List.mem_singleton.1 hm] at hq'; exact absurd hq' hq
        · intro h e' he' hq'; exact h e' (by simp [he']) hq'
      · intro e' he'
        obtain ⟨a1, a2, a3, a4⟩ := i4 e' he'
        refine ⟨by simp [a1], a2, a3, fun e'' he'' hq'' hs'' => ?_⟩
        rcases List.mem_append.1 he'' with hm | hm
        · exact a4 e'' hm hq'' hs''
        · rw [List.mem_singleton.1 hm] at hq''; exact absurd hq'' hq
      · rw [i5]
        constructor
        · intro h e' he' hq'
          rcases List.mem_append.1 he' with hm | hm
          · exact h e' hm hq'
          · rw [List.mem_singleton.1 hm] at hq'; exact absurd hq' hq
        · intro h e' he' hq'; exact h e' (by simp [he']) hq'
      · intro e' he'
        obtain ⟨a1, a2, a3, a4⟩ := i6 e' he'
        refine ⟨by simp [a1], a2, a3, fun e'' he'' hq'' hs'' => ?_⟩
        rcases List.mem_append.1 he'' with hm | hm
        · exact a4 e'' hm hq'' hs''
        · rw [List.mem_singleton.1 hm] at hq''; exact absurd hq'' hq

/-- `neighbour_vehicles(v, lane_index)` returns a nearest candidate ahead and a nearest candidate behind on the queried lane (the
vehicle's own lane by default), among all other vehicles and obstacles of the road; it fails only if the lane does not exist. -/
theorem neighbours_nearest (r : Road) (v : Vehicle) (li : Option LaneIndex) (lane : Lane)
    (hl : r.network.getLane (li.getD v.laneIndex) = .ok lane) :
    ∃ f b, r.neighbourVehicles v li = .ok (f, b) ∧
      NearestAhead lane v.uid (lane.localCoordinates v.pos).1 (r.vehicles.map .veh ++ r.objects.map .obj) f ∧
      NearestBehind lane v.uid (lane.localCoordinates v.pos).1 (r.vehicles.map .veh ++ r.objects.map .obj) b := by
  unfold Road.neighbourVehicles
  simp only [hl, bind, Except.bind, pure, Except.pure]
  obtain ⟨_, _, h3, h4⟩ := nb_fold lane (lane.localCoordinates v.pos).1 v.uid r.entities
  exact ⟨_, _, rfl, h3, h4⟩

/-- Conversely, whenever the query returns, the lane exists and the result has the property above. -/
theorem neighbours_sound (r : Road) (v : Vehicle) (li : Option LaneIndex) (f b : Option Entity)
    (h : r.neighbourVehicles v li = .ok (f, b)) :
    ∃ lane, r.network.getLane (li.getD v.laneIndex) = .ok lane ∧
      NearestAhead lane v.uid (lane.localCoordinates v.pos).1 (r.vehicles.map .veh ++ r.objects.map .obj) f ∧
      NearestBehind lane v.uid (lane.localCoordinates v.pos).1 (r.vehicles.map .veh ++ r.objects.map .obj) b := by
  have h0 := h
  unfold Road.neighbourVehicles at h
  obtain ⟨lane, hl, _⟩ := bind_ok h
  obtain ⟨f', b', h1, h2, h3⟩ := neighbours_nearest r v li lane hl
  rw [h0] at h1; cases h1
  exact ⟨lane, hl, h2, h3⟩

/-! ## C26 — close vehicles -/

/-- `w` may be reported as close to `v`: another vehicle, nearer than `distance`, and not more than two vehicle lengths behind along
`v`'s lane unless `seeBehind`. -/
def Close (v : Vehicle) (distance : ℝ) (seeBehind : Bool) (w : Vehicle) : Prop :=
  (w.pos - v.pos).norm < distance ∧ w.uid ≠ v.uid ∧
    (seeBehind = true ∨ -10 < (v.lane.localCoordinates w.pos).1 - (v.lane.localCoordinates v.pos).1)

/-- Distance along `v`'s lane. -/
def laneGap (v w : Vehicle) : ℝ := |(v.lane.localCoordinates w.pos).1 - (v.lane.localCoordinates v.pos).1|

private theorem close_filter (r : Road) (v : Vehicle) (d : ℝ) (sb : Bool) :
    (r.vehicles.filter fun w =>
      decide ((w.pos - v.pos).norm < d) && decide (w.uid ≠ v.uid) &&
        (sb || decide (-2 * Vehicle.LENGTH < v.laneDistanceTo w.pos))) = r.vehicles.filter fun w => decide (Close v d sb w) := by
  apply List.filter_congr
  intro w _
  rw [Bool.eq_iff_iff]
  simp only [Bool.and_eq_true, decide_eq_true_eq, Bool.or_eq_true, Close, Vehicle.LENGTH, Vehicle.laneDistanceTo, and_assoc]
  norm_num

private theorem pairwise_sorted (v : Vehicle) (l : List Vehicle) :
    (l.mergeSort (fun a b => decide (|v.laneDistanceTo a.pos| ≤ |v.laneDistanceTo b.pos|))).Pairwise
      (fun a b => laneGap v a ≤ laneGap v b) := by
  have := List.pairwise_mergeSort (le := fun a b : Vehicle => decide (|v.laneDistanceTo a.pos| ≤ |v.laneDistanceTo b.pos|))
    (fun a b c h1 h2 => by
      simp only [decide_eq_true_eq] at *; exact h1.trans h2)
    (fun a b => by
      simp only [Bool.or_eq_true, decide_eq_true_eq]; exact le_total _ _) l
  exact this.imp fun h => of_decide_eq_true h

/-- Without a count (or with count 0) all close vehicles are returned, each as often as it is on the road, sorted by distance along
the lane. -/
theorem close_all (r : Road) (v : Vehicle) (d : ℝ) (sb : Bool) (count : Option Int) (hc : count = none ∨ count = some 0) :
    (r.closeVehiclesTo v d count sb).Perm (r.vehicles.filter fun w => decide (Close v d sb w)) ∧
    (r.closeVehiclesTo v d count sb).Pairwise (fun a b => laneGap v a ≤ laneGap v b) := by
  have e : r.closeVehiclesTo v d count sb = ((r.vehicles.filter fun w => decide (Close v d sb w)).mergeSort
      (fun a b => decide (|v.laneDistanceTo a.pos| ≤ |v.laneDistanceTo b.pos|))) := by
    rw [← close_filter]
    unfold Road.closeVehiclesTo
    rcases hc with rfl | rfl <;> rfl
  rw [e]
  exact ⟨List.mergeSort_perm _ _, pairwise_sorted v _⟩

/-- With a positive count `n`, the result is the first `n` of the unbounded answer: at most `n` vehicles, all close and sorted, and
the ones left out are at least as far along the lane as any one returned. -/
theorem close_count (r : Road) (v : Vehicle) (d : ℝ) (sb : Bool) (n : ℕ) (hn : 0 < n) :
    r.closeVehiclesTo v d (some n) sb = (r.closeVehiclesTo v d none sb).take n ∧
    (r.closeVehiclesTo v d (some n) sb).length = min n (r.vehicles.filter fun w => decide (Close v d sb w)).length ∧
    (∀ w ∈ r.closeVehiclesTo v d (some n) sb, w ∈ r.vehicles ∧ Close v d sb w) ∧
    (r.closeVehiclesTo v d (some n) sb).Pairwise (fun a b => laneGap v a ≤ laneGap v b) ∧
    ∀ w ∈ r.vehicles, Close v d sb w → w ∉ r.closeVehiclesTo v d (some n) sb →
      ∀ u ∈ r.closeVehiclesTo v d (some n) sb, laneGap v u ≤ laneGap v w := by
  have e : r.closeVehiclesTo v d (some n) sb = (r.closeVehiclesTo v d none sb).take n := by
    unfold Road.closeVehiclesTo
    obtain ⟨m, rfl⟩ : ∃ m, n = m + 1 := ⟨n - 1, by omega⟩
    dsimp only
    split
    · rename_i h
      simp at h
    · rename_i h; simp only [Option.some.injEq] at h; omega
    · rename_i k _ h
      simp only [Option.some.injEq] at h
      subst h
      rw [if_pos (by positivity)]
      rfl
  obtain ⟨hp, hs⟩ := close_all r v d sb none (.inl rfl)
  refine ⟨e, ?_, ?_, ?_, ?_⟩
  · rw [e, List.length_take, hp.length_eq]
  · intro w hw
    rw [e] at hw
    have := hp.mem_iff.1 (List.mem_of_mem_take hw)
    simpa using this
  · rw [e]; exact hs.sublist (List.take_sublist _ _)
  · intro w hw hcl hn' u hu
    rw [e] at hn' hu
    have hmem : w ∈ r.closeVehiclesTo v d none sb := hp.mem_iff.2 (by simp [hw, hcl])
    rw [← List.take_append_drop n (r.closeVehiclesTo v d none sb)] at hmem hs
    rcases List.mem_append.1 hmem with hm | hm
    · exact absurd hm hn'
    · exact (List.pairwise_append.1 hs).2.2 u hu w hm

/-! ## The hypotheses are met -/

example : ∃ lane, Sample.net.getLane ((none : Option LaneIndex).getD (Sample.car 0 .mdp 0 0 20).laneIndex) = .ok lane :=
  Graph.getLane_of_valid Sample.net_py ⟨0, Sample.lane 0, rfl, Sample.net_has0⟩

/-- A candidate ahead and one behind exist on the sample lane. -/
example : OnQueriedLane (Sample.lane 0) 0 (.veh (Sample.car 1 .idm 30 0 20)) ∧
    along (Sample.lane 0) (.veh (Sample.car 1 .idm 30 0 20)) = 30 := by
  have : √((100:ℝ) ^ 2) = 100 := by rw [Real.sqrt_sq]; norm_num
  simp [OnQueriedLane, along, Sample.lane, Sample.car, Entity.uid, Entity.isLandmark, Entity.pos, Lane.localCoordinates,
    Lane.straightLocal, Lane.straightDir, Vec2.norm, Vec2.dot, Lane.length, this]
  norm_num

end HighwayEnv.Props
