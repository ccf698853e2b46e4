import Verif.Props.NoRaise
import Verif.Spec.Regulation
import Verif.Spec.Sample

/-!
# C41, C42: regulated roads
-/

noncomputable section
open Classical
namespace HighwayEnv.Props
open HighwayEnv Spec Road

/-! ## C42 — who yields -/

/-- `respect_priorities(v, w)` designates `v` exactly when `v` must give way. -/
theorem priorities_iff (v w : Vehicle) : Road.firstYields v w = true ↔ GivesWay v w := by
  unfold Road.firstYields GivesWay seenAhead Vehicle.frontDistanceTo Vehicle.direction Vec2.dot Vec2.dir
  simp only [Vec2.sub_x, Vec2.sub_y]
  split_ifs with h1 h2
  · simp only [Bool.false_eq_true, false_iff, not_or, not_and]
    exact ⟨by omega, fun h => by omega⟩
  · simp [h2]
  · have : v.lane.priority = w.lane.priority := by omega
    simp [this]

/-- Strictly lower priority yields, whatever the order in which the two vehicles are considered. -/
theorem lower_priority_yields (v w : Vehicle) (h : v.lane.priority < w.lane.priority) :
    GivesWay v w ∧ ¬ GivesWay w v :=
  ⟨.inl h, by rintro (h' | ⟨h', _⟩) <;> omega⟩

/-- Between two vehicles of equal priority and equal heading, the one behind yields, in both orders of consideration. -/
theorem behind_yields (v w : Vehicle) (hp : v.lane.priority = w.lane.priority) (hh : v.heading = w.heading)
    (hb : 0 < seenAhead v w) : GivesWay v w ∧ ¬ GivesWay w v := by
  have e : seenAhead w v = - seenAhead v w := by unfold seenAhead; rw [hh]; ring
  refine ⟨.inr ⟨hp, by rw [e]; linarith⟩, ?_⟩
  rintro (h | ⟨_, h⟩)
  · omega
  · rw [e] at h; linarith

/-- It is never the case that each must yield to the other. -/
theorem not_both_yield (v w : Vehicle) : ¬ (GivesWay v w ∧ GivesWay w v) := by
  rintro ⟨h1 | ⟨h1, h2⟩, h3 | ⟨h3, h4⟩⟩
  · omega
  · omega
  · omega
  · linarith

/-! ## C41 — one pass of the rules -/

/-- `is_conflict_possible` answers exactly whether the two predicted trajectories come into conflict. -/
theorem conflict_iff (g : Graph) (v w : Vehicle) : Road.isConflictPossible g v w = .ok true ↔ InConflict g v w := by
  have ht : conflictTimes = (List.range 11).map fun k : ℕ => ((k : ℝ) + 1) / 4 := by
    unfold conflictTimes
    apply List.map_congr_left
    intro k _
    ring
  have hl : ∀ a : Vec2 × ℝ, conflictRect a = ⟨a.1, 7.5, 1.8, a.2⟩ := by
    intro a
    unfold conflictRect Vehicle.LENGTH Vehicle.WIDTH
    norm_num
  unfold Road.isConflictPossible InConflict
  rw [ht]
  constructor
  · intro h
    obtain ⟨p, hp, h⟩ := bind_ok h
    obtain ⟨q, hq, h⟩ := bind_ok h
    injection h with h
    rw [List.any_eq_true] at h
    obtain ⟨⟨a, b⟩, hab, hc⟩ := h
    obtain ⟨k, hk⟩ := List.mem_iff_getElem?.1 hab
    rw [List.getElem?_zip_eq_some] at hk
    simp only [Bool.and_eq_true, Bool.not_eq_true', decide_eq_false_iff_not, not_lt, hl] at hc
    refine ⟨p, q, k, a, b, hp, hq, hk.1, hk.2, ?_, hc.2⟩
    exact hc.1
  · rintro ⟨p, q, k, a, b, hp, hq, ha, hb, hn, hr⟩
    rw [hp, hq]
    simp only [bind, Except.bind, pure, Except.pure]
    congr 1
    rw [List.any_eq_true]
    refine ⟨(a, b), List.mem_iff_getElem?.2 ⟨k, ?_⟩, ?_⟩
    · rw [List.getElem?_zip_eq_some]; exact ⟨ha, hb⟩
    · simp only [Bool.and_eq_true, Bool.not_eq_true', decide_eq_false_iff_not, not_lt, hl]
      exact ⟨hn, hr⟩

private theorem predict_congr {g : Graph} {v w : Vehicle} (h : SameButYield v w) (ts : List ℝ) :
    w.predictConstantSpeed g ts = v.predictConstantSpeed g ts := by
  obtain ⟨_, _, _, _, rfl⟩ := h
  rfl

private theorem conflict_congr {g : Graph} {v v' w w' : Vehicle} (hv : SameButYield v v') (hw : SameButYield w w') :
    isConflictPossible g v' w' = isConflictPossible g v w := by
  unfold isConflictPossible
  rw [predict_congr hv, predict_congr hw]

private theorem yields_congr {v v' w w' : Vehicle} (hv : SameButYield v v') (hw : SameButYield w w') :
    firstYields v' w' = firstYields v w := by
  obtain ⟨_, _, _, _, rfl⟩ := hv
  obtain ⟨_, _, _, _, rfl⟩ := hw
  rfl

private theorem mark_idem (v : Vehicle) : markYield (markYield v) = markYield v := by
  unfold markYield
  split
  · simp_all
  · simp_all

/-- In the pair `ab` of positions in `us`, vehicle `i` is the one that yields. -/
private def Loses (g : Graph) (us : List Vehicle) (i : ℕ) (ab : ℕ × ℕ) : Prop :=
  ∃ x y, us[ab.1]? = some x ∧ us[ab.2]? = some y ∧ isConflictPossible g x y = .ok true ∧
    ((firstYields x y = true ∧ i = ab.1) ∨ (firstYields x y = false ∧ i = ab.2))

private theorem fold_marks (g : Graph) (us : List Vehicle) (ps : List (ℕ × ℕ)) : ∀ {ws : List Vehicle},
    ps.foldlM (resolvePair g) us = .ok ws → ws.length = us.length ∧ ∀ i u, us[i]? = some u →
      ws[i]? = some (if ∃ ab ∈ ps, Loses g us i ab then markYield u else u) := by
  induction ps using List.reverseRecOn with
  | nil =>
    intro ws h
    rw [List.foldlM_nil] at h
    cases h
    exact ⟨rfl, fun i u hu => by simp [hu]⟩
  | append_singleton ps ab ih =>
    intro ws h
    rw [List.foldlM_append] at h
    obtain ⟨vs, hvs, h⟩ := bind_ok h
    rw [List.foldlM_cons] at h
    obtain ⟨vs', hvs', h⟩ := bind_ok h
    rw [List.foldlM_nil] at h
    cases h
    obtain ⟨l1, l2⟩ := ih hvs
    have hsame : ∀ (i : ℕ) (u v : Vehicle), us[i]? = some u → vs[i]? = some v → SameButYield u v := by
      intro i u v hu hv
      rw [l2 i u hu] at hv
      cases hv
      split
      · exact markYield_frame u
      · exact .refl u
    unfold resolvePair at hvs'
    have hex : ∀ i, (∃ cd ∈ ps ++ [ab], Loses g us i cd) ↔ (∃ cd ∈ ps, Loses g us i cd) ∨ Loses g us i ab := by
      intro i
      simp only [List.mem_append, List.mem_singleton]
      constructor
      · rintro ⟨cd, h | rfl, hl⟩
        · exact .inl ⟨cd, h, hl⟩
        · exact .inr hl
      · rintro (⟨cd, h, hl⟩ | hl)
        · exact ⟨cd, .inl h, hl⟩
        · exact ⟨ab, .inr rfl, hl⟩
    have hupd : ∀ (k : ℕ) (x : Vehicle), vs[k]? = some x → (∀ i, Loses g us i ab ↔ i = k) →
        (vs.set k (markYield x)).length = us.length ∧ ∀ i u, us[i]? = some u →
          (vs.set k (markYield x))[i]? = some (if ∃ cd ∈ ps ++ [ab], Loses g us i cd then markYield u else u) := by
      intro k x hx hk
      refine ⟨by rw [List.length_set, l1], fun i u hu => ?_⟩
      by_cases hik : k = i
      · subst hik
        rw [List.getElem?_set_self (List.getElem?_eq_some_iff.1 hx).1, if_pos ((hex k).2 (.inr ((hk k).2 rfl)))]
        rw [l2 k u hu] at hx
        cases hx
        split
        · rw [mark_idem]
        · rfl
      · rw [List.getElem?_set_ne hik, l2 i u hu]
        have : ¬ Loses g us i ab := fun h => hik ((hk i).1 h).symm
        simp only [hex i, this, or_false]
    have hnone : (∀ i, ¬ Loses g us i ab) → vs.length = us.length ∧ ∀ i u, us[i]? = some u →
          vs[i]? = some (if ∃ cd ∈ ps ++ [ab], Loses g us i cd then markYield u else u) := by
      intro hno
      refine ⟨l1, fun i u hu => ?_⟩
      rw [l2 i u hu]
      simp only [hex i, hno i, or_false]
    split at hvs'
    · rename_i x y hx hy
      have hux : ∃ u, us[ab.1]? = some u := ⟨_, List.getElem?_eq_getElem (by
        have := (List.getElem?_eq_some_iff.1 hx).1; omega)⟩
      have huy : ∃ u, us[ab.2]? = some u := ⟨_, List.getElem?_eq_getElem (by
        have := (List.getElem?_eq_some_iff.1 hy).1; omega)⟩
      obtain ⟨ux, hux⟩ := hux
      obtain ⟨uy, huy⟩ := huy
      have s1 := hsame _ _ _ hux hx
      have s2 := hsame _ _ _ huy hy
      rw [conflict_congr s1 s2] at hvs'
      obtain ⟨c, hc, hvs'⟩ := bind_ok hvs'
      rw [yields_congr s1 s2] at hvs'
      split at hvs'
      · rename_i hct
        rw [hct] at hc
        split at hvs'
        · rename_i hy'
          cases hvs'
          refine hupd _ _ hx fun i => ⟨?_, fun h => ⟨ux, uy, hux, huy, hc, .inl ⟨hy', h⟩⟩⟩
          rintro ⟨x', y', h1, h2, _, h | ⟨h, _⟩⟩
          · exact h.2
          · rw [hux] at h1; rw [huy] at h2; cases h1; cases h2; rw [hy'] at h; cases h
        · rename_i hy'
          cases hvs'
          refine hupd _ _ hy fun i => ⟨?_, fun h => ⟨ux, uy, hux, huy, hc, .inr ⟨by simpa using hy', h⟩⟩⟩
          rintro ⟨x', y', h1, h2, _, ⟨h, _⟩ | h⟩
          · rw [hux] at h1; rw [huy] at h2; cases h1; cases h2; exact absurd h hy'
          · exact h.2
      · rename_i hcf
        cases hvs'
        apply hnone
        rintro i ⟨x', y', h1, h2, h3, _⟩
        rw [hux] at h1; rw [huy] at h2; cases h1; cases h2
        rw [hc] at h3
        injection h3 with h3
        exact hcf h3
    · rename_i hno
      cases hvs'
      apply hnone
      rintro i ⟨x', y', h1, h2, _⟩
      have e1 := l2 _ _ h1
      have e2 := l2 _ _ h2
      exact hno _ _ e1 e2

private theorem mem_pairs {n i j : ℕ} : (i, j) ∈ pairs n ↔ i < j ∧ j < n := by
  unfold pairs
  simp only [List.mem_flatMap, List.mem_range, List.mem_map, List.mem_range'_1, Prod.mk.injEq]
  constructor
  · rintro ⟨a, ha, b, hb, rfl, rfl⟩
    omega
  · rintro ⟨h1, h2⟩
    exact ⟨i, by omega, j, by omega, rfl, rfl⟩

/-- One pass of `enforce_road_rules`, vehicle by vehicle.  Vehicle number `i`, which was `v`, becomes `w`:
* if it must yield and is not an ego (discrete-action) vehicle, its target speed is 0 and it is yielding;
* otherwise, if it was yielding, it is released: target speed = speed limit of its lane, no longer yielding;
* otherwise nothing changes.
Nothing but target speed and yield state ever changes. -/
theorem regulation_pass (r r' : Road) (h : r.enforceRoadRules = .ok r') (i : ℕ) (v : Vehicle) (hv : r.vehicles[i]? = some v) :
    ∃ w, r'.vehicles[i]? = some w ∧
      (∃ ts y t c, w = { v with targetSpeed := ts, isYielding := y, yieldTimer := t, hasColor := c }) ∧
      (MustYield r i → Regulable v → w.targetSpeed = 0 ∧ w.isYielding = true ∧ w.yieldTimer = 0) ∧
      (¬ (MustYield r i ∧ Regulable v) → v.isYielding = true → w.targetSpeed = v.lane.speedLimit ∧ w.isYielding = false) ∧
      (¬ (MustYield r i ∧ Regulable v) → v.isYielding = false → w = v) := by
  unfold enforceRoadRules at h
  obtain ⟨us, hu, h⟩ := bind_ok h
  obtain ⟨ws, hw, h⟩ := bind_ok h
  cases h
  have hp := mapM_pointwise hu
  obtain ⟨u, hui, hru⟩ := hp.2 i v hv
  obtain ⟨_, hm⟩ := fold_marks r.network us _ hw
  have hwi := hm i u hui
  have hrel : ∀ (j : ℕ) (x : Vehicle), r.vehicles[j]? = some x → ∃ y, us[j]? = some y ∧ SameButYield x y := by
    intro j x hx
    obtain ⟨y, hy, hxy⟩ := hp.2 j x hx
    exact ⟨y, hy, release_frame hxy⟩
  have hback : ∀ (j : ℕ) (y : Vehicle), us[j]? = some y → ∃ x, r.vehicles[j]? = some x ∧ SameButYield x y := by
    intro j y hy
    have hlt : j < r.vehicles.length := hp.1 ▸ (List.getElem?_eq_some_iff.1 hy).1
    obtain ⟨y', hy', hs⟩ := hrel j r.vehicles[j] (List.getElem?_eq_getElem hlt)
    rw [hy] at hy'
    cases hy'
    exact ⟨_, List.getElem?_eq_getElem hlt, hs⟩
  have hiff : (∃ ab ∈ pairs us.length, Loses r.network us i ab) ↔ MustYield r i := by
    constructor
    · rintro ⟨⟨a, b⟩, hab, x, y, hx, hy, hc, hcase⟩
      rw [mem_pairs] at hab
      obtain ⟨x0, hx0, sx⟩ := hback a x hx
      obtain ⟨y0, hy0, sy⟩ := hback b y hy
      rw [conflict_congr sx sy, conflict_iff] at hc
      rw [yields_congr sx sy] at hcase
      rcases hcase with ⟨hf, rfl⟩ | ⟨hf, rfl⟩
      · exact ⟨b, x0, y0, hx0, hy0, .inl ⟨hab.1, hc, (priorities_iff _ _).1 hf⟩⟩
      · refine ⟨a, y0, x0, hy0, hx0, .inr ⟨hab.1, hc, fun hg => ?_⟩⟩
        rw [(priorities_iff _ _).2 hg] at hf; cases hf
    · rintro ⟨j, x, y, hx, hy, ⟨hij, hc, hg⟩ | ⟨hij, hc, hg⟩⟩
      · obtain ⟨x1, hx1, sx⟩ := hrel i x hx
        obtain ⟨y1, hy1, sy⟩ := hrel j y hy
        refine ⟨(i, j), mem_pairs.2 ⟨hij, (List.getElem?_eq_some_iff.1 hy1).1⟩, x1, y1, hx1, hy1, ?_, .inl ⟨?_, rfl⟩⟩
        · rw [conflict_congr sx sy]; exact (conflict_iff _ _ _).2 hc
        · rw [yields_congr sx sy]; exact (priorities_iff _ _).2 hg
      · obtain ⟨x1, hx1, sx⟩ := hrel i x hx
        obtain ⟨y1, hy1, sy⟩ := hrel j y hy
        refine ⟨(j, i), mem_pairs.2 ⟨hij, (List.getElem?_eq_some_iff.1 hx1).1⟩, y1, x1, hy1, hx1, ?_, .inr ⟨?_, rfl⟩⟩
        · rw [conflict_congr sy sx]; exact (conflict_iff _ _ _).2 hc
        · rw [yields_congr sy sx]
          rw [Bool.eq_false_iff]
          exact fun hf => hg ((priorities_iff _ _).1 hf)
  have hkind : Regulable v ↔ (u.kind.isControlled && decide (u.kind ≠ .mdp)) = true := by
    obtain ⟨_, _, _, _, rfl⟩ := release_frame hru
    simp [Regulable]
  have hrelcase : (v.isYielding = true ∧ u.targetSpeed = v.lane.speedLimit ∧ u.isYielding = false) ∨ (v.isYielding = false ∧ u = v) := by
    unfold release at hru
    split at hru
    · rename_i hy
      rw [if_pos (by unfold YIELD_DURATION; simp)] at hru
      split at hru
      · cases hru; exact .inl ⟨hy, rfl, rfl⟩
      · cases hru
    · rename_i hy
      cases hru
      exact .inr ⟨by simpa using hy, rfl⟩
  refine ⟨_, hwi, ?_, ?_, ?_, ?_⟩
  · have : SameButYield v (if ∃ ab ∈ pairs us.length, Loses r.network us i ab then markYield u else u) := by
      split
      · exact (release_frame hru).trans (markYield_frame u)
      · exact release_frame hru
    exact this
  · intro hy hk
    rw [if_pos (hiff.2 hy), markYield, if_pos (hkind.1 hk)]
    exact ⟨rfl, rfl, rfl⟩
  · intro hno hy
    rcases hrelcase with ⟨_, h1, h2⟩ | ⟨h1, _⟩
    · split
      · rename_i hm
        rw [markYield, if_neg (fun h => hno ⟨hiff.1 hm, hkind.2 h⟩)]
        exact ⟨h1, h2⟩
      · exact ⟨h1, h2⟩
    · rw [hy] at h1; cases h1
  · intro hno hy
    rcases hrelcase with ⟨h1, _⟩ | ⟨_, h1⟩
    · rw [hy] at h1; cases h1
    · split
      · rename_i hm
        rw [markYield, if_neg (fun h => hno ⟨hiff.1 hm, hkind.2 h⟩)]
        exact h1
      · exact h1

/-- For every pair of vehicles in conflict, one of the two must yield. -/
theorem conflict_resolved (r : Road) (i j : ℕ) (v w : Vehicle) (hij : i < j) (hv : r.vehicles[i]? = some v)
    (hw : r.vehicles[j]? = some w) (hc : InConflict r.network v w) : MustYield r i ∨ MustYield r j := by
  by_cases h : GivesWay v w
  · exact .inl ⟨j, v, w, hv, hw, .inl ⟨hij, hc, h⟩⟩
  · exact .inr ⟨i, w, v, hw, hv, .inr ⟨hij, hc, h⟩⟩

/-- The vehicle of the agent (discrete-action class) is never touched by a pass, in any reachable state: it is not yielding after any
history that started with it not yielding (as constructed). -/
theorem ego_untouched (G : Globals) (hn : 0 < G.speedCount) (r0 r r' : Road) (hrun : RoadRun G r0 r)
    (h0 : ∀ v ∈ r0.vehicles, v.kind = .mdp → OnLadder G v ∧ v.isYielding = false)
    (h : r.enforceRoadRules = .ok r') (i : ℕ) (v : Vehicle) (hv : r.vehicles[i]? = some v) (hk : v.kind = .mdp) :
    r'.vehicles[i]? = some v := by
  obtain ⟨w, hw, _, _, _, h3⟩ := regulation_pass r r' h i v hv
  have hy := mdp_not_yielding G hn r0 r h0 hrun v (List.mem_of_getElem? hv) hk
  rw [h3 (fun h => h.2.2 hk) hy] at hw
  exact hw

/-- The pass is run by `step(dt)` exactly when the number of steps, this one included, is a multiple of `int(1/dt/2)`. -/
theorem regulation_schedule (r r' : Road) (dt : ℝ) (hreg : r.regulated = true) (h : r.step dt = .ok r') :
    r'.steps = r.steps + 1 ∧ pyInt (1 / dt / 2) ≠ 0 ∧
    ((((r.steps + 1 : ℕ) : Int) % pyInt (1 / dt / 2) = 0) →
      ∃ r1, ({ r with steps := r.steps + 1 } : Road).enforceRoadRules = .ok r1 ∧ r1.stepBase dt = .ok r') ∧
    ((((r.steps + 1 : ℕ) : Int) % pyInt (1 / dt / 2) ≠ 0) → ({ r with steps := r.steps + 1 } : Road).stepBase dt = .ok r') := by
  unfold Road.step at h
  rw [if_pos hreg] at h
  unfold stepRegulated REGULATION_FREQUENCY at h
  dsimp only at h
  split at h
  · cases h
  · rename_i hp
    obtain ⟨r1, h1, h⟩ := bind_ok h
    have hp' : pyInt (1 / dt / 2) ≠ 0 := by exact_mod_cast hp
    have hsteps := (stepBase_frame h).2.2.2.2.1
    unfold maybeEnforce at h1
    have ecast : ((2 : ℕ) : ℝ) = 2 := by norm_num
    rw [ecast] at h1
    split at h1
    · rename_i hz
      refine ⟨?_, hp', fun _ => ⟨r1, h1, h⟩, fun hne => absurd hz hne⟩
      rw [hsteps, (enforce_frame h1).2.1.steps]
    · rename_i hz
      cases h1
      refine ⟨hsteps, hp', fun he => absurd he hz, fun _ => h⟩

/-! ### Non-vacuity: two cars standing 3 m apart on the same lane -/

namespace Jam
open Sample

/-- Two traffic cars standing on the first lane of the sample road, at 10 m and 13 m. -/
def road : Road :=
  { network := net, vehicles := [car 0 .idm 10 0 0, car 1 .idm 13 0 0], rng := ⟨fun _ => 0, fun _ => 0, 0, 0⟩, regulated := true }

theorem predict (uid : ℕ) (x : ℝ) (ts : List ℝ) :
    (car uid .idm x 0 0).predictConstantSpeed net ts = .ok (ts.map fun _ => (⟨x, 0⟩, 0)) := by
  have h0 : (car uid .idm x 0 0).lane.localCoordinates (car uid .idm x 0 0).pos = (x, 0) := by
    show (lane 0).localCoordinates ⟨x, 0⟩ = (x, 0)
    rw [lane_local]; simp
  unfold Vehicle.predictConstantSpeed
  rw [if_pos (show (car uid .idm x 0 0).kind.isControlled = true from rfl), h0]
  have hl : net.getLaneStep (LaneIndex.toStep ⟨"0", "1", 0⟩) = .ok (lane 0) := by
    simp [Graph.getLaneStep, Graph.getLane, Graph.lanesOf, net, LaneIndex.toStep, Dict.getItem, Dict.get?, pyIndex, bind, Except.bind]
  have hs : √((100 : ℝ) ^ 2) = 100 := by rw [Real.sqrt_sq (by norm_num)]
  have hp : (lane 0).position x 0 = ⟨x, 0⟩ := by
    simp [Lane.position, lane, Lane.straightPosition, Lane.straightDir, Vec2.norm, hs]
  have hh : (lane 0).headingAt x = 0 := by
    simp only [Lane.headingAt, lane, Lane.straightHeading, arctan2]
    rw [show (⟨100 - 0, 4 * ((0 : ℕ) : ℝ) - 4 * ((0 : ℕ) : ℝ)⟩ : ℂ) = ((100 : ℝ) : ℂ) by apply Complex.ext <;> simp]
    exact Complex.arg_ofReal_of_nonneg (by norm_num)
  induction ts with
  | nil => rfl
  | cons t ts ih =>
    rw [List.mapM_cons]
    simp only [car, zero_mul, add_zero, Graph.positionHeadingAlongRoute, hl] at ih ⊢
    rw [ih]
    simp [bind, Except.bind, pure, Except.pure, hp, hh]

theorem conflict : InConflict net (car 0 .idm 10 0 0) (car 1 .idm 13 0 0) := by
  refine ⟨_, _, 0, (⟨10, 0⟩, 0), (⟨13, 0⟩, 0), predict _ _ _, predict _ _ _, ?_, ?_, ?_, ?_⟩
  · rfl
  · rfl
  · simp [Vec2.norm]
    rw [Real.sqrt_sq (by norm_num)]; norm_num
  · simp [rotatedRectanglesIntersect, hasCornerInside, samplePoints, pointInRotatedRectangle, pointInRectangle, Vec2.rot]
    norm_num

/-- The rear car must yield, the front car need not. -/
theorem rear_yields : MustYield road 0 ∧ ¬ MustYield road 1 := by
  have hg : GivesWay (car 0 .idm 10 0 0) (car 1 .idm 13 0 0) := by
    refine .inr ⟨rfl, ?_⟩
    simp [seenAhead, car]; norm_num
  refine ⟨⟨1, _, _, rfl, rfl, .inl ⟨by norm_num, conflict, hg⟩⟩, ?_⟩
  rintro ⟨j, v, w, hv, hw, ⟨hj, hc, _⟩ | ⟨hj, hc, hn⟩⟩
  · have := (List.getElem?_eq_some_iff.1 hw).1
    simp [road] at this
    omega
  · obtain rfl : j = 0 := by omega
    cases hv; cases hw
    exact hn hg

/-- The pass succeeds here (C75), so `regulation_pass` applies: the rear car is given target speed 0, the front car is unchanged. -/
example : ∃ r' w0 w1, road.enforceRoadRules = .ok r' ∧ r'.vehicles[0]? = some w0 ∧ r'.vehicles[1]? = some w1 ∧
    w0.targetSpeed = 0 ∧ w0.isYielding = true ∧ w1 = car 1 .idm 13 0 0 := by
  have h : ∃ r', road.enforceRoadRules = .ok r' := by
    have hc : ∃ b, isConflictPossible net (car 0 .idm 10 0 0) (car 1 .idm 13 0 0) = .ok b :=
      ⟨true, (conflict_iff _ _ _).2 conflict⟩
    obtain ⟨b, hb⟩ := hc
    have hm : road.vehicles.mapM release = .ok road.vehicles := by
      simp [road, release, car, List.mapM_cons, List.mapM_nil, bind, Except.bind, pure, Except.pure]
    have hp : pairs road.vehicles.length = [(0, 1)] := rfl
    unfold enforceRoadRules
    rw [hm]
    simp only [bind, Except.bind, hp, List.foldlM_cons, List.foldlM_nil]
    have hr : resolvePair road.network road.vehicles (0, 1) = .ok (if b then
      (if firstYields (car 0 .idm 10 0 0) (car 1 .idm 13 0 0) then road.vehicles.set 0 (markYield (car 0 .idm 10 0 0))
        else road.vehicles.set 1 (markYield (car 1 .idm 13 0 0))) else road.vehicles) := by
      simp only [resolvePair, road, List.getElem?_cons_zero, List.getElem?_cons_succ, hb, bind, Except.bind]
      split_ifs <;> rfl
    rw [hr]
    exact ⟨_, rfl⟩
  obtain ⟨r', hr⟩ := h
  obtain ⟨w0, h0, _, k0, _⟩ := regulation_pass road r' hr 0 _ rfl
  obtain ⟨w1, h1, _, _, _, k1⟩ := regulation_pass road r' hr 1 _ rfl
  have := k0 rear_yields.1 ⟨rfl, by decide⟩
  exact ⟨r', w0, w1, hr, h0, h1, this.1, this.2.1, k1 (fun h => rear_yields.2 h.1) rfl⟩

/-- The schedule: at 10 Hz the pass runs at every fifth step. -/
example : pyInt (1 / (1 / 10) / 2) = 5 := by norm_num [pyInt]

end Jam

end HighwayEnv.Props
