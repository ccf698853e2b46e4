import Verif.Spec.Ttc
import Verif.Spec.Sample
import Verif.Lemmas.Road

/-!
# C51, C52: time-to-collision grids and observations, finite MDP abstraction
-/

noncomputable section
open Classical
namespace HighwayEnv.Props
open HighwayEnv Spec Graph

/-! ## Lemmas -/

private theorem notZero_eq (x : ℝ) : notZero x = awayFromZero x := by
  unfold notZero awayFromZero
  by_cases h : |x| > 1 / 100
  · rw [if_pos h, if_neg (not_le.2 h)]
  · rw [if_neg h, if_pos (not_lt.1 h)]

private theorem ttc_eq (v w : Vehicle) (s m : ℝ) : timeToCollision v w s m = reachTime v w s m := by
  unfold timeToCollision reachTime
  rw [notZero_eq, Real.cos_sub]
  rfl

private theorem level_eq (G : Globals) (h : ℕ) : Vehicle.indexToSpeed G h = speedLevel G h := by
  unfold Vehicle.indexToSpeed speedLevel
  simp

/-- `g'` is `g` with every entry raised to the greatest of the costs `P` gives for it. -/
private structure Raised (P : ℕ → ℕ → ℕ → ℝ → Prop) (g g' : Grid3) : Prop where
  s : g'.s = g.s
  l : g'.l = g.l
  t : g'.t = g.t
  at' : ∀ h i j, i < g.l → j < g.t → IsGreatest {c | c = g.at' h i j ∨ P h i j c} (g'.at' h i j)

private theorem Raised.trans {P Q : ℕ → ℕ → ℕ → ℝ → Prop} {g g1 g2 : Grid3} (h1 : Raised P g g1) (h2 : Raised Q g1 g2) :
    Raised (fun h i j c => P h i j c ∨ Q h i j c) g g2 := by
  refine ⟨h2.s.trans h1.s, h2.l.trans h1.l, h2.t.trans h1.t, fun h i j hi hj => ?_⟩
  obtain ⟨m1, u1⟩ := h1.at' h i j hi hj
  obtain ⟨m2, u2⟩ := h2.at' h i j (h1.l.symm ▸ hi) (h1.t.symm ▸ hj)
  constructor
  · rcases m2 with e | e
    · rw [e]
      rcases m1 with e1 | e1
      · exact .inl e1
      · exact .inr (.inl e1)
    · exact .inr (.inr e)
  · have ge : g1.at' h i j ≤ g2.at' h i j := u2 (.inl rfl)
    rintro c (rfl | hc | hc)
    · exact le_trans (u1 (.inl rfl)) ge
    · exact le_trans (u1 (.inr hc)) ge
    · exact u2 (.inr hc)

private theorem Raised.refl {P : ℕ → ℕ → ℕ → ℝ → Prop} {g : Grid3} (h : ∀ h i j c, i < g.l → j < g.t → ¬ P h i j c) : Raised P g g :=
  ⟨rfl, rfl, rfl, fun a i j hi hj => ⟨.inl rfl, by rintro c (rfl | hc); exacts [le_rfl, absurd hc (h _ _ _ _ hi hj)]⟩⟩

private theorem Raised.congr {P Q : ℕ → ℕ → ℕ → ℝ → Prop} {g g' : Grid3} (h : Raised P g g')
    (hpq : ∀ h i j c, i < g.l → j < g.t → (P h i j c ↔ Q h i j c)) : Raised Q g g' := by
  refine ⟨h.s, h.l, h.t, fun a i j hi hj => ?_⟩
  have := h.at' a i j hi hj
  have e : {c | c = g.at' a i j ∨ P a i j c} = {c | c = g.at' a i j ∨ Q a i j c} := by
    ext c; simp only [Set.mem_ofPred_eq, hpq a i j c hi hj]
  rwa [e] at this

private theorem Raised.fold {α : Type} {f : Grid3 → α → Py Grid3} {P : α → ℕ → ℕ → ℕ → ℝ → Prop} {L T : ℕ} (l : List α)
    (hf : ∀ a ∈ l, ∀ g g', g.l = L → g.t = T → f g a = .ok g' → Raised (P a) g g') (g g' : Grid3) (hl : g.l = L) (ht : g.t = T)
    (h : l.foldlM f g = .ok g') : Raised (fun h i j c => ∃ a ∈ l, P a h i j c) g g' := by
  induction l generalizing g with
  | nil =>
    rw [List.foldlM_nil] at h; cases h
    exact Raised.refl (by simp)
  | cons a l ih =>
    rw [List.foldlM_cons] at h
    obtain ⟨g1, h1, h⟩ := bind_ok h
    have r1 := hf a (by simp) g g1 hl ht h1
    have r2 := ih (fun b hb => hf b (by simp [hb])) g1 (r1.l.trans hl) (r1.t.trans ht) h
    refine (r1.trans r2).congr fun h i j c _ _ => ?_
    simp

private theorem axis_ok {n : ℕ} {i : Int} {k : ℕ} (h : Grid3.axisIndex n i = .ok k) (h0 : 0 ≤ i) : i = (k : Int) ∧ k < n := by
  unfold Grid3.axisIndex at h
  rw [if_neg (not_lt.2 h0)] at h
  dsimp only at h
  split at h
  · rename_i hk; cases h; omega
  · cases h

private theorem mem_axis {n : ℕ} {lanes : List Int} {is : List ℕ} (h : lanes.mapM (Grid3.axisIndex n) = .ok is) (h0 : ∀ i ∈ lanes, 0 ≤ i) :
    ∀ i : ℕ, i ∈ is ↔ (i : Int) ∈ lanes := by
  induction lanes generalizing is with
  | nil => rw [List.mapM_nil] at h; cases h; simp
  | cons a lanes ih =>
    rw [List.mapM_cons] at h
    obtain ⟨k, hk, h⟩ := bind_ok h
    obtain ⟨ks, hks, h⟩ := bind_ok h
    cases h
    have e := axis_ok hk (h0 a (by simp))
    intro i
    have := ih hks (fun b hb => h0 b (by simp [hb])) i
    simp only [List.mem_cons, this, e.1]
    constructor
    · rintro (rfl | h)
      exacts [.inl rfl, .inr h]
    · rintro (h | h)
      exacts [.inl (by omega), .inr h]

private theorem raise_raised {g g' : Grid3} {h : ℕ} {lanes : List Int} {k : ℕ} {c : ℝ} (h0 : ∀ i ∈ lanes, 0 ≤ i)
    (hr : g.raise h lanes k c = .ok g') : Raised (fun h' i k' c' => h' = h ∧ (i : Int) ∈ lanes ∧ k' = k ∧ c' = c) g g' := by
  unfold Grid3.raise at hr
  obtain ⟨is, hi, hr⟩ := bind_ok hr
  split at hr
  · cases hr
  cases hr
  have hm := mem_axis hi h0
  refine ⟨rfl, rfl, rfl, fun h' i k' _ _ => ?_⟩
  dsimp only
  by_cases hc : h' = h ∧ i ∈ is ∧ k' = k
  · rw [if_pos hc]
    constructor
    · rcases max_choice (g.at' h' i k') c with e | e
      · exact .inl e
      · exact .inr ⟨hc.1, (hm i).1 hc.2.1, hc.2.2, e⟩
    · rintro c' (rfl | ⟨_, _, _, rfl⟩)
      exacts [le_max_left _ _, le_max_right _ _]
  · rw [if_neg hc]
    refine ⟨.inl rfl, ?_⟩
    rintro c' (rfl | ⟨e1, e2, e3, rfl⟩)
    · exact le_rfl
    · exact absurd ⟨e1, (hm i).2 e2, e3⟩ hc

private theorem putTime_raised {g g' : Grid3} {h : ℕ} {lanes : List Int} {c : ℝ} {time : Int} (h0 : ∀ i ∈ lanes, 0 ≤ i)
    (hr : putTime h lanes c g time = .ok g') : Raised (fun h' i k' c' => h' = h ∧ (i : Int) ∈ lanes ∧ (k' : Int) = time ∧ c' = c) g g' := by
  unfold putTime at hr
  split at hr
  · rename_i ht
    refine (raise_raised h0 hr).congr fun h' i k' c' _ _ => ?_
    constructor
    · rintro ⟨e1, e2, e3, e4⟩; exact ⟨e1, e2, by omega, e4⟩
    · rintro ⟨e1, e2, e3, e4⟩; exact ⟨e1, e2, by omega, e4⟩
  · rename_i ht
    cases hr
    refine Raised.refl fun h' i k' c' _ hk => ?_
    rintro ⟨_, _, rfl, _⟩
    exact ht ⟨by omega, by omega⟩

private theorem sideLanes_eq {g : Graph} {i : LaneIndex} {ls : List LaneIndex} (hg : IsPyGraph g) (h : g.allSideLanes i = .ok ls) :
    ∃ rs, RoadLanes g i.src i.dst rs ∧ ls.length = rs.length := by
  unfold allSideLanes at h
  obtain ⟨rs, hr, h⟩ := bind_ok h
  cases h
  exact ⟨rs, (lanesOf_ok_iff hg).1 hr, by simp⟩

private theorem sideLanes_ok {g : Graph} {i : LaneIndex} (hg : IsPyGraph g) (hi : ValidIndex g i) :
    ∃ ls rs, g.allSideLanes i = .ok ls ∧ RoadLanes g i.src i.dst rs ∧ ls.length = rs.length ∧ 0 ≤ i.id ∧ i.id < rs.length := by
  obtain ⟨k, l, hk, rs, hr, hl⟩ := hi
  have hlen : k < rs.length := (List.getElem?_eq_some_iff.1 hl).1
  refine ⟨(List.range rs.length).map fun k : ℕ => ⟨i.src, i.dst, (k : Int)⟩, rs, ?_, hr, ?_, by omega, by omega⟩
  · unfold allSideLanes
    rw [(lanesOf_ok_iff hg).2 hr]
    rfl
  · simp

theorem roadLanes_unique {g : Graph} (hg : IsPyGraph g) {a b : String} {l1 l2 : List Lane} (h1 : RoadLanes g a b l1)
    (h2 : RoadLanes g a b l2) : l1 = l2 := by
  have e1 := (lanesOf_ok_iff hg).2 h1
  have e2 := (lanesOf_ok_iff hg).2 h2
  exact Except.ok.inj (e1.symm.trans e2)

private theorem expected_spec {g : Graph} {v w : Vehicle} {n : ℕ} {lanes : List Int} (hg : IsPyGraph g)
    (hw : 0 ≤ w.laneIndex.id) (h : expectedLanes g v w n = .ok lanes) :
    (∀ i ∈ lanes, 0 ≤ i) ∧ ∀ i : ℕ, i < n → ((i : Int) ∈ lanes ↔ (SameLaneCount g w.laneIndex v.laneIndex → w.laneIndex.id = (i : Int))) := by
  unfold expectedLanes at h
  obtain ⟨a, ha, h⟩ := bind_ok h
  obtain ⟨b, hb, h⟩ := bind_ok h
  obtain ⟨ra, ha1, ha2⟩ := sideLanes_eq hg ha
  obtain ⟨rb, hb1, hb2⟩ := sideLanes_eq hg hb
  have hs : SameLaneCount g w.laneIndex v.laneIndex ↔ a.length = b.length := by
    constructor
    · rintro ⟨la, lb, e1, e2, e3⟩
      rw [ha2, hb2, roadLanes_unique hg ha1 e1, roadLanes_unique hg hb1 e2, e3]
    · intro e
      exact ⟨ra, rb, ha1, hb1, by omega⟩
  cases h
  by_cases e : a.length = b.length
  · rw [if_pos e]
    refine ⟨by simpa using hw, fun i hi => ?_⟩
    simp only [List.mem_singleton, hs, e, true_implies]
    exact eq_comm
  · rw [if_neg e]
    refine ⟨by simp, fun i hi => ?_⟩
    simp only [hs, e, false_implies, iff_true]
    exact List.mem_map.2 ⟨i, List.mem_range.2 hi, rfl⟩

/-- The predictions of one collision point of one vehicle. -/
private def PointCost (g : Graph) (v w : Vehicle) (q speed : ℝ) (n : ℕ) (mc : ℝ × ℝ) (h i j : ℕ) (c : ℝ) : Prop :=
  h = n ∧ c = mc.2 ∧ g.isConnectedRoad v.laneIndex.toStep w.laneIndex.toStep v.route false 3 = true ∧
    (SameLaneCount g w.laneIndex v.laneIndex → w.laneIndex.id = (i : Int)) ∧ 0 ≤ reachTime v w speed mc.1 ∧
    (⌊reachTime v w speed mc.1 / q⌋ = (j : Int) ∨ ⌈reachTime v w speed mc.1 / q⌉ = (j : Int))

private theorem point_raised {g : Graph} (hg : IsPyGraph g) {v w : Vehicle} (hw : 0 ≤ w.laneIndex.id) {q speed : ℝ} (hq : 0 < q) {n : ℕ}
    {mc : ℝ × ℝ} {grid grid' : Grid3} (h : ttcPoint g v w q n speed grid mc = .ok grid') :
    Raised (PointCost g v w q speed n mc) grid grid' := by
  unfold ttcPoint at h
  dsimp only at h
  rw [ttc_eq] at h
  split at h
  · rename_i hn
    cases h
    exact Raised.refl fun h i j c _ _ hc => absurd hc.2.2.2.2.1 (not_le.2 hn)
  · rename_i hn
    push Not at hn
    split at h
    · rename_i hcon
      obtain ⟨lanes, hl, h⟩ := bind_ok h
      obtain ⟨h0, hm⟩ := expected_spec hg hw hl
      have := Raised.fold (L := grid.l) (T := grid.t) _ (fun time _ g1 g2 _ _ e => putTime_raised (time := time) h0 e) grid grid' rfl rfl h
      refine this.congr fun h' i j c hi hj => ?_
      have hpi : pyInt (reachTime v w speed mc.1 / q) = ⌊reachTime v w speed mc.1 / q⌋ := if_pos (div_nonneg hn hq.le)
      simp only [List.mem_cons, List.not_mem_nil, or_false, exists_eq_or_imp, exists_eq_left, hpi, hm i hi, PointCost, hcon, hn, true_and]
      constructor
      · rintro (⟨e1, e2, e3, e4⟩ | ⟨e1, e2, e3, e4⟩)
        · exact ⟨e1, e4, e2, .inl e3.symm⟩
        · exact ⟨e1, e4, e2, .inr e3.symm⟩
      · rintro ⟨e1, e4, e2, e3 | e3⟩
        · exact .inl ⟨e1, e2, e3.symm, e4⟩
        · exact .inr ⟨e1, e2, e3.symm, e4⟩
    · rename_i hcon
      cases h
      exact Raised.refl fun h i j c _ _ hc => absurd hc.2.2.1 hcon

private theorem other_raised {g : Graph} (hg : IsPyGraph g) {v w : Vehicle} (hw : 0 ≤ w.laneIndex.id) {q speed : ℝ} (hq : 0 < q) {n : ℕ}
    {grid grid' : Grid3} (h : ttcOther g v q n speed grid w = .ok grid') :
    Raised (fun h i j c => w.uid ≠ v.uid ∧ w.speed ≠ speed ∧ ∃ mc ∈ collisionPoints, PointCost g v w q speed n mc h i j c) grid grid' := by
  unfold ttcOther at h
  split at h
  · rename_i hs
    cases h
    refine Raised.refl fun h i j c _ _ hc => ?_
    rcases hs with e | e
    · exact hc.1 e
    · exact hc.2.1 e.symm
  · rename_i hs
    push Not at hs
    have := Raised.fold (L := grid.l) (T := grid.t) _ (fun mc _ g1 g2 _ _ e => point_raised hg hw hq (mc := mc) e) grid grid' rfl rfl h
    refine this.congr fun h i j c _ _ => ?_
    simp only [ne_eq, hs.1, not_false_eq_true, Ne.symm hs.2, true_and]

private theorem points (P : ℝ × ℝ → Prop) : (∃ mc ∈ collisionPoints, P mc) ↔ P (0, 1) ∨ P (-5, 1 / 2) ∨ P (5, 1 / 2) := by
  simp only [collisionPoints, Vehicle.LENGTH, List.mem_cons, List.not_mem_nil, or_false, exists_eq_or_imp, exists_eq_left]
  norm_num

/-! ## C51 -/

/-- **C51.**  A time-to-collision grid has one plane per speed level, one row per lane of the road of the agent and one cell per time
quantum of the horizon; every cell holds the greatest cost of the collisions predicted there, 0 if there is none. -/
theorem ttc_grid (G : Globals) (r : Road) (egoLane : LaneIndex) (v : Vehicle) (q horizon : ℝ) (hr : TtcOk r v) (hq : 0 < q)
    (grid : Grid3) (h : computeTtcGrid G r egoLane v q horizon = .ok grid) :
    grid.s = G.speedCount ∧ (∃ ls, RoadLanes r.network egoLane.src egoLane.dst ls ∧ grid.l = ls.length) ∧
    (grid.t : Int) = pyInt (horizon / q) ∧
    ∀ a i j, a < grid.s → i < grid.l → j < grid.t → IsGreatest {c | c = 0 ∨ Predicted G r v q a i j c} (grid.at' a i j) := by
  unfold computeTtcGrid at h
  obtain ⟨rl, hl, h⟩ := bind_ok h
  obtain ⟨ls, hls, hlen⟩ := sideLanes_eq hr.net hl
  rw [if_neg (by simp [hr.mdp]), if_neg hq.ne'] at h
  split at h
  · cases h
  rename_i hT
  dsimp only at h
  have hid : ∀ w ∈ r.vehicles, 0 ≤ w.laneIndex.id := fun w hw => by
    obtain ⟨k, l, hk, _⟩ := hr.others w hw; omega
  have key := Raised.fold (L := rl.length) (T := (pyInt (horizon / q)).toNat) _
    (fun n _ g1 g2 hl1 ht1 e => Raised.fold (L := g1.l) (T := g1.t) _
      (fun w hw g3 g4 _ _ e => other_raised hr.net (hid w hw) hq e) g1 g2 rfl rfl e) _ grid rfl rfl h
  refine ⟨key.s, ⟨ls, hls, by rw [key.l]; exact hlen⟩, ?_, fun a i j ha hi hj => ?_⟩
  · rw [key.t]; show (((pyInt (horizon / q)).toNat : ℕ) : Int) = _; omega
  · have := key.at' a i j (key.l ▸ hi) (key.t ▸ hj)
    convert this using 1
    ext c
    simp only [Set.mem_ofPred_eq]
    refine or_congr Iff.rfl ?_
    have ha' : a < G.speedCount := lt_of_lt_of_eq ha key.s
    constructor
    · rintro ⟨w, hw, ⟨n1, n2, n3⟩, hln, m, hm, h0, hj'⟩
      refine ⟨a, List.mem_range.2 ha', w, hw, n1, by rw [level_eq]; exact n2, ?_⟩
      rw [points, level_eq]
      rcases hm with ⟨rfl, rfl⟩ | ⟨rfl | rfl, rfl⟩
      · exact .inl ⟨rfl, rfl, n3, hln, h0, hj'⟩
      · exact .inr (.inr ⟨rfl, rfl, n3, hln, h0, hj'⟩)
      · exact .inr (.inl ⟨rfl, rfl, n3, hln, h0, hj'⟩)
    · rintro ⟨n, hn, w, hw, n1, n2, hp⟩
      rw [points] at hp
      rcases hp with ⟨rfl, rfl, n3, hln, h0, hj'⟩ | ⟨rfl, rfl, n3, hln, h0, hj'⟩ | ⟨rfl, rfl, n3, hln, h0, hj'⟩ <;>
        rw [level_eq] at n2 h0 hj'
      · exact ⟨w, hw, ⟨n1, n2, n3⟩, hln, 0, .inl ⟨rfl, rfl⟩, h0, hj'⟩
      · exact ⟨w, hw, ⟨n1, n2, n3⟩, hln, -5, .inr ⟨.inr rfl, rfl⟩, h0, hj'⟩
      · exact ⟨w, hw, ⟨n1, n2, n3⟩, hln, 5, .inr ⟨.inl rfl, rfl⟩, h0, hj'⟩

/-- Every cell of the grid is 0, 1/2 or 1. -/
theorem ttc_values (G : Globals) (r : Road) (egoLane : LaneIndex) (v : Vehicle) (q horizon : ℝ) (hr : TtcOk r v) (hq : 0 < q)
    (grid : Grid3) (h : computeTtcGrid G r egoLane v q horizon = .ok grid) (a i j : ℕ) (ha : a < grid.s) (hi : i < grid.l) (hj : j < grid.t) :
    grid.at' a i j = 0 ∨ grid.at' a i j = 1 / 2 ∨ grid.at' a i j = 1 := by
  obtain ⟨m, _⟩ := (ttc_grid G r egoLane v q horizon hr hq grid h).2.2.2 a i j ha hi hj
  rcases m with e | ⟨w, _, _, _, m, ⟨_, e⟩ | ⟨_, e⟩, _⟩
  · exact .inl e
  · exact .inr (.inr e)
  · exact .inr (.inl e)

private theorem fold_ok {α : Type} {f : Grid3 → α → Py Grid3} (P : Grid3 → Prop) (l : List α)
    (hf : ∀ a ∈ l, ∀ g, P g → ∃ g', f g a = .ok g' ∧ P g') (g : Grid3) (hg : P g) : ∃ g', l.foldlM f g = .ok g' ∧ P g' := by
  induction l generalizing g with
  | nil => exact ⟨g, by rw [List.foldlM_nil]; rfl, hg⟩
  | cons a l ih =>
    obtain ⟨g1, e1, hg1⟩ := hf a (by simp) g hg
    obtain ⟨g2, e2, hg2⟩ := ih (fun b hb => hf b (by simp [hb])) g1 hg1
    exact ⟨g2, by rw [List.foldlM_cons, e1]; exact e2, hg2⟩

private theorem axis_total {n : ℕ} {i : Int} (h0 : 0 ≤ i) (hn : i < n) : ∃ k, Grid3.axisIndex n i = .ok k := by
  unfold Grid3.axisIndex
  rw [if_neg (not_lt.2 h0)]
  exact ⟨i.toNat, if_pos ⟨h0, hn⟩⟩

private theorem putTime_total {g : Grid3} {h : ℕ} {lanes : List Int} {c : ℝ} {time : Int} (h0 : ∀ i ∈ lanes, 0 ≤ i ∧ i < g.l)
    (hs : h < g.s) : ∃ g', putTime h lanes c g time = .ok g' ∧ g'.s = g.s ∧ g'.l = g.l ∧ g'.t = g.t := by
  unfold putTime
  split
  · rename_i ht
    unfold Grid3.raise
    obtain ⟨is, hi⟩ := mapM_ok (f := Grid3.axisIndex g.l) lanes fun i hi => axis_total (h0 i hi).1 (h0 i hi).2
    rw [hi]
    simp only [bind, Except.bind]
    rw [if_neg (by omega)]
    exact ⟨_, rfl, rfl, rfl, rfl⟩
  · exact ⟨g, rfl, rfl, rfl, rfl⟩

/-- An agent can always compute its own grid: with vehicles on existing lanes, no exception is raised — in particular no lane overflow. -/
theorem ttc_never_raises (G : Globals) (r : Road) (v : Vehicle) (q horizon : ℝ) (hr : TtcOk r v) (hq : 0 < q) (hh : 0 ≤ horizon) :
    ∃ grid, computeTtcGrid G r v.laneIndex v q horizon = .ok grid := by
  obtain ⟨ls, rs, e1, e2, e3, e4, e5⟩ := sideLanes_ok hr.net hr.here
  have h0 : 0 ≤ horizon / q := div_nonneg hh hq.le
  have hT : ¬ pyInt (horizon / q) < 0 := by
    unfold pyInt; rw [if_pos h0]; exact not_lt.2 (Int.floor_nonneg.2 h0)
  unfold computeTtcGrid
  simp only [e1, bind, Except.bind, hr.mdp, ne_eq, not_true_eq_false, if_false, hq.ne', hT]
  have key := fold_ok (fun g => g.s = G.speedCount ∧ g.l = ls.length)
    (f := fun grid h => r.vehicles.foldlM (ttcOther r.network v q h (Vehicle.indexToSpeed G h)) grid) (List.range G.speedCount) ?_
    (Grid3.zeros G.speedCount ls.length (pyInt (horizon / q)).toNat) ⟨rfl, rfl⟩
  · obtain ⟨g', hg, _⟩ := key
    exact ⟨g', hg⟩
  intro n hn g hg
  apply fold_ok _ _ _ _ hg
  intro w hw g hg
  unfold ttcOther
  split
  · exact ⟨g, rfl, hg⟩
  · apply fold_ok _ _ _ _ hg
    intro mc _ g hg
    unfold ttcPoint
    dsimp only
    split
    · exact ⟨g, rfl, hg⟩
    · split
      · obtain ⟨ls', rs', f1, f2, f3, f4, f5⟩ := sideLanes_ok hr.net (hr.others w hw)
        simp only [expectedLanes, e1, f1, bind, Except.bind, pure, Except.pure]
        apply fold_ok _ _ _ _ hg
        intro time _ g' hg'
        obtain ⟨g2, k1, k2, k3, _⟩ := putTime_total (g := g') (h := n) (c := mc.2) (time := time)
          (lanes := if ls'.length = ls.length then [w.laneIndex.id] else (List.range g.l).map fun k : ℕ => (k : Int)) (by
            intro i hi
            split at hi
            · simp only [List.mem_singleton] at hi; omega
            · obtain ⟨k, hk, rfl⟩ := List.mem_map.1 hi
              have := List.mem_range.1 hk
              omega) (by have := List.mem_range.1 hn; omega)
        exact ⟨g2, k1, by omega, by omega⟩
      · exact ⟨g, rfl, hg⟩

private theorem fold_each {α : Type} {f : Grid3 → α → Py Grid3} {L T : ℕ} (l : List α)
    (hf : ∀ a ∈ l, ∀ g g', g.l = L → g.t = T → f g a = .ok g' → g'.l = L ∧ g'.t = T) (g g' : Grid3) (hl : g.l = L) (ht : g.t = T)
    (h : l.foldlM f g = .ok g') : ∀ a ∈ l, ∃ g1 g2, g1.l = L ∧ g1.t = T ∧ f g1 a = .ok g2 := by
  induction l generalizing g with
  | nil => simp
  | cons a l ih =>
    rw [List.foldlM_cons] at h
    obtain ⟨g1, h1, h⟩ := bind_ok h
    obtain ⟨hl1, ht1⟩ := hf a (by simp) g g1 hl ht h1
    intro b hb
    rcases List.mem_cons.1 hb with rfl | hb
    · exact ⟨g, g1, hl, ht, h1⟩
    · exact ih (fun c hc => hf c (by simp [hc])) g1 hl1 ht1 h b hb

/-- **Lane overflow.**  For an observer on another road than the first agent, the computation raises as soon as a relevant vehicle, on a
road with as many lanes as the one of the observer, has a lane number that the road of the first agent does not have and is reached
within the horizon. -/
theorem ttc_overflow (G : Globals) (r : Road) (egoLane : LaneIndex) (v w : Vehicle) (q horizon : ℝ) (hr : TtcOk r v) (hq : 0 < q)
    (hw : w ∈ r.vehicles) (n : ℕ) (hn : n < G.speedCount) (hrel : Relevant r.network v w (speedLevel G n))
    (hs : SameLaneCount r.network w.laneIndex v.laneIndex) (ls : List Lane) (hls : RoadLanes r.network egoLane.src egoLane.dst ls)
    (hid : (ls.length : Int) ≤ w.laneIndex.id) (h0 : 0 ≤ reachTime v w (speedLevel G n) 0)
    (hT : ⌊reachTime v w (speedLevel G n) 0 / q⌋ < ⌊horizon / q⌋) (grid : Grid3) :
    computeTtcGrid G r egoLane v q horizon ≠ .ok grid := by
  intro h
  have hf0 : 0 ≤ ⌊reachTime v w (speedLevel G n) 0 / q⌋ := Int.floor_nonneg.2 (div_nonneg h0 hq.le)
  have hh : 0 ≤ horizon / q := Int.floor_nonneg.1 (by omega)
  unfold computeTtcGrid at h
  obtain ⟨rl, hl, h⟩ := bind_ok h
  obtain ⟨ls1, hls1, hlen⟩ := sideLanes_eq hr.net hl
  have : ls1 = ls := roadLanes_unique hr.net hls1 hls
  subst this
  rw [if_neg (by simp [hr.mdp]), if_neg hq.ne'] at h
  split at h
  · cases h
  dsimp only at h
  have hid0 : ∀ w ∈ r.vehicles, 0 ≤ w.laneIndex.id := fun w hw => by
    obtain ⟨k, l, hk, _⟩ := hr.others w hw; omega
  have rOther : ∀ m (s : ℝ), ∀ u ∈ r.vehicles, ∀ g g', ttcOther r.network v q m s g u = .ok g' → g'.l = g.l ∧ g'.t = g.t := by
    intro m s u hu g g' e
    have := other_raised hr.net (hid0 u hu) hq e
    exact ⟨this.l, this.t⟩
  have rAll : ∀ m (s : ℝ) g g', r.vehicles.foldlM (ttcOther r.network v q m s) g = .ok g' → g'.l = g.l ∧ g'.t = g.t := by
    intro m s g g' e
    have := Raised.fold (L := g.l) (T := g.t) _ (fun w hw g3 g4 _ _ e => other_raised hr.net (hid0 w hw) hq e) g g' rfl rfl e
    exact ⟨this.l, this.t⟩
  obtain ⟨g1, g2, l1, t1, h1⟩ := fold_each (L := rl.length) (T := (pyInt (horizon / q)).toNat) (List.range G.speedCount)
    (fun m _ g g' hl ht e => by have := rAll _ _ g g' e; exact ⟨by omega, by omega⟩) _ grid rfl rfl h n (List.mem_range.2 hn)
  obtain ⟨g3, g4, l3, t3, h3⟩ := fold_each (L := rl.length) (T := (pyInt (horizon / q)).toNat) r.vehicles
    (fun u hu g g' hl ht e => by have := rOther _ _ u hu g g' e; exact ⟨by omega, by omega⟩) g1 g2 l1 t1 h1 w hw
  unfold ttcOther at h3
  rw [if_neg (by rw [level_eq]; push Not; exact ⟨hrel.1, Ne.symm hrel.2.1⟩)] at h3
  obtain ⟨g5, g6, l5, t5, h5⟩ := fold_each (L := rl.length) (T := (pyInt (horizon / q)).toNat) collisionPoints
    (fun mc hmc g g' hl ht e => by
      have := point_raised hr.net (hid0 w hw) hq e
      exact ⟨this.l.trans hl, this.t.trans ht⟩) g3 g4 l3 t3 h3 (0, 1) (by simp [collisionPoints])
  unfold ttcPoint at h5
  dsimp only at h5
  rw [ttc_eq, level_eq, if_neg (not_lt.2 h0), if_pos hrel.2.2] at h5
  obtain ⟨lanes, hlanes, h5⟩ := bind_ok h5
  have hmem : w.laneIndex.id ∈ lanes := by
    unfold expectedLanes at hlanes
    obtain ⟨a, ha, hlanes⟩ := bind_ok hlanes
    obtain ⟨b, hb, hlanes⟩ := bind_ok hlanes
    obtain ⟨ra, ha1, ha2⟩ := sideLanes_eq hr.net ha
    obtain ⟨rb, hb1, hb2⟩ := sideLanes_eq hr.net hb
    obtain ⟨la, lb, e1, e2, e3⟩ := hs
    have : a.length = b.length := by
      rw [ha2, hb2, roadLanes_unique hr.net ha1 e1, roadLanes_unique hr.net hb1 e2, e3]
    rw [if_pos this] at hlanes
    cases hlanes
    simp
  rw [List.foldlM_cons] at h5
  obtain ⟨g7, h7, _⟩ := bind_ok h5
  have hp1 : pyInt (reachTime v w (speedLevel G n) 0 / q) = ⌊reachTime v w (speedLevel G n) 0 / q⌋ := if_pos (div_nonneg h0 hq.le)
  have hp2 : pyInt (horizon / q) = ⌊horizon / q⌋ := if_pos hh
  unfold putTime at h7
  rw [if_pos (by rw [hp1, t5, hp2]; omega)] at h7
  unfold Grid3.raise at h7
  obtain ⟨is, his, _⟩ := bind_ok h7
  obtain ⟨k, hk⟩ : ∃ k, Grid3.axisIndex g5.l w.laneIndex.id = .ok k := by
    obtain ⟨p, hp⟩ := List.mem_iff_getElem?.1 hmem
    obtain ⟨k, _, hk⟩ := (mapM_pointwise his).2 p _ hp
    exact ⟨k, hk⟩
  have := axis_ok hk (hid0 w hw)
  omega

/-! ### The observation -/

private theorem repeat_rows (m : ℕ) :
    ((List.range (Grid3.repeats (m + 2)).length).flatMap fun k : ℕ => List.replicate ((Grid3.repeats (m + 2)).getD k 0) k) =
      List.replicate (m + 3) 0 ++ ((List.range m).map (· + 1) ++ List.replicate (m + 3) (m + 1)) := by
  have hlen : (Grid3.repeats (m + 2)).length = m + 2 := by simp [Grid3.repeats]
  have hget : ∀ k < m + 2, (Grid3.repeats (m + 2)).getD k 0 = if k = 0 ∨ k + 1 = m + 2 then 1 + (m + 2) else 1 := by
    intro k hk
    simp [Grid3.repeats, List.getD_eq_getElem?_getD, List.getElem?_map, List.getElem?_range hk]
  rw [hlen, List.range_succ, List.range_succ_eq_map, List.flatMap_append, List.flatMap_cons, List.flatMap_singleton, List.append_assoc]
  rw [hget 0 (by omega), hget (m + 1) (by omega), if_pos (by simp), if_pos (by simp)]
  congr 1
  · congr 1; omega
  · congr 1
    · rw [List.flatMap_map]
      have : ∀ k ∈ List.range m, List.replicate ((Grid3.repeats (m + 2)).getD (Nat.succ k) 0) (Nat.succ k) = [k + 1] := by
        intro k hk
        have hk := List.mem_range.1 hk
        rw [hget _ (by omega), if_neg (by omega)]
        rfl
      rw [List.flatMap_congr this]
      exact (List.map_eq_flatMap ..).symm
    · congr 1; omega

private theorem repeat_get (m h : ℕ) (hh : h < 3 * (m + 2)) :
    (List.replicate (m + 3) 0 ++ ((List.range m).map (· + 1) ++ List.replicate (m + 3) (m + 1))).getD h 0 = min (h - (m + 2)) (m + 1) := by
  rw [List.getD_eq_getElem?_getD]
  rcases Nat.lt_or_ge h (m + 3) with h1 | h1
  · rw [List.getElem?_append_left (by simpa using h1), List.getElem?_replicate, if_pos h1]
    show 0 = _
    omega
  · rw [List.getElem?_append_right (by simpa using h1)]
    simp only [List.length_replicate]
    rcases Nat.lt_or_ge (h - (m + 3)) m with h2 | h2
    · rw [List.getElem?_append_left (by simpa using h2), List.getElem?_map, List.getElem?_range h2]
      show h - (m + 3) + 1 = _
      omega
    · rw [List.getElem?_append_right (by simpa using h2), List.getElem?_replicate]
      simp only [List.length_map, List.length_range]
      rw [if_pos (by omega)]
      show m + 1 = _
      omega

/-- **C51, observation.**  With at least two speed levels, and for an agent on the road of the first agent, the observation is a 3 × 3
window of its grid for its speed level and lane and their neighbours: lanes that do not exist count as certain collisions (1), speed
levels that do not exist repeat the nearest one. -/
theorem ttc_observation (G : Globals) (r : Road) (egoLane : LaneIndex) (v : Vehicle) (horizon f : ℝ) (obs : Grid3)
    (h : ttcObserve G r egoLane v horizon f = .ok obs) (hS : 2 ≤ G.speedCount) (hr : TtcOk r v) (hf : 0 < f)
    (n : ℕ) (hn : ∃ ls, RoadLanes r.network egoLane.src egoLane.dst ls ∧ ls.length = n) (hi : v.laneIndex.id < n)
    (hs0 : 0 ≤ v.speedIndex) (hs1 : v.speedIndex < G.speedCount) :
    obs.s = 3 ∧ obs.l = 3 ∧ ∃ grid, computeTtcGrid G r egoLane v (1 / f) horizon = .ok grid ∧ obs.t = grid.t ∧
      ∀ a b k : ℕ, a < 3 → b < 3 → k < obs.t →
        ((v.laneIndex.id - 1 + b < 0 ∨ (n : Int) ≤ v.laneIndex.id - 1 + b) → obs.at' a b k = 1) ∧
        (∀ i : ℕ, i < n → (i : Int) = v.laneIndex.id - 1 + b → ∀ lvl : ℕ,
          (lvl : Int) = max 0 (min (v.speedIndex - 1 + a) (G.speedCount - 1)) → obs.at' a b k = grid.at' lvl i k) := by
  unfold ttcObserve at h
  rw [if_neg hf.ne'] at h
  obtain ⟨grid, hg, h⟩ := bind_ok h
  obtain ⟨g1, ⟨ls, g2, g3⟩, g4, g5⟩ := ttc_grid G r egoLane v (1 / f) horizon hr (by positivity) grid hg
  obtain ⟨ls', hls', hn⟩ := hn
  have := roadLanes_unique hr.net g2 hls'
  subst this
  obtain ⟨id, l, hid, _⟩ := hr.here
  obtain ⟨si, hsi⟩ := Int.eq_ofNat_of_zero_le hs0
  obtain ⟨m, hm⟩ : ∃ m, G.speedCount = m + 2 := ⟨G.speedCount - 2, by omega⟩
  have hgs : grid.s = m + 2 := by omega
  have hgl : grid.l = n := by omega
  have h := Except.ok.inj h
  have hsl : Grid3.sliceBounds (n + n + n) ((n : Int) + v.laneIndex.id - 1) ((n : Int) + v.laneIndex.id + 1 + 1) = (n + id - 1, n + id + 2) := by
    unfold Grid3.sliceBounds
    rw [hid]
    dsimp only
    rw [if_neg (by omega), if_neg (by omega)]
    ext <;> simp <;> omega
  have hss : Grid3.sliceBounds (3 * (m + 2)) (((m + 2 : ℕ) : Int) + v.speedIndex - 1) (((m + 2 : ℕ) : Int) + v.speedIndex + 1 + 1) =
      (m + 2 + si - 1, m + 2 + si + 2) := by
    unfold Grid3.sliceBounds
    rw [hsi]
    dsimp only
    rw [if_neg (by omega), if_neg (by omega)]
    ext <;> simp <;> omega
  have hlen : (List.replicate (m + 3) 0 ++ ((List.range m).map (· + 1) ++ List.replicate (m + 3) (m + 1))).length = 3 * (m + 2) := by
    simp; omega
  simp only [Grid3.sliceSpeeds, Grid3.sliceLanes, Grid3.padLanes, Grid3.repeatSpeeds, hgs, hgl, repeat_rows, hlen, hsl, hss] at h
  subst h
  refine ⟨by simp; omega, by simp; omega, grid, hg, rfl, fun a b k ha hb hk => ⟨fun ho => ?_, fun i hi' hib lvl hlvl => ?_⟩⟩
  · dsimp only
    rw [if_neg (by omega)]
  · dsimp only
    rw [if_pos (by omega), repeat_get m _ (by omega)]
    congr 1
    · omega
    · omega

/-- With a single speed level the observation has only two planes instead of three. -/
theorem ttc_observation_single (G : Globals) (r : Road) (egoLane : LaneIndex) (v : Vehicle) (horizon f : ℝ) (obs : Grid3)
    (h : ttcObserve G r egoLane v horizon f = .ok obs) (hS : G.speedCount = 1) (hr : TtcOk r v) (hf : 0 < f) (hs0 : v.speedIndex = 0) :
    obs.s = 2 := by
  unfold ttcObserve at h
  rw [if_neg hf.ne'] at h
  obtain ⟨grid, hg, h⟩ := bind_ok h
  obtain ⟨g1, _⟩ := ttc_grid G r egoLane v (1 / f) horizon hr (by positivity) grid hg
  have h := Except.ok.inj h
  rw [hS] at g1
  rw [← h]
  simp [Grid3.sliceSpeeds, Grid3.sliceLanes, Grid3.padLanes, Grid3.repeatSpeeds, g1, Grid3.repeats, hs0, Grid3.sliceBounds]

/-- Every entry of the observation is 0, 1/2 or 1. -/
theorem ttc_observation_values (G : Globals) (r : Road) (v : Vehicle) (horizon f : ℝ) (obs : Grid3)
    (h : ttcObserve G r v.laneIndex v horizon f = .ok obs) (hS : 2 ≤ G.speedCount) (hr : TtcOk r v) (hf : 0 < f)
    (hs0 : 0 ≤ v.speedIndex) (hs1 : v.speedIndex < G.speedCount) (a b k : ℕ) (ha : a < 3) (hb : b < 3) (hk : k < obs.t) :
    obs.at' a b k = 0 ∨ obs.at' a b k = 1 / 2 ∨ obs.at' a b k = 1 := by
  obtain ⟨_, ls, _, e2, _, e4, e5⟩ := sideLanes_ok hr.net hr.here
  obtain ⟨_, _, grid, hg, ht, key⟩ := ttc_observation G r v.laneIndex v horizon f obs h hS hr hf ls.length ⟨ls, e2, rfl⟩ e5 hs0 hs1
  obtain ⟨g1, ⟨ls', g2, g3⟩, _, _⟩ := ttc_grid G r v.laneIndex v (1 / f) horizon hr (by positivity) grid hg
  have := roadLanes_unique hr.net g2 e2
  subst this
  obtain ⟨k1, k2⟩ := key a b k ha hb hk
  by_cases ho : v.laneIndex.id - 1 + b < 0 ∨ (ls'.length : Int) ≤ v.laneIndex.id - 1 + b
  · exact .inr (.inr (k1 ho))
  · push Not at ho
    rw [k2 (v.laneIndex.id - 1 + b).toNat (by omega) (by omega) (max 0 (min (v.speedIndex - 1 + a) (G.speedCount - 1))).toNat (by omega)]
    exact ttc_values G r v.laneIndex v (1 / f) horizon hr (by positivity) grid hg _ _ _ (by omega) (by omega) (by omega)

/-! ## C52 -/

private theorem unravel_cell {l t h i j : ℕ} (hi : i < l) (hj : j < t) : unravel l t (cell l t h i j) = (h, i, j) := by
  have ht : 0 < t := by omega
  have hl : 0 < l := by omega
  unfold unravel cell
  have e1 : ((h * l + i) * t + j) / t = h * l + i := by
    rw [Nat.add_comm, Nat.add_mul_div_right _ _ ht, Nat.div_eq_of_lt hj]; omega
  have e2 : ((h * l + i) * t + j) % t = j := by
    rw [Nat.add_comm, Nat.add_mul_mod_self_right, Nat.mod_eq_of_lt hj]
  rw [e1, e2, Nat.add_comm (h * l), Nat.add_mul_div_right _ _ hl, Nat.div_eq_of_lt hi, Nat.add_mul_mod_self_right, Nat.mod_eq_of_lt hi]
  simp

/-- The numbering of cells is one-to-one: distinct cells have distinct numbers, and exactly the numbers below the size of the grid are
used. -/
theorem cell_bijective (s l t : ℕ) :
    (∀ h i j h' i' j', i < l → j < t → i' < l → j' < t → cell l t h i j = cell l t h' i' j' → h = h' ∧ i = i' ∧ j = j') ∧
    (∀ h i j, h < s → i < l → j < t → cell l t h i j < s * l * t) ∧
    (∀ n, n < s * l * t → ∃ h i j, h < s ∧ i < l ∧ j < t ∧ cell l t h i j = n) := by
  refine ⟨fun h i j h' i' j' hi hj hi' hj' e => ?_, fun h i j hh hi hj => ?_, fun n hn => ?_⟩
  · have e1 := unravel_cell (h := h) hi hj
    rw [e, unravel_cell hi' hj'] at e1
    simp only [Prod.mk.injEq] at e1
    exact ⟨e1.1.symm, e1.2.1.symm, e1.2.2.symm⟩
  · unfold cell
    have h1 : h * l + i + 1 ≤ s * l := by
      calc h * l + i + 1 ≤ h * l + l := by omega
        _ = (h + 1) * l := by ring
        _ ≤ s * l := Nat.mul_le_mul_right _ hh
    calc (h * l + i) * t + j < (h * l + i) * t + t := by omega
      _ = (h * l + i + 1) * t := by ring
      _ ≤ s * l * t := Nat.mul_le_mul_right _ h1
  · have ht : 0 < t := by
      rcases Nat.eq_zero_or_pos t with rfl | h
      · simp at hn
      · exact h
    have hl : 0 < l := by
      rcases Nat.eq_zero_or_pos l with rfl | h
      · simp at hn
      · exact h
    refine ⟨n / t / l, n / t % l, n % t, ?_, Nat.mod_lt _ hl, Nat.mod_lt _ ht, ?_⟩
    · exact Nat.div_lt_of_lt_mul (by rw [Nat.mul_comm l]; exact Nat.div_lt_of_lt_mul (by rw [Nat.mul_comm t]; exact hn))
    · unfold cell
      rw [Nat.div_add_mod', Nat.div_add_mod']

private theorem ravel_cell {s l t h i j : ℕ} (hh : h < s) (hi : i < l) (hj : j < t) : ravel s l t h i j = .ok (cell l t h i j) := by
  unfold ravel
  rw [if_pos (by omega)]
  simp [cell]

private theorem clip_cell {s l t h i j : ℕ} {h' i' j' : Int} (hs : 0 < s) (hl : 0 < l) (ht : 0 < t)
    (eh : (h : Int) = max 0 (min h' (s - 1))) (ei : (i : Int) = max 0 (min i' (l - 1))) (ej : (j : Int) = max 0 (min j' (t - 1))) :
    clipPosition s l t h' i' j' = .ok (cell l t h i j) := by
  unfold clipPosition npClipInt
  have e1 : min (max h' 0) ((s : Int) - 1) = h := by omega
  have e2 : min (max i' 0) ((l : Int) - 1) = i := by omega
  have e3 : min (max j' 0) ((t : Int) - 1) = j := by omega
  rw [e1, e2, e3]
  exact ravel_cell (by omega) (by omega) (by omega)

/-- The lane after an action: 0 is left (lower number), 2 is right, staying on the road. -/
def laneAfterAction (l : ℕ) (a i : ℕ) : ℕ := if a = 0 then i - 1 else if a = 2 then min (i + 1) (l - 1) else i

/-- The speed level after an action at time `j`: 3 is faster, 4 is slower, at the first time only, staying within the levels. -/
def levelAfterAction (s : ℕ) (a j h : ℕ) : ℕ := if a = 3 ∧ j = 0 then min (h + 1) (s - 1) else if a = 4 ∧ j = 0 then h - 1 else h

private theorem transition_cell {s l t h i j : ℕ} (hh : h < s) (hi : i < l) (hj : j < t) (a : ℕ) :
    transitionModel s l t h i j a = .ok (cell l t (levelAfterAction s a j h) (laneAfterAction l a i) (min (j + 1) (t - 1))) := by
  have c0 : clipPosition s l t h i ((j : Int) + 1) = .ok (cell l t h i (min (j + 1) (t - 1))) :=
    clip_cell (by omega) (by omega) (by omega) (by omega) (by omega) (by omega)
  have c1 : clipPosition s l t h ((i : Int) - 1) ((j : Int) + 1) = .ok (cell l t h (i - 1) (min (j + 1) (t - 1))) :=
    clip_cell (by omega) (by omega) (by omega) (by omega) (by omega) (by omega)
  have c2 : clipPosition s l t h ((i : Int) + 1) ((j : Int) + 1) = .ok (cell l t h (min (i + 1) (l - 1)) (min (j + 1) (t - 1))) :=
    clip_cell (by omega) (by omega) (by omega) (by omega) (by omega) (by omega)
  have c3 : clipPosition s l t ((h : Int) + 1) i ((j : Int) + 1) = .ok (cell l t (min (h + 1) (s - 1)) i (min (j + 1) (t - 1))) :=
    clip_cell (by omega) (by omega) (by omega) (by omega) (by omega) (by omega)
  have c4 : clipPosition s l t ((h : Int) - 1) i ((j : Int) + 1) = .ok (cell l t (h - 1) i (min (j + 1) (t - 1))) :=
    clip_cell (by omega) (by omega) (by omega) (by omega) (by omega) (by omega)
  unfold transitionModel
  simp only [c0, c1, c2, c3, c4, bind, Except.bind, assignIf, levelAfterAction, laneAfterAction, Int.natCast_eq_zero]
  by_cases h0 : a = 0
  · subst h0; simp
  by_cases h2 : a = 2
  · subst h2; simp
  by_cases h3 : a = 3 ∧ j = 0
  · obtain ⟨rfl, rfl⟩ := h3; simp
  by_cases h4 : a = 4 ∧ j = 0
  · obtain ⟨rfl, rfl⟩ := h4; simp
  simp [h0, h2, h3, h4]

/-- **C52.**  The finite MDP has one state per (speed, lane, time) cell of the time-to-collision grid.  Its initial state is the current
speed level and lane at time 0.  Every transition leads to a valid state: time advances by one until the end of the horizon, the lane
moves by one at any time, staying on the road, and the speed level changes at the first time only.  The reward is the weighted sum of
the predicted collision, lane position and speed level of the state, plus the cost of lane changes.  Terminal states are the certain
collisions and the end of the horizon. -/
theorem finite_mdp_spec (G : Globals) (r : Road) (v : Vehicle) (w : MdpWeights) (q horizon : ℝ) (m : FiniteMdp)
    (h : finiteMdp G r v w q horizon = .ok m) :
    ∃ grid, computeTtcGrid G r v.laneIndex v q horizon = .ok grid ∧ m.s = grid.s ∧ m.l = grid.l ∧ m.t = grid.t ∧
    (∃ h0 i0 : ℕ, v.speedIndex = (h0 : Int) ∧ v.laneIndex.id = (i0 : Int) ∧ h0 < m.s ∧ i0 < m.l ∧ 0 < m.t ∧ m.state = cell m.l m.t h0 i0 0) ∧
    ∀ a i j, a < m.s → i < m.l → j < m.t →
      (∀ act, m.transition (cell m.l m.t a i j) act =
        .ok (cell m.l m.t (levelAfterAction m.s act j a) (laneAfterAction m.l act i) (min (j + 1) (m.t - 1)))) ∧
      (∀ act, m.reward (cell m.l m.t a i j) act =
        w.collision * grid.at' a i j + w.rightLane * (i / max ((m.l : ℝ) - 1) 1) + w.highSpeed * (a / max ((m.s : ℝ) - 1) 1)
          + if act = 0 ∨ act = 2 then w.laneChange else 0) ∧
      (m.terminal (cell m.l m.t a i j) = true ↔ grid.at' a i j = 1 ∨ j + 1 = m.t) := by
  unfold finiteMdp at h
  obtain ⟨grid, hg, h⟩ := bind_ok h
  obtain ⟨st, hst, h⟩ := bind_ok h
  have h := Except.ok.inj h
  subst h
  refine ⟨grid, hg, rfl, rfl, rfl, ?_, fun a i j ha hi hj => ⟨fun act => ?_, fun act => ?_, ?_⟩⟩
  · unfold ravel at hst
    split at hst
    · rename_i hc
      cases hst
      refine ⟨v.speedIndex.toNat, v.laneIndex.id.toNat, by omega, by omega, by dsimp only; omega, by dsimp only; omega, by dsimp only; omega, ?_⟩
      simp [cell]
    · cases hst
  · dsimp only at *
    rw [unravel_cell hi hj]
    exact transition_cell ha hi hj act
  · dsimp only at *
    rw [unravel_cell hi hj]
    simp only [stateReward]
    push_cast
    rfl
  · dsimp only at *
    rw [unravel_cell hi hj]
    simp

/-- The state reached from `s` by a sequence of actions. -/
def runMdp (m : FiniteMdp) (s : ℕ) (acts : List ℕ) : Py ℕ := acts.foldlM m.transition s

/-- **C52, runs.**  Any sequence of actions can be carried out from the initial state; after `k` actions the time is `k`, or the end of the
horizon, and the speed level differs from the current one by at most one (if there is more than one time).  Hence every sequence as long as the horizon ends in a terminal
state. -/
theorem finite_mdp_run (G : Globals) (r : Road) (v : Vehicle) (w : MdpWeights) (q horizon : ℝ) (m : FiniteMdp)
    (h : finiteMdp G r v w q horizon = .ok m) (acts : List ℕ) :
    ∃ a i, a < m.s ∧ i < m.l ∧ runMdp m m.state acts = .ok (cell m.l m.t a i (min acts.length (m.t - 1))) ∧
      (2 ≤ m.t → |(a : Int) - v.speedIndex| ≤ 1) ∧ |(i : Int) - v.laneIndex.id| ≤ acts.length ∧
      (m.t ≤ acts.length + 1 → m.terminal (cell m.l m.t a i (min acts.length (m.t - 1))) = true) := by
  obtain ⟨grid, hg, _, _, _, ⟨h0, i0, e1, e2, e3, e4, e5, e6⟩, key⟩ := finite_mdp_spec G r v w q horizon m h
  have main : ∃ a i, a < m.s ∧ i < m.l ∧ runMdp m m.state acts = .ok (cell m.l m.t a i (min acts.length (m.t - 1))) ∧
      (2 ≤ m.t → |(a : Int) - v.speedIndex| ≤ 1) ∧ |(i : Int) - v.laneIndex.id| ≤ acts.length ∧ (acts = [] → a = h0) := by
    induction acts using List.reverseRecOn with
    | nil => exact ⟨h0, i0, e3, e4, by simp [runMdp, e6, pure, Except.pure], by rw [e1]; simp, by rw [e2]; simp, fun _ => rfl⟩
    | append_singleton acts act ih =>
      obtain ⟨a, i, ha, hi, hrun, hs, hl, hz⟩ := ih
      have step := (key a i (min acts.length (m.t - 1)) ha hi (by omega)).1 act
      have hj : min (min acts.length (m.t - 1) + 1) (m.t - 1) = min (acts ++ [act]).length (m.t - 1) := by rw [List.length_append, List.length_singleton]; omega
      refine ⟨levelAfterAction m.s act (min acts.length (m.t - 1)) a, laneAfterAction m.l act i, ?_, ?_, ?_, ?_, ?_, by simp⟩
      · unfold levelAfterAction; split_ifs <;> omega
      · unfold laneAfterAction; split_ifs <;> omega
      · unfold runMdp at hrun ⊢
        rw [List.foldlM_append, hrun]
        simp only [bind, Except.bind, List.foldlM_cons, List.foldlM_nil, step]
        rw [hj]; rfl
      · intro ht2
        have hs := hs ht2
        unfold levelAfterAction
        by_cases hj0 : min acts.length (m.t - 1) = 0
        · by_cases hne : acts = []
          · have := hz hne
            subst this
            rw [e1]
            split_ifs <;> rw [abs_le] <;> constructor <;> omega
          · have := List.length_pos_iff.2 hne
            omega
        · simp only [hj0, and_false, if_false]; exact hs
      · unfold laneAfterAction
        rw [abs_le] at hl ⊢
        rw [List.length_append]
        simp only [List.length_singleton]
        push_cast
        split_ifs <;> constructor <;> omega
  obtain ⟨a, i, m1, m2, m3, m4, m5, _⟩ := main
  refine ⟨a, i, m1, m2, m3, m4, m5, fun hT => ?_⟩
  exact ((key a i (min acts.length (m.t - 1)) m1 m2 (by omega)).2.2).2 (.inr (by omega))

/-- The MDP can be built in every situation with a horizon of at least one quantum and a speed level in range. -/
theorem finite_mdp_never_raises (G : Globals) (r : Road) (v : Vehicle) (w : MdpWeights) (q horizon : ℝ) (hr : TtcOk r v) (hq : 0 < q)
    (hh : q ≤ horizon) (hs0 : 0 ≤ v.speedIndex) (hs1 : v.speedIndex < G.speedCount) : ∃ m, finiteMdp G r v w q horizon = .ok m := by
  obtain ⟨grid, hg⟩ := ttc_never_raises G r v q horizon hr hq (by linarith)
  obtain ⟨g1, ⟨ls, g2, g3⟩, g4, _⟩ := ttc_grid G r v.laneIndex v q horizon hr hq grid hg
  obtain ⟨_, ls', _, e2, _, e4, e5⟩ := sideLanes_ok hr.net hr.here
  have := roadLanes_unique hr.net g2 e2
  subst this
  have hT : 1 ≤ pyInt (horizon / q) := by
    unfold pyInt
    rw [if_pos (div_nonneg (by linarith) hq.le)]
    exact Int.le_floor.2 (by rw [Int.cast_one, one_le_div hq]; exact hh)
  have : ravel grid.s grid.l grid.t v.speedIndex v.laneIndex.id 0 = .ok ((v.speedIndex.toNat * grid.l + v.laneIndex.id.toNat) * grid.t + (0 : Int).toNat) := by
    unfold ravel
    rw [if_pos (by omega)]
  unfold finiteMdp
  simp only [hg, this, bind, Except.bind]
  exact ⟨_, rfl⟩

/-- With the rewards of the highway environment, every reward of the MDP lies in [-1, 1/2]. -/
theorem finite_mdp_reward_range (G : Globals) (r : Road) (v : Vehicle) (q horizon : ℝ) (hr : TtcOk r v) (hq : 0 < q) (m : FiniteMdp)
    (h : finiteMdp G r v {} q horizon = .ok m) (n act : ℕ) (hn : n < m.s * m.l * m.t) : -1 ≤ m.reward n act ∧ m.reward n act ≤ 1 / 2 := by
  obtain ⟨grid, hg, e1, e2, e3, _, key⟩ := finite_mdp_spec G r v {} q horizon m h
  obtain ⟨a, i, j, ha, hi, hj, rfl⟩ := (cell_bijective m.s m.l m.t).2.2 n hn
  rw [(key a i j ha hi hj).2.1 act]
  have hv := ttc_values G r v.laneIndex v q horizon hr hq grid hg a i j (e1 ▸ ha) (e2 ▸ hi) (e3 ▸ hj)
  have frac : ∀ x y : ℕ, x < y → 0 ≤ (x : ℝ) / max ((y : ℝ) - 1) 1 ∧ (x : ℝ) / max ((y : ℝ) - 1) 1 ≤ 1 := by
    intro x y hxy
    have hp : (0 : ℝ) < max ((y : ℝ) - 1) 1 := lt_of_lt_of_le one_pos (le_max_right _ _)
    refine ⟨by positivity, (div_le_one hp).2 (le_trans ?_ (le_max_left _ _))⟩
    have : (x : ℝ) + 1 ≤ y := by exact_mod_cast hxy
    linarith
  have f1 := frac i m.l hi
  have f2 := frac a m.s ha
  have hc : (if act = 0 ∨ act = 2 then ({} : MdpWeights).laneChange else 0) = (0 : ℝ) := by split_ifs <;> rfl
  rw [hc]
  dsimp only
  rcases hv with e | e | e <;> rw [e] <;> constructor <;> linarith [f1.1, f1.2, f2.1, f2.2]

/-! ### The hypotheses are met -/

/-- An agent at 10 m and a stopped vehicle at 30 m. -/
def ttcRoad : Road :=
  { network := Sample.net, vehicles := [Sample.car 0 .mdp 10 0 20, Sample.car 1 .idm 30 0 0], rng := { ints := fun _ => 0, reals := fun _ => 0 } }

theorem ttcRoad_ok : TtcOk ttcRoad (Sample.car 0 .mdp 10 0 20) := by
  refine ⟨Sample.net_py, rfl, ⟨0, _, rfl, Sample.net_has0⟩, fun w hw => ?_⟩
  simp only [ttcRoad, List.mem_cons, List.not_mem_nil, or_false] at hw
  rcases hw with rfl | rfl <;> exact ⟨0, _, rfl, Sample.net_has0⟩

/-- At the lowest speed (20 m/s) the stopped vehicle is reached after one second: the grid holds 1 there. -/
example : ∃ grid, computeTtcGrid {} ttcRoad ⟨"0", "1", 0⟩ (Sample.car 0 .mdp 10 0 20) 1 10 = .ok grid ∧
    grid.s = 3 ∧ grid.l = 2 ∧ grid.t = 10 ∧ grid.at' 0 0 1 = 1 := by
  obtain ⟨grid, hg⟩ := ttc_never_raises {} ttcRoad (Sample.car 0 .mdp 10 0 20) 1 10 ttcRoad_ok one_pos (by norm_num)
  obtain ⟨g1, ⟨ls, g2, g3⟩, g4, g5⟩ := ttc_grid {} ttcRoad _ (Sample.car 0 .mdp 10 0 20) 1 10 ttcRoad_ok one_pos grid hg
  have hl : ls = [Sample.lane 0, Sample.lane 1] := roadLanes_unique Sample.net_py g2 ⟨[("1", [Sample.lane 0, Sample.lane 1])], List.mem_singleton.2 rfl, List.mem_singleton.2 rfl⟩
  have ht : grid.t = 10 := by
    have : pyInt (10 / 1) = 10 := by norm_num [pyInt]
    omega
  subst hl
  have g3 : grid.l = 2 := g3
  have g1 : grid.s = 3 := g1
  refine ⟨grid, hg, g1, g3, ht, ?_⟩
  have hreach : reachTime (Sample.car 0 .mdp 10 0 20) (Sample.car 1 .idm 30 0 0) (speedLevel {} 0) 0 = 1 := by
    have e1 := Sample.lane_local 0 30 0
    have e2 := Sample.lane_local 0 10 0
    norm_num [reachTime, gap, Sample.car, speedLevel, awayFromZero, e1, e2, abs_of_pos]
  have hp : Predicted {} ttcRoad (Sample.car 0 .mdp 10 0 20) 1 0 0 1 1 := by
    refine ⟨Sample.car 1 .idm 30 0 0, by simp [ttcRoad], ⟨by simp [Sample.car], by norm_num [Sample.car, speedLevel], ?_⟩, fun _ => rfl, 0, .inl ⟨rfl, rfl⟩, ?_, ?_⟩
    · unfold isConnectedRoad
      simp [Sample.car, isSameRoad, LaneIndex.toStep]
    · rw [hreach]; norm_num
    · rw [hreach]; left; norm_num
  have hge := (g5 0 0 1 (by omega) (by omega) (by omega)).2 (.inr hp)
  rcases ttc_values {} ttcRoad _ _ 1 10 ttcRoad_ok one_pos grid hg 0 0 1 (by omega) (by omega) (by omega) with e | e | e <;> rw [e] at hge ⊢ <;> norm_num at hge

/-- Its MDP exists, its observation too. -/
example : ∃ m, finiteMdp {} ttcRoad (Sample.car 0 .mdp 10 0 20) {} 1 10 = .ok m :=
  finite_mdp_never_raises {} ttcRoad _ {} 1 10 ttcRoad_ok one_pos (by norm_num) (by simp [Sample.car]) (by simp [Sample.car])

example : ∃ obs, ttcObserve {} ttcRoad ⟨"0", "1", 0⟩ (Sample.car 0 .mdp 10 0 20) 10 1 = .ok obs ∧ obs.s = 3 ∧ obs.l = 3 := by
  obtain ⟨grid, hg⟩ := ttc_never_raises {} ttcRoad (Sample.car 0 .mdp 10 0 20) (1 / 1) 10 ttcRoad_ok (by norm_num) (by norm_num)
  have : ∃ obs, ttcObserve {} ttcRoad ⟨"0", "1", 0⟩ (Sample.car 0 .mdp 10 0 20) 10 1 = .ok obs := by
    unfold ttcObserve
    rw [if_neg one_ne_zero]
    rw [show computeTtcGrid {} ttcRoad ⟨"0", "1", 0⟩ (Sample.car 0 .mdp 10 0 20) (1 / 1) 10 = .ok grid from hg]
    exact ⟨_, rfl⟩
  obtain ⟨obs, ho⟩ := this
  have := ttc_observation {} ttcRoad ⟨"0", "1", 0⟩ (Sample.car 0 .mdp 10 0 20) 10 1 obs ho (by norm_num) ttcRoad_ok one_pos 2
    ⟨[Sample.lane 0, Sample.lane 1], ⟨_, by simp [ttcRoad, Sample.net]; rfl, by simp⟩, rfl⟩ (by simp [Sample.car]) (by simp [Sample.car]) (by simp [Sample.car])
  exact ⟨obs, ho, this.1, this.2.1⟩

/-- A one-lane and a two-lane road; the observer and a stopped vehicle are on the two-lane road. -/
def overflowRoad : Road :=
  { network := ("a", [("b", [Sample.lane 0])]) :: Sample.net
    vehicles := [Sample.car 0 .mdp 10 0 20, { Sample.car 1 .idm 30 0 0 with laneIndex := ⟨"0", "1", 1⟩ }]
    rng := { ints := fun _ => 0, reals := fun _ => 0 } }

/-- Seen with the road of an agent on the one-lane road, the computation raises. -/
example (grid : Grid3) : computeTtcGrid {} overflowRoad ⟨"a", "b", 0⟩ (Sample.car 0 .mdp 10 0 20) 1 10 ≠ .ok grid := by
  have hl : RoadLanes overflowRoad.network "0" "1" [Sample.lane 0, Sample.lane 1] :=
    ⟨[("1", [Sample.lane 0, Sample.lane 1])], by simp [overflowRoad, Sample.net], by simp⟩
  have h1 : ValidIndex overflowRoad.network ⟨"0", "1", 0⟩ := ⟨0, Sample.lane 0, rfl, _, hl, rfl⟩
  have h2 : ValidIndex overflowRoad.network ⟨"0", "1", 1⟩ := ⟨1, Sample.lane 1, rfl, _, hl, rfl⟩
  have hreach : reachTime (Sample.car 0 .mdp 10 0 20) { Sample.car 1 .idm 30 0 0 with laneIndex := ⟨"0", "1", 1⟩ } (speedLevel {} 0) 0 = 1 := by
    have e1 := Sample.lane_local 0 30 0
    have e2 := Sample.lane_local 0 10 0
    norm_num [reachTime, gap, Sample.car, speedLevel, awayFromZero, e1, e2, abs_of_pos]
  refine ttc_overflow {} overflowRoad ⟨"a", "b", 0⟩ (Sample.car 0 .mdp 10 0 20) { Sample.car 1 .idm 30 0 0 with laneIndex := ⟨"0", "1", 1⟩ } 1 10
    ⟨⟨by simp [overflowRoad, Sample.net], by simp [overflowRoad, Sample.net]⟩, rfl, h1, fun w hw => ?_⟩ one_pos (by simp [overflowRoad]) 0 (by norm_num)
    ⟨by simp [Sample.car], by norm_num [Sample.car, speedLevel], ?_⟩ ⟨_, _, hl, hl, rfl⟩ [Sample.lane 0]
    ⟨[("b", [Sample.lane 0])], by simp [overflowRoad], by simp⟩ (by simp) (by rw [hreach]; norm_num) (by rw [hreach]; norm_num) grid
  · simp only [overflowRoad, List.mem_cons, List.not_mem_nil, or_false] at hw
    rcases hw with rfl | rfl
    exacts [h1, h2]
  · unfold isConnectedRoad
    simp [Sample.car, isSameRoad, LaneIndex.toStep]

end HighwayEnv.Props
