import Verif.Lemmas.Vehicle

/-! The pairwise collision pass: frame, causes, completeness. -/

noncomputable section
namespace HighwayEnv
open Classical
namespace Road

/-- A vehicle after a collision: only the speed and the crash flag differ. -/
def bump (v : Vehicle) (s : ℝ) (b : Bool) : Vehicle := { v with speed := s, crashed := b }

theorem isColliding_bump (v : Vehicle) (s : ℝ) (b : Bool) (r : Rect) : (bump v s b).isColliding r = v.isColliding r := rfl
theorem rect_bump (v : Vehicle) (s : ℝ) (b : Bool) : (bump v s b).rect = v.rect := rfl
theorem bump_bump (v : Vehicle) (s t : ℝ) (b c : Bool) : bump (bump v s b) t c = bump v t c := rfl
theorem bump_self (v : Vehicle) : bump v v.speed v.crashed = v := rfl

theorem minAbs_le_left (a b : ℝ) : |minAbs a b| ≤ |a| := by
  unfold minAbs; split_ifs with h
  · exact h.le
  · exact le_rfl

theorem minAbs_le_right (a b : ℝ) : |minAbs a b| ≤ |b| := by
  unfold minAbs; split_ifs with h
  · exact le_rfl
  · exact not_lt.1 h

theorem checkCollisionV_cases (v w : Vehicle) :
    v.checkCollisionV w = (v, w) ∨
    (v.crashed = false ∧ v.collisionsEnabled = true ∧ w.collisionsEnabled = true ∧ v.isColliding w.rect = true ∧
      v.checkCollisionV w = (bump v (minAbs v.speed w.speed) true, bump w (minAbs v.speed w.speed) true)) := by
  unfold Vehicle.checkCollisionV
  rcases hc : v.crashed <;> rcases he : v.collisionsEnabled <;> rcases hf : w.collisionsEnabled <;>
    rcases hd : v.isColliding w.rect <;> simp [bump, he, hf]

theorem checkCollisionV_colliding {v w : Vehicle} (he : v.collisionsEnabled = true) (hf : w.collisionsEnabled = true)
    (hd : v.isColliding w.rect = true) :
    v.crashed = true ∨ ((v.checkCollisionV w).1.crashed = true ∧ (v.checkCollisionV w).2.crashed = true) := by
  rcases hc : v.crashed
  · right; unfold Vehicle.checkCollisionV; simp [hc, he, hf, hd]
  · left; rfl

/-- Vehicle `v` became `v'`: same body, not faster, crash flag only raised, and changed only for a reason `C`. -/
def Became (C : Prop) (v v' : Vehicle) : Prop :=
  ∃ s b, v' = bump v s b ∧ |s| ≤ |v.speed| ∧ (v.crashed = true → b = true) ∧ (v' = v ∨ (C ∧ b = true))

theorem Became.refl (C : Prop) (v : Vehicle) : Became C v v := ⟨v.speed, v.crashed, rfl, le_rfl, id, .inl rfl⟩

theorem Became.trans {C : Prop} {u v w : Vehicle} (h1 : Became C u v) (h2 : Became C v w) : Became C u w := by
  obtain ⟨s, b, rfl, hs, hb, hc⟩ := h1
  obtain ⟨t, c, rfl, ht, hcb, hd⟩ := h2
  refine ⟨t, c, rfl, ht.trans hs, fun h => hcb (hb h), ?_⟩
  rcases hd with hd | hd
  · rw [hd]
    rcases hc with hc | hc
    · exact .inl hc
    · refine .inr ⟨hc.1, hcb hc.2⟩
  · exact .inr hd

/-- List-wise evolution, with a reason per position. -/
def Evolves (C : ℕ → Prop) (vs ws : List Vehicle) : Prop :=
  ws.length = vs.length ∧ ∀ i v, vs[i]? = some v → ∃ w, ws[i]? = some w ∧ Became (C i) v w

theorem Evolves.refl (C : ℕ → Prop) (vs : List Vehicle) : Evolves C vs vs :=
  ⟨rfl, fun _ v h => ⟨v, h, .refl _ _⟩⟩

theorem Evolves.trans {C : ℕ → Prop} {us vs ws : List Vehicle} (h1 : Evolves C us vs) (h2 : Evolves C vs ws) :
    Evolves C us ws := by
  refine ⟨h2.1.trans h1.1, fun i u hu => ?_⟩
  obtain ⟨v, hv, huv⟩ := h1.2 i u hu
  obtain ⟨w, hw, hvw⟩ := h2.2 i v hv
  exact ⟨w, hw, huv.trans hvw⟩

theorem Evolves.set {C : ℕ → Prop} {vs : List Vehicle} {i : ℕ} {v w : Vehicle} (hv : vs[i]? = some v)
    (h : Became (C i) v w) : Evolves C vs (vs.set i w) := by
  refine ⟨by simp, fun k u hu => ?_⟩
  by_cases hk : i = k
  · subst hk
    rw [hv] at hu; cases hu
    refine ⟨w, ?_, h⟩
    rw [List.getElem?_set_self]
    exact (List.getElem?_eq_some_iff.1 hv).1
  · exact ⟨u, by rw [List.getElem?_set_ne hk]; exact hu, .refl _ _⟩

/-- What can crash vehicle `i`: an enabled overlapping vehicle at another position, or an overlapping obstacle. -/
def Cause (vs : List Vehicle) (os : List RoadObject) (i : ℕ) : Prop :=
  ∃ v, vs[i]? = some v ∧ v.collisionsEnabled = true ∧
    ((∃ j w, j ≠ i ∧ vs[j]? = some w ∧ w.collisionsEnabled = true ∧
        (v.isColliding w.rect = true ∨ w.isColliding v.rect = true)) ∨
      ∃ o ∈ os, o.kind = .obstacle ∧ v.isColliding o.rect = true)

theorem collideVV_evolves {vs0 vs : List Vehicle} {os : List RoadObject} (h : Evolves (Cause vs0 os) vs0 vs) (i j : ℕ) :
    Evolves (Cause vs0 os) vs (collideVV i vs j) := by
  unfold collideVV
  split
  · exact .refl _ _
  rename_i hij
  split
  · rename_i v w hv hw
    dsimp only
    rcases checkCollisionV_cases v w with hc | ⟨hcr, he, hf, hd, hc⟩
    · rw [hc]
      dsimp only
      have h1 : vs.set i v = vs := by
        obtain ⟨h, rfl⟩ := List.getElem?_eq_some_iff.1 hv; exact List.set_getElem_self h
      have h2 : vs.set j w = vs := by
        obtain ⟨h, rfl⟩ := List.getElem?_eq_some_iff.1 hw; exact List.set_getElem_self h
      rw [h1, h2]; exact .refl _ _
    · rw [hc]
      dsimp only
      have hi := (List.getElem?_eq_some_iff.1 hv).1
      have hj := (List.getElem?_eq_some_iff.1 hw).1
      have hv0 : ∃ v0 s b, vs0[i]? = some v0 ∧ v = bump v0 s b := by
        obtain ⟨v0, hv0⟩ : ∃ v0, vs0[i]? = some v0 := ⟨vs0[i]'(by rw [← h.1]; exact hi), by simp⟩
        obtain ⟨v', hv', s, b, rfl, _⟩ := h.2 i v0 hv0
        rw [hv] at hv'; cases hv'; exact ⟨v0, s, b, hv0, rfl⟩
      have hw0 : ∃ w0 s b, vs0[j]? = some w0 ∧ w = bump w0 s b := by
        obtain ⟨w0, hw0⟩ : ∃ w0, vs0[j]? = some w0 := ⟨vs0[j]'(by rw [← h.1]; exact hj), by simp⟩
        obtain ⟨w', hw', s, b, rfl, _⟩ := h.2 j w0 hw0
        rw [hw] at hw'; cases hw'; exact ⟨w0, s, b, hw0, rfl⟩
      obtain ⟨v0, s1, b1, hv0, rfl⟩ := hv0
      obtain ⟨w0, s2, b2, hw0, rfl⟩ := hw0
      have ci : Cause vs0 os i := ⟨v0, hv0, he, .inl ⟨j, w0, fun hh => hij hh.symm, hw0, hf, .inl hd⟩⟩
      have cj : Cause vs0 os j := ⟨w0, hw0, hf, .inl ⟨i, v0, hij, hv0, he, .inr hd⟩⟩
      refine (Evolves.set hv ⟨_, true, rfl, minAbs_le_left _ (bump w0 s2 b2).speed, fun _ => rfl, .inr ⟨ci, rfl⟩⟩).trans ?_
      refine Evolves.set (v := bump w0 s2 b2) ?_ ⟨_, true, rfl, minAbs_le_right _ _, fun _ => rfl, .inr ⟨cj, rfl⟩⟩
      rw [List.getElem?_set_ne hij]; exact hw
  · exact .refl _ _

theorem foldl_collideVV_evolves {vs0 : List Vehicle} {os : List RoadObject} (i : ℕ) (js : List ℕ) (vs : List Vehicle)
    (h : Evolves (Cause vs0 os) vs0 vs) : Evolves (Cause vs0 os) vs (js.foldl (collideVV i) vs) := by
  induction js generalizing vs with
  | nil => exact .refl _ _
  | cons j js ih =>
    rw [List.foldl_cons]
    have h1 := collideVV_evolves h i j
    exact h1.trans (ih _ (h.trans h1))

/-- An object after the pass: only the `hit` flag can have been raised. -/
def Marked (o o' : RoadObject) : Prop := ∃ b, o' = { o with hit := b } ∧ (o.hit = true → b = true)

theorem Marked.refl (o : RoadObject) : Marked o o := ⟨o.hit, rfl, id⟩
theorem Marked.trans {a b c : RoadObject} (h1 : Marked a b) (h2 : Marked b c) : Marked a c := by
  obtain ⟨x, rfl, hx⟩ := h1
  obtain ⟨y, rfl, hy⟩ := h2
  exact ⟨y, rfl, fun h => hy (hx h)⟩

theorem checkCollisionO_cases (v : Vehicle) (o : RoadObject) :
    Marked o (v.checkCollisionO o).2 ∧
    ((v.checkCollisionO o).2 = o ∨ v.isColliding o.rect = true) ∧
    ((v.checkCollisionO o).1 = v ∨
      (v.collisionsEnabled = true ∧ o.kind = .obstacle ∧ v.isColliding o.rect = true ∧
        (v.checkCollisionO o).1 = bump v (minAbs v.speed 0) true)) ∧
    (v.collisionsEnabled = true → o.kind = .obstacle → v.isColliding o.rect = true → (v.checkCollisionO o).1.crashed = true) ∧
    (o.kind = .landmark → v.isColliding o.rect = true → v.crashed = false → (v.checkCollisionO o).2.hit = true) := by
  unfold Vehicle.checkCollisionO
  rcases hc : v.crashed <;> rcases he : v.collisionsEnabled <;> rcases hd : v.isColliding o.rect <;> rcases hk : o.kind <;>
    simp [hc, he, bump, Marked.refl] <;>
    exact ⟨true, by simp [hk], fun _ => rfl⟩

theorem collideVO_spec (v : Vehicle) (os : List RoadObject) :
    List.Forall₂ Marked os (collideVO v os).2 ∧
    (∀ (k : ℕ) (o o' : RoadObject), os[k]? = some o → (collideVO v os).2[k]? = some o' → o' = o ∨ v.isColliding o.rect = true) ∧
    Became (v.collisionsEnabled = true ∧ ∃ o ∈ os, o.kind = .obstacle ∧ v.isColliding o.rect = true) v (collideVO v os).1 ∧
    (v.collisionsEnabled = true → (∃ o ∈ os, o.kind = .obstacle ∧ v.isColliding o.rect = true) →
      (collideVO v os).1.crashed = true) ∧
    ((collideVO v os).1.crashed = false → ∀ (k : ℕ) (o o' : RoadObject), os[k]? = some o → (collideVO v os).2[k]? = some o' →
      o.kind = .landmark → v.isColliding o.rect = true → o'.hit = true) := by
  induction os generalizing v with
  | nil => exact ⟨.nil, by simp, .refl _ _, by simp, by simp⟩
  | cons o os ih =>
    unfold collideVO
    dsimp only
    obtain ⟨c1, c2, c3, c4, c5⟩ := checkCollisionO_cases v o
    set p := v.checkCollisionO o with hp
    obtain ⟨i1, i2, i3, i4, i5⟩ := ih p.1
    have hb : ∃ s b, p.1 = bump v s b := by
      rcases c3 with h | h
      · exact ⟨_, _, h.trans (bump_self v).symm⟩
      · exact ⟨_, _, h.2.2.2⟩
    have hcol : ∀ r, p.1.isColliding r = v.isColliding r := by
      obtain ⟨s, b, h⟩ := hb; intro r; rw [h]; rfl
    have hen : p.1.collisionsEnabled = v.collisionsEnabled := by
      obtain ⟨s, b, h⟩ := hb; rw [h]; rfl
    simp only [hcol, hen] at i2 i3 i4 i5
    have hmono : p.1.crashed = true → (collideVO p.1 os).1.crashed = true := by
      obtain ⟨s, b, h, _, h2, _⟩ := i3
      rw [h]; exact h2
    have b1 : Became (v.collisionsEnabled = true ∧ ∃ o' ∈ o :: os, o'.kind = .obstacle ∧ v.isColliding o'.rect = true) v p.1 := by
      rcases c3 with h | h
      · rw [h]; exact .refl _ _
      · rw [h.2.2.2]
        exact ⟨_, true, rfl, minAbs_le_left _ _, fun _ => rfl, .inr ⟨⟨h.1, o, by simp, h.2.1, h.2.2.1⟩, rfl⟩⟩
    refine ⟨.cons c1 i1, ?_, b1.trans ?_, ?_, ?_⟩
    · intro k o1 o1' h1 h2
      cases k with
      | zero =>
        simp only [List.getElem?_cons_zero, Option.some.injEq] at h1 h2
        subst h1 h2; exact c2
      | succ k =>
        simp only [List.getElem?_cons_succ] at h1 h2
        exact i2 k o1 o1' h1 h2
    · obtain ⟨s, b, h, h1, h2, h3⟩ := i3
      refine ⟨s, b, h, h1, h2, h3.imp_right fun h => ⟨⟨h.1.1, ?_⟩, h.2⟩⟩
      obtain ⟨o', ho', hx⟩ := h.1.2
      exact ⟨o', by simp [ho'], hx⟩
    · rintro he ⟨o', ho', hk, hcl⟩
      rcases List.mem_cons.1 ho' with rfl | ho'
      · exact hmono (c4 he hk hcl)
      · exact i4 he ⟨o', ho', hk, hcl⟩
    · intro hncr k o1 o1' h1 h2 hk hcl
      cases k with
      | zero =>
        simp only [List.getElem?_cons_zero, Option.some.injEq] at h1 h2
        subst h1 h2
        refine c5 hk hcl ?_
        rcases hvc : v.crashed
        · rfl
        · exfalso
          have : p.1.crashed = true := by
            rcases c3 with h | h
            · rw [h]; exact hvc
            · rw [h.2.2.2]; rfl
          rw [hmono this] at hncr; cases hncr
      | succ k =>
        simp only [List.getElem?_cons_succ] at h1 h2
        exact i5 hncr k o1 o1' h1 h2 hk hcl

/-- Pairwise completeness of the inner vehicle loop: position `j` was visited by vehicle `i`. -/
theorem collideVV_hit {vs : List Vehicle} {i j : ℕ} {v w : Vehicle} (hij : i ≠ j) (hv : vs[i]? = some v) (hw : vs[j]? = some w)
    (he : v.collisionsEnabled = true) (hf : w.collisionsEnabled = true) (hd : v.isColliding w.rect = true) :
    ∃ v' w', (collideVV i vs j)[i]? = some v' ∧ (collideVV i vs j)[j]? = some w' ∧ v'.crashed = true ∧
      (v.crashed = true ∨ w'.crashed = true) := by
  have hi := (List.getElem?_eq_some_iff.1 hv).1
  have hj := (List.getElem?_eq_some_iff.1 hw).1
  unfold collideVV
  rw [if_neg hij, hv, hw]
  dsimp only
  refine ⟨(v.checkCollisionV w).1, (v.checkCollisionV w).2, ?_, ?_, ?_⟩
  · rw [List.getElem?_set_ne (Ne.symm hij), List.getElem?_set_self hi]
  · rw [List.getElem?_set_self (by simpa using hj)]
  · rcases checkCollisionV_colliding he hf hd with h | h
    · refine ⟨?_, .inl h⟩
      unfold Vehicle.checkCollisionV; simp [h]
    · exact ⟨h.1, .inr h.2⟩

/-- The object list at all times of the pass. -/
def OsEvolves (os os' : List RoadObject) : Prop := List.Forall₂ Marked os os'

theorem OsEvolves.trans {a b c : List RoadObject} (h1 : OsEvolves a b) (h2 : OsEvolves b c) : OsEvolves a c := by
  unfold OsEvolves at *
  induction h1 generalizing c with
  | nil => cases h2; exact .nil
  | cons h _ ih => cases h2 with | cons h' h'' => exact .cons (h.trans h') (ih h'')

theorem OsEvolves.refl (a : List RoadObject) : OsEvolves a a := by
  unfold OsEvolves; induction a with
  | nil => exact .nil
  | cons o os ih => exact .cons (.refl o) ih

theorem OsEvolves.obstacles {os os' : List RoadObject} (h : OsEvolves os os') (v : Vehicle) :
    (∃ o ∈ os', o.kind = .obstacle ∧ v.isColliding o.rect = true) ↔
    ∃ o ∈ os, o.kind = .obstacle ∧ v.isColliding o.rect = true := by
  unfold OsEvolves at h
  induction h with
  | nil => simp
  | cons h _ ih =>
    obtain ⟨b, rfl, _⟩ := h
    simp only [List.mem_cons, exists_eq_or_imp, ih]
    rfl

theorem collideOne_evolves {vs0 vs : List Vehicle} {os0 os : List RoadObject} (h : Evolves (Cause vs0 os0) vs0 vs)
    (ho : OsEvolves os0 os) (i : ℕ) :
    Evolves (Cause vs0 os0) vs (collideOne (vs, os) i).1 ∧ OsEvolves os (collideOne (vs, os) i).2 := by
  unfold collideOne
  dsimp only
  have h1 := foldl_collideVV_evolves (os := os0) i (List.range vs.length) vs h
  set us := (List.range vs.length).foldl (collideVV i) vs
  split
  · exact ⟨h1, .refl _⟩
  · rename_i v hv
    dsimp only
    obtain ⟨c1, _, c3, _, _⟩ := collideVO_spec v os
    refine ⟨h1.trans (Evolves.set hv ?_), c1⟩
    obtain ⟨s, b, e, e1, e2, e3⟩ := c3
    refine ⟨s, b, e, e1, e2, e3.imp_right fun hc => ⟨?_, hc.2⟩⟩
    have h01 := h.trans h1
    have hi := (List.getElem?_eq_some_iff.1 hv).1
    obtain ⟨v0, hv0⟩ : ∃ v0, vs0[i]? = some v0 := ⟨vs0[i]'(by rw [← h01.1]; exact hi), by simp⟩
    obtain ⟨v', hv', s', b', rfl, _⟩ := h01.2 i v0 hv0
    rw [hv] at hv'; cases hv'
    exact ⟨v0, hv0, hc.1.1, .inr ((ho.obstacles v0).1 hc.1.2)⟩

theorem foldl_collideOne_evolves {vs0 : List Vehicle} {os0 : List RoadObject} (is : List ℕ) (st : List Vehicle × List RoadObject)
    (h : Evolves (Cause vs0 os0) vs0 st.1) (ho : OsEvolves os0 st.2) :
    Evolves (Cause vs0 os0) st.1 (is.foldl collideOne st).1 ∧ OsEvolves st.2 (is.foldl collideOne st).2 := by
  induction is generalizing st with
  | nil => exact ⟨.refl _ _, .refl _⟩
  | cons i is ih =>
    rw [List.foldl_cons]
    obtain ⟨h1, h2⟩ := collideOne_evolves h ho i
    obtain ⟨h3, h4⟩ := ih (collideOne st i) (h.trans h1) (ho.trans h2)
    exact ⟨h1.trans h3, h2.trans h4⟩

/-- After iteration `i`, vehicle `i` is crashed if it overlaps an enabled other vehicle, and so is that vehicle unless vehicle `i`
was crashed before. -/
theorem collideOne_hit {vs : List Vehicle} {os : List RoadObject} {i j : ℕ} {v w : Vehicle} (hij : i ≠ j)
    (hv : vs[i]? = some v) (hw : vs[j]? = some w)
    (he : v.collisionsEnabled = true) (hf : w.collisionsEnabled = true) (hd : v.isColliding w.rect = true) :
    ∃ v', (collideOne (vs, os) i).1[i]? = some v' ∧ v'.crashed = true := by
  have hj := (List.getElem?_eq_some_iff.1 hw).1
  have key : ∃ v', ((List.range vs.length).foldl (collideVV i) vs)[i]? = some v' ∧ v'.crashed = true := by
    obtain ⟨l1, l2, hl⟩ := List.append_of_mem (List.mem_range.2 hj)
    rw [hl, List.foldl_append, List.foldl_cons]
    have e1 := foldl_collideVV_evolves (os := os) i l1 vs (.refl _ _)
    obtain ⟨v1, hv1, s, b, rfl, _⟩ := e1.2 i v hv
    obtain ⟨w1, hw1, t, c, rfl, _⟩ := e1.2 j w hw
    obtain ⟨v2, w2, h2, _, h3, _⟩ := collideVV_hit hij hv1 hw1 he hf hd
    have e2 := collideVV_evolves (vs0 := vs) (os := os) e1 i j
    have e3 := foldl_collideVV_evolves (os := os) i l2 _ (e1.trans e2)
    obtain ⟨v3, hv3, s3, b3, rfl, _, hb, _⟩ := e3.2 i v2 h2
    exact ⟨_, hv3, hb h3⟩
  obtain ⟨v1, hv1, hc1⟩ := key
  unfold collideOne
  dsimp only
  rw [hv1]
  dsimp only
  obtain ⟨_, _, ⟨s, b, e, _, hb, _⟩, _⟩ := collideVO_spec v1 os
  refine ⟨_, List.getElem?_set_self (List.getElem?_eq_some_iff.1 hv1).1, ?_⟩
  rw [e]; exact hb hc1

theorem collideOne_hitO {vs : List Vehicle} {os : List RoadObject} {i : ℕ} {v : Vehicle}
    (hv : vs[i]? = some v) (he : v.collisionsEnabled = true)
    (ho : ∃ o ∈ os, o.kind = .obstacle ∧ v.isColliding o.rect = true) :
    ∃ v', (collideOne (vs, os) i).1[i]? = some v' ∧ v'.crashed = true := by
  have e1 := foldl_collideVV_evolves (os := os) i (List.range vs.length) vs (.refl _ _)
  obtain ⟨v1, hv1, s, b, rfl, _⟩ := e1.2 i v hv
  unfold collideOne
  dsimp only
  rw [hv1]
  dsimp only
  obtain ⟨_, _, _, h4, _⟩ := collideVO_spec (bump v s b) os
  exact ⟨_, List.getElem?_set_self (List.getElem?_eq_some_iff.1 hv1).1, h4 he ho⟩

theorem collidePass_evolves (vs : List Vehicle) (os : List RoadObject) :
    Evolves (Cause vs os) vs (collidePass vs os).1 ∧ OsEvolves os (collidePass vs os).2 :=
  foldl_collideOne_evolves _ (vs, os) (.refl _ _) (.refl _)

/-- Split the pass at iteration `i`. -/
theorem collidePass_split (vs : List Vehicle) (os : List RoadObject) {i : ℕ} (hi : i < vs.length) :
    ∃ st : List Vehicle × List RoadObject, Evolves (Cause vs os) vs st.1 ∧ OsEvolves os st.2 ∧
      Evolves (Cause vs os) (collideOne st i).1 (collidePass vs os).1 ∧ OsEvolves (collideOne st i).2 (collidePass vs os).2 := by
  unfold collidePass
  obtain ⟨l1, l2, hl⟩ := List.append_of_mem (List.mem_range.2 hi)
  rw [hl, List.foldl_append, List.foldl_cons]
  obtain ⟨a1, a2⟩ := foldl_collideOne_evolves (vs0 := vs) (os0 := os) l1 (vs, os) (.refl _ _) (.refl _)
  refine ⟨l1.foldl collideOne (vs, os), a1, a2, ?_⟩
  obtain ⟨b1, b2⟩ := collideOne_evolves a1 a2 i
  exact foldl_collideOne_evolves l2 _ (a1.trans b1) (a2.trans b2)

theorem collidePass_crashes {vs : List Vehicle} {os : List RoadObject} {i j : ℕ} {v w : Vehicle} (hij : i ≠ j)
    (hv : vs[i]? = some v) (hw : vs[j]? = some w)
    (he : v.collisionsEnabled = true) (hf : w.collisionsEnabled = true) (hd : v.isColliding w.rect = true) :
    ∃ v', (collidePass vs os).1[i]? = some v' ∧ v'.crashed = true := by
  obtain ⟨st, a1, a2, a3, a4⟩ := collidePass_split vs os (List.getElem?_eq_some_iff.1 hv).1
  obtain ⟨v1, hv1, s, b, rfl, _⟩ := a1.2 i v hv
  obtain ⟨w1, hw1, t, c, rfl, _⟩ := a1.2 j w hw
  obtain ⟨v2, hv2, hc2⟩ := collideOne_hit (vs := st.1) (os := st.2) hij hv1 hw1 he hf hd
  obtain ⟨v3, hv3, s3, b3, rfl, _, hb, _⟩ := a3.2 i v2 hv2
  exact ⟨_, hv3, hb hc2⟩

theorem collidePass_crashesO {vs : List Vehicle} {os : List RoadObject} {i : ℕ} {v : Vehicle}
    (hv : vs[i]? = some v) (he : v.collisionsEnabled = true)
    (ho : ∃ o ∈ os, o.kind = .obstacle ∧ v.isColliding o.rect = true) :
    ∃ v', (collidePass vs os).1[i]? = some v' ∧ v'.crashed = true := by
  obtain ⟨st, a1, a2, a3, a4⟩ := collidePass_split vs os (List.getElem?_eq_some_iff.1 hv).1
  obtain ⟨v1, hv1, s, b, rfl, _⟩ := a1.2 i v hv
  obtain ⟨v2, hv2, hc2⟩ := collideOne_hitO (vs := st.1) (os := st.2) hv1 he ((a2.obstacles v).2 ho)
  obtain ⟨v3, hv3, s3, b3, rfl, _, hb, _⟩ := a3.2 i v2 hv2
  exact ⟨_, hv3, hb hc2⟩

end Road
end HighwayEnv
