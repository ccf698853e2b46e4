import Verif.Spec.Interval
import Mathlib.Tactic.Linarith
import Mathlib.Tactic.Positivity
import Mathlib.Tactic.FieldSimp
import Mathlib.Tactic.NormNum

/-!
# C63: interval arithmetic
-/

noncomputable section
open Classical Matrix
namespace HighwayEnv.Props
open HighwayEnv Spec

/-! ## Abstract soundness -/

/-- A product that is additive in both arguments and non-negative on non-negative arguments. -/
private structure PosDot {α β γ : Type*} [AddCommGroup α] [AddCommGroup β] [AddCommGroup γ] [LE α] [LE β] [LE γ] (dot : α → β → γ) : Prop where
  subl : ∀ a a' b, dot (a - a') b = dot a b - dot a' b
  subr : ∀ a b b', dot a (b - b') = dot a b - dot a b'
  pos : ∀ a b, 0 ≤ a → 0 ≤ b → 0 ≤ dot a b

section
variable {α β γ : Type*} [Lattice α] [AddCommGroup α] [IsOrderedAddMonoid α] [Lattice β] [AddCommGroup β] [IsOrderedAddMonoid β]
  [AddCommGroup γ] [PartialOrder γ] [IsOrderedAddMonoid γ]

private theorem PosDot.mono {dot : α → β → γ} (hd : PosDot dot) {a a' : α} {b b' : β} (h0 : 0 ≤ a) (ha : a ≤ a') (hb0 : 0 ≤ b) (hb : b ≤ b') :
    dot a b ≤ dot a' b' := by
  have h1 := hd.pos (a' - a) b' (sub_nonneg.2 ha) (hb0.trans hb)
  have h2 := hd.pos a (b' - b) h0 (sub_nonneg.2 hb)
  rw [hd.subl, sub_nonneg] at h1
  rw [hd.subr, sub_nonneg] at h2
  exact h2.trans h1

private theorem p_nonneg (x : α) : 0 ≤ Itv.p x := le_sup_right
private theorem n_nonneg (x : α) : 0 ≤ Itv.n x := le_sup_right
private theorem p_mono {x y : α} (h : x ≤ y) : Itv.p x ≤ Itv.p y := sup_le_sup_right h 0
private theorem n_anti {x y : α} (h : x ≤ y) : Itv.n y ≤ Itv.n x := sup_le_sup_right (neg_le_neg h) 0
private theorem p_sub_n (x : α) : Itv.p x - Itv.n x = x := posPart_sub_negPart x

private theorem product_sound {dot : α → β → γ} (hd : PosDot dot) {a : Itv α} {b : Itv β} {x : α} {y : β} (hx : InItv x a) (hy : InItv y b) :
    InItv (dot x y) (Itv.product dot a b) := by
  have e : dot x y = dot (Itv.p x) (Itv.p y) - dot (Itv.p x) (Itv.n y) - dot (Itv.n x) (Itv.p y) + dot (Itv.n x) (Itv.n y) := by
    conv_lhs => rw [← p_sub_n x, ← p_sub_n y]
    rw [hd.subl, hd.subr, hd.subr]
    abel
  rw [e]
  constructor
  · refine add_le_add (sub_le_sub (sub_le_sub ?_ ?_) ?_) ?_
    · exact hd.mono (p_nonneg _) (p_mono hx.1) (p_nonneg _) (p_mono hy.1)
    · exact hd.mono (p_nonneg _) (p_mono hx.2) (n_nonneg _) (n_anti hy.1)
    · exact hd.mono (n_nonneg _) (n_anti hx.1) (p_nonneg _) (p_mono hy.2)
    · exact hd.mono (n_nonneg _) (n_anti hx.2) (n_nonneg _) (n_anti hy.2)
  · refine add_le_add (sub_le_sub (sub_le_sub ?_ ?_) ?_) ?_
    · exact hd.mono (p_nonneg _) (p_mono hx.2) (p_nonneg _) (p_mono hy.2)
    · exact hd.mono (p_nonneg _) (p_mono hx.1) (n_nonneg _) (n_anti hy.2)
    · exact hd.mono (n_nonneg _) (n_anti hx.2) (p_nonneg _) (p_mono hy.1)
    · exact hd.mono (n_nonneg _) (n_anti hx.1) (n_nonneg _) (n_anti hy.1)

private theorem scaling_sound {dot : α → β → γ} (hd : PosDot dot) {a : α} {b : Itv β} {y : β} (hy : InItv y b) :
    InItv (dot a y) (Itv.scaling dot a b) := by
  have e : dot a y = dot (Itv.p a) y - dot (Itv.n a) y := by rw [← hd.subl, p_sub_n]
  have mono : ∀ (c : α) (u v : β), 0 ≤ c → u ≤ v → dot c u ≤ dot c v := by
    intro c u v hc huv
    have := hd.pos c (v - u) hc (sub_nonneg.2 huv)
    rwa [hd.subr, sub_nonneg] at this
  rw [e]
  exact ⟨sub_le_sub (mono _ _ _ (p_nonneg a) hy.1) (mono _ _ _ (n_nonneg a) hy.2),
    sub_le_sub (mono _ _ _ (p_nonneg a) hy.2) (mono _ _ _ (n_nonneg a) hy.1)⟩

end

private theorem posDot_mul : PosDot (fun x y : ℝ => x * y) :=
  ⟨fun _ _ _ => sub_mul _ _ _, fun _ _ _ => mul_sub _ _ _, fun _ _ => mul_nonneg⟩

private theorem posDot_smul {ι κ : Type} : PosDot (fun (c : ℝ) (m : ι → κ → ℝ) => c • m) :=
  ⟨fun _ _ _ => sub_smul _ _ _, fun _ _ _ => smul_sub _ _ _, fun _ _ hc hm i j => mul_nonneg hc (hm i j)⟩

private theorem posDot_dot {ι : Type} [Fintype ι] : PosDot (fun x y : ι → ℝ => x ⬝ᵥ y) :=
  ⟨fun _ _ _ => sub_dotProduct _ _ _, fun _ _ _ => dotProduct_sub _ _ _, fun _ _ hx hy => Finset.sum_nonneg fun i _ => mul_nonneg (hx i) (hy i)⟩

private theorem posDot_mulVec {ι κ : Type} [Fintype κ] : PosDot (α := ι → κ → ℝ) (fun (m : Matrix ι κ ℝ) (x : κ → ℝ) => m *ᵥ x) :=
  ⟨fun a b c => sub_mulVec (A := (a : Matrix ι κ ℝ)) (B := b) c, fun a b c => mulVec_sub (A := (a : Matrix ι κ ℝ)) b c,
    fun _ _ hm hx i => Finset.sum_nonneg fun j _ => mul_nonneg (hm i j) (hx j)⟩

/-! ## C63 -/

/-- **C63, products.**  The product of two intervals contains all products — of numbers, of vectors (scalar product), of a matrix and a
vector, of a number and a matrix. -/
theorem product_encloses :
    (∀ (a b : Itv ℝ) (x y : ℝ), InItv x a → InItv y b → InItv (x * y) (Itv.product (· * ·) a b)) ∧
    (∀ (ι : Type) [Fintype ι] (a b : Itv (ι → ℝ)) (x y : ι → ℝ), InItv x a → InItv y b → InItv (x ⬝ᵥ y) (Itv.product (· ⬝ᵥ ·) a b)) ∧
    (∀ (ι κ : Type) [Fintype κ] (a : Itv (ι → κ → ℝ)) (b : Itv (κ → ℝ)) (m : ι → κ → ℝ) (y : κ → ℝ), InItv m a → InItv y b →
      InItv (Matrix.of m *ᵥ y) (Itv.product (fun m x => Matrix.of m *ᵥ x) a b)) ∧
    (∀ (ι κ : Type) (a : Itv ℝ) (b : Itv (ι → κ → ℝ)) (x : ℝ) (m : ι → κ → ℝ), InItv x a → InItv m b →
      InItv (x • m) (Itv.product (fun (x : ℝ) (m : ι → κ → ℝ) => x • m) a b)) :=
  ⟨fun _ _ _ _ hx hy => product_sound posDot_mul hx hy, fun _ _ _ _ _ _ hx hy => product_sound posDot_dot hx hy,
   fun _ _ _ _ _ _ _ hx hy => product_sound posDot_mulVec hx hy, fun _ _ _ _ _ _ hx hy => product_sound posDot_smul hx hy⟩

/-- The product of an interval of numbers that do not change sign with another interval is exact. -/
theorem product_exact (a b : Itv ℝ) (ha : a.1 ≤ a.2) (hb : b.1 ≤ b.2) (hs : 0 ≤ a.1 ∨ a.2 ≤ 0) :
    RangeOf (Itv.product (· * ·) a b) {z | ∃ x y, InItv x a ∧ InItv y b ∧ z = x * y} := by
  have hset : ∀ x y, InItv x a → InItv y b → x * y ∈ {z | ∃ x y, InItv x a ∧ InItv y b ∧ z = x * y} := fun x y hx hy => ⟨x, y, hx, hy, rfl⟩
  have low : (Itv.product (· * ·) a b).1 ∈ {z | ∃ x y, InItv x a ∧ InItv y b ∧ z = x * y} := by
    have a1 : InItv a.1 a := ⟨le_rfl, ha⟩
    have a2 : InItv a.2 a := ⟨ha, le_rfl⟩
    have b1 : InItv b.1 b := ⟨le_rfl, hb⟩
    have b2 : InItv b.2 b := ⟨hb, le_rfl⟩
    rcases hs with h | h
    · rcases le_total 0 b.1 with hb1 | hb1
      · convert hset _ _ a1 b1 using 1
        simp [Itv.product, Itv.p, Itv.n, max_eq_left h, max_eq_left (h.trans ha), max_eq_left hb1, max_eq_right (neg_nonpos.2 hb1), max_eq_right (neg_nonpos.2 h), max_eq_right (neg_nonpos.2 (h.trans ha))]
      · convert hset _ _ a2 b1 using 1
        simp [Itv.product, Itv.p, Itv.n, max_eq_left h, max_eq_left (h.trans ha), max_eq_right hb1, max_eq_left (neg_nonneg.2 hb1), max_eq_right (neg_nonpos.2 h), max_eq_right (neg_nonpos.2 (h.trans ha))]
    · rcases le_total 0 b.2 with hb2 | hb2
      · convert hset _ _ a1 b2 using 1
        simp [Itv.product, Itv.p, Itv.n, max_eq_right h, max_eq_right (ha.trans h), max_eq_left hb2, max_eq_right (neg_nonpos.2 hb2), max_eq_left (neg_nonneg.2 h), max_eq_left (neg_nonneg.2 (ha.trans h))]
      · convert hset _ _ a2 b2 using 1
        simp [Itv.product, Itv.p, Itv.n, max_eq_right h, max_eq_right (ha.trans h), max_eq_right hb2, max_eq_left (neg_nonneg.2 hb2), max_eq_left (neg_nonneg.2 h), max_eq_left (neg_nonneg.2 (ha.trans h))]
  have high : (Itv.product (· * ·) a b).2 ∈ {z | ∃ x y, InItv x a ∧ InItv y b ∧ z = x * y} := by
    have a1 : InItv a.1 a := ⟨le_rfl, ha⟩
    have a2 : InItv a.2 a := ⟨ha, le_rfl⟩
    have b1 : InItv b.1 b := ⟨le_rfl, hb⟩
    have b2 : InItv b.2 b := ⟨hb, le_rfl⟩
    rcases hs with h | h
    · rcases le_total 0 b.2 with hb1 | hb1
      · convert hset _ _ a2 b2 using 1
        simp [Itv.product, Itv.p, Itv.n, max_eq_left h, max_eq_left (h.trans ha), max_eq_left hb1, max_eq_right (neg_nonpos.2 hb1), max_eq_right (neg_nonpos.2 h), max_eq_right (neg_nonpos.2 (h.trans ha))]
      · convert hset _ _ a1 b2 using 1
        simp [Itv.product, Itv.p, Itv.n, max_eq_left h, max_eq_left (h.trans ha), max_eq_right hb1, max_eq_left (neg_nonneg.2 hb1), max_eq_right (neg_nonpos.2 h), max_eq_right (neg_nonpos.2 (h.trans ha))]
    · rcases le_total 0 b.1 with hb2 | hb2
      · convert hset _ _ a2 b1 using 1
        simp [Itv.product, Itv.p, Itv.n, max_eq_right h, max_eq_right (ha.trans h), max_eq_left hb2, max_eq_right (neg_nonpos.2 hb2), max_eq_left (neg_nonneg.2 h), max_eq_left (neg_nonneg.2 (ha.trans h))]
      · convert hset _ _ a1 b1 using 1
        simp [Itv.product, Itv.p, Itv.n, max_eq_right h, max_eq_right (ha.trans h), max_eq_right hb2, max_eq_left (neg_nonneg.2 hb2), max_eq_left (neg_nonneg.2 h), max_eq_left (neg_nonneg.2 (ha.trans h))]
  refine ⟨⟨low, ?_⟩, ⟨high, ?_⟩⟩
  · rintro z ⟨x, y, hx, hy, rfl⟩; exact (product_encloses.1 a b x y hx hy).1
  · rintro z ⟨x, y, hx, hy, rfl⟩; exact (product_encloses.1 a b x y hx hy).2

/-- Otherwise it may be too large: for [-1, 1] times [-1, 1] it gives [-2, 2]. -/
theorem product_loose : Itv.product (fun x y : ℝ => x * y) (-1, 1) (-1, 1) = (-2, 2) := by
  norm_num [Itv.product, Itv.p, Itv.n]

/-- **C63, scaling.**  Scaling an interval vector by a matrix (or an interval by a number) gives, in every component, exactly the range of
the values. -/
theorem scaling_exact {ι κ : Type} [Fintype κ] (m : Matrix ι κ ℝ) (b : Itv (κ → ℝ)) (hb : b.1 ≤ b.2) (i : ι) :
    RangeOf ((Itv.scaling (α := ι → κ → ℝ) (fun (m : Matrix ι κ ℝ) x => m *ᵥ x) m b).1 i,
      (Itv.scaling (α := ι → κ → ℝ) (fun (m : Matrix ι κ ℝ) x => m *ᵥ x) m b).2 i) {z | ∃ x, InItv x b ∧ z = (m *ᵥ x) i} := by
  have snd : ∀ x, InItv x b → InItv (m *ᵥ x) (Itv.scaling (α := ι → κ → ℝ) (fun (m : Matrix ι κ ℝ) x => m *ᵥ x) m b) :=
    fun x hx => scaling_sound (posDot_mulVec (ι := ι) (κ := κ)) hx
  refine ⟨⟨⟨fun j => if 0 ≤ m i j then b.1 j else b.2 j, ⟨fun j => ?_, fun j => ?_⟩, ?_⟩, ?_⟩,
    ⟨⟨fun j => if 0 ≤ m i j then b.2 j else b.1 j, ⟨fun j => ?_, fun j => ?_⟩, ?_⟩, ?_⟩⟩
  · dsimp only; split_ifs; exacts [le_rfl, hb j]
  · dsimp only; split_ifs; exacts [hb j, le_rfl]
  · show (∑ j, max (m i j) 0 * b.1 j) - (∑ j, max (-(m i j)) 0 * b.2 j) = ∑ j, m i j * _
    rw [← Finset.sum_sub_distrib]
    refine Finset.sum_congr rfl fun j _ => ?_
    split_ifs with h
    · rw [max_eq_left h, max_eq_right (neg_nonpos.2 h)]; ring
    · push Not at h
      rw [max_eq_right h.le, max_eq_left (neg_nonneg.2 h.le)]; ring
  · rintro z ⟨x, hx, rfl⟩; exact (snd x hx).1 i
  · dsimp only; split_ifs; exacts [hb j, le_rfl]
  · dsimp only; split_ifs; exacts [le_rfl, hb j]
  · show (∑ j, max (m i j) 0 * b.2 j) - (∑ j, max (-(m i j)) 0 * b.1 j) = ∑ j, m i j * _
    rw [← Finset.sum_sub_distrib]
    refine Finset.sum_congr rfl fun j _ => ?_
    split_ifs with h
    · rw [max_eq_left h, max_eq_right (neg_nonpos.2 h)]; ring
    · push Not at h
      rw [max_eq_right h.le, max_eq_left (neg_nonneg.2 h.le)]; ring
  · rintro z ⟨x, hx, rfl⟩; exact (snd x hx).2 i

/-- **C63, differences and negative parts** are exact. -/
theorem diff_exact (a b : Itv ℝ) (ha : a.1 ≤ a.2) (hb : b.1 ≤ b.2) :
    RangeOf (Itv.diff a b) {z | ∃ x y, InItv x a ∧ InItv y b ∧ z = x - y} := by
  refine ⟨⟨⟨a.1, b.2, ⟨le_rfl, ha⟩, ⟨hb, le_rfl⟩, rfl⟩, ?_⟩, ⟨⟨a.2, b.1, ⟨ha, le_rfl⟩, ⟨le_rfl, hb⟩, rfl⟩, ?_⟩⟩
  · rintro z ⟨x, y, hx, hy, rfl⟩; exact sub_le_sub hx.1 hy.2
  · rintro z ⟨x, y, hx, hy, rfl⟩; exact sub_le_sub hx.2 hy.1

theorem negativePart_exact (a : Itv ℝ) (ha : a.1 ≤ a.2) : RangeOf (Itv.negativePart a) {z | ∃ x, InItv x a ∧ z = min x 0} := by
  refine ⟨⟨⟨a.1, ⟨le_rfl, ha⟩, rfl⟩, ?_⟩, ⟨⟨a.2, ⟨ha, le_rfl⟩, rfl⟩, ?_⟩⟩
  · rintro z ⟨x, hx, rfl⟩; exact min_le_min_right 0 hx.1
  · rintro z ⟨x, hx, rfl⟩; exact min_le_min_right 0 hx.2

/-- **C63, integrator.**  One step of `x' = -k x` with an uncertain gain, of a duration at most the shortest time constant, keeps the state
in the interval moved by the computed derivative bounds. -/
theorem integrator_step (x k : Itv ℝ) (dt : ℝ) (hdt : 0 ≤ dt) (hk : 0 ≤ k.1) (hdk : dt * k.2 ≤ 1) (s g : ℝ) (hs : InItv s x) (hg : InItv g k) :
    InItv (s + dt * (-(g * s))) (x.1 + dt * (Itv.integrator x k).1, x.2 + dt * (Itv.integrator x k).2) := by
  obtain ⟨s1, s2⟩ := hs
  obtain ⟨g1, g2⟩ := hg
  have e1 : dt * k.1 ≤ dt * g := mul_le_mul_of_nonneg_left g1 hdt
  have e2 : dt * g ≤ dt * k.2 := mul_le_mul_of_nonneg_left g2 hdt
  have e0 : 0 ≤ dt * k.1 := mul_nonneg hdt hk
  have rw1 : s + dt * (-(g * s)) = (1 - dt * g) * s := by ring
  unfold Itv.integrator InItv
  rw [rw1]
  by_cases h1 : 0 ≤ x.1
  · simp only [h1, if_true]
    constructor
    · nlinarith [mul_nonneg (sub_nonneg.2 hdk) (sub_nonneg.2 s1), mul_nonneg (sub_nonneg.2 e2) (h1.trans s1)]
    · nlinarith [mul_nonneg (sub_nonneg.2 (e2.trans hdk)) (sub_nonneg.2 s2), mul_nonneg (sub_nonneg.2 e1) ((h1.trans s1).trans s2)]
  · simp only [h1, if_false]
    push Not at h1
    by_cases h2 : x.2 ≤ 0
    · simp only [h2, if_true]
      constructor
      · nlinarith [mul_nonneg (sub_nonneg.2 (e2.trans hdk)) (sub_nonneg.2 s1), mul_nonneg (sub_nonneg.2 e1) (neg_nonneg.2 h1.le)]
      · nlinarith [mul_nonneg (sub_nonneg.2 hdk) (sub_nonneg.2 s2), mul_nonneg (sub_nonneg.2 e2) (neg_nonneg.2 (s2.trans h2))]
    · simp only [h2, if_false]
      push Not at h2
      constructor
      · nlinarith [mul_nonneg (sub_nonneg.2 (e2.trans hdk)) (sub_nonneg.2 s1), mul_nonneg (sub_nonneg.2 e1) (neg_nonneg.2 h1.le)]
      · nlinarith [mul_nonneg (sub_nonneg.2 (e2.trans hdk)) (sub_nonneg.2 s2), mul_nonneg (sub_nonneg.2 e1) h2.le]

/-- The derivative bounds themselves do not enclose all derivatives. -/
theorem integrator_not_enclosing : ¬ InItv (-(1 * (2 : ℝ))) (Itv.integrator (0, 2) (1, 1)) ∨ ¬ InItv (-(1 * (0 : ℝ))) (Itv.integrator (0, 2) (1, 1)) := by
  left
  norm_num [InItv, Itv.integrator]

private theorem overCorners_affine (x y : Itv ℝ) (hx : x.1 ≤ x.2) (hy : y.1 ≤ y.2) (f : Vec2 → ℝ) (c a b : ℝ) (hf : ∀ q : Vec2, f q = c + a * q.x + b * q.y) :
    RangeOf (Itv.overCorners x y f) {z | ∃ q : Vec2, InItv q.x x ∧ InItv q.y y ∧ z = f q} := by
  have hx1 : InItv x.1 x := ⟨le_rfl, hx⟩
  have hx2 : InItv x.2 x := ⟨hx, le_rfl⟩
  have hy1 : InItv y.1 y := ⟨le_rfl, hy⟩
  have hy2 : InItv y.2 y := ⟨hy, le_rfl⟩
  have hm : ∀ u v, InItv u x → InItv v y → f ⟨u, v⟩ ∈ {z | ∃ q : Vec2, InItv q.x x ∧ InItv q.y y ∧ z = f q} :=
    fun u v hu hv => ⟨⟨u, v⟩, hu, hv, rfl⟩
  refine ⟨⟨?_, ?_⟩, ⟨?_, ?_⟩⟩
  · unfold Itv.overCorners
    dsimp only
    rcases min_choice (min (f ⟨x.1, y.1⟩) (f ⟨x.1, y.2⟩)) (min (f ⟨x.2, y.1⟩) (f ⟨x.2, y.2⟩)) with h | h <;> rw [h]
    · rcases min_choice (f ⟨x.1, y.1⟩) (f ⟨x.1, y.2⟩) with h | h <;> rw [h]
      exacts [hm _ _ hx1 hy1, hm _ _ hx1 hy2]
    · rcases min_choice (f ⟨x.2, y.1⟩) (f ⟨x.2, y.2⟩) with h | h <;> rw [h]
      exacts [hm _ _ hx2 hy1, hm _ _ hx2 hy2]
  · rintro z ⟨q, hqx, hqy, rfl⟩
    unfold Itv.overCorners
    dsimp only
    rw [hf q, hf, hf, hf, hf]
    dsimp only
    have ma : min (a * x.1) (a * x.2) ≤ a * q.x := by
      rcases le_total 0 a with h | h
      · exact min_le_of_left_le (mul_le_mul_of_nonneg_left hqx.1 h)
      · exact min_le_of_right_le (mul_le_mul_of_nonpos_left hqx.2 h)
    have mb : min (b * y.1) (b * y.2) ≤ b * q.y := by
      rcases le_total 0 b with h | h
      · exact min_le_of_left_le (mul_le_mul_of_nonneg_left hqy.1 h)
      · exact min_le_of_right_le (mul_le_mul_of_nonpos_left hqy.2 h)
    simp only [min_le_iff] at ma mb ⊢
    rcases ma with ma | ma <;> rcases mb with mb | mb
    · exact .inl (.inl (by linarith))
    · exact .inl (.inr (by linarith))
    · exact .inr (.inl (by linarith))
    · exact .inr (.inr (by linarith))
  · unfold Itv.overCorners
    dsimp only
    rcases max_choice (max (f ⟨x.1, y.1⟩) (f ⟨x.1, y.2⟩)) (max (f ⟨x.2, y.1⟩) (f ⟨x.2, y.2⟩)) with h | h <;> rw [h]
    · rcases max_choice (f ⟨x.1, y.1⟩) (f ⟨x.1, y.2⟩) with h | h <;> rw [h]
      exacts [hm _ _ hx1 hy1, hm _ _ hx1 hy2]
    · rcases max_choice (f ⟨x.2, y.1⟩) (f ⟨x.2, y.2⟩) with h | h <;> rw [h]
      exacts [hm _ _ hx2 hy1, hm _ _ hx2 hy2]
  · rintro z ⟨q, hqx, hqy, rfl⟩
    unfold Itv.overCorners
    dsimp only
    rw [hf q, hf, hf, hf, hf]
    dsimp only
    have ma : a * q.x ≤ max (a * x.1) (a * x.2) := by
      rcases le_total 0 a with h | h
      · exact le_max_of_le_right (mul_le_mul_of_nonneg_left hqx.2 h)
      · exact le_max_of_le_left (mul_le_mul_of_nonpos_left hqx.1 h)
    have mb : b * q.y ≤ max (b * y.1) (b * y.2) := by
      rcases le_total 0 b with h | h
      · exact le_max_of_le_right (mul_le_mul_of_nonneg_left hqy.2 h)
      · exact le_max_of_le_left (mul_le_mul_of_nonpos_left hqy.1 h)
    simp only [le_max_iff] at ma mb ⊢
    rcases ma with ma | ma <;> rcases mb with mb | mb
    · exact .inl (.inl (by linarith))
    · exact .inl (.inr (by linarith))
    · exact .inr (.inl (by linarith))
    · exact .inr (.inr (by linarith))

/-- Two descriptions of the same set have the same range. -/
theorem rangeOf_congr {i : Itv ℝ} {s t : Set ℝ} (h : RangeOf i t) (e : ∀ z, z ∈ s ↔ z ∈ t) : RangeOf i s := by
  rw [Set.ext e]; exact h

/-- **C63, projection.**  The section of a box of vectors along a direction is exactly the range of the projections. -/
theorem section_exact (v : Itv Vec2) (dir : Vec2) (hx : v.1.x ≤ v.2.x) (hy : v.1.y ≤ v.2.y) :
    RangeOf (Itv.section' v dir) {z | ∃ q : Vec2, InBox q v ∧ z = q.x * dir.x + q.y * dir.y} := by
  have := overCorners_affine (v.1.x, v.2.x) (v.1.y, v.2.y) hx hy (fun c => c.dot dir) 0 dir.x dir.y (fun q => by unfold Vec2.dot; ring)
  refine rangeOf_congr this fun z => ?_
  constructor
  · rintro ⟨q, ⟨h1, h2⟩, h3⟩; exact ⟨q, h1, h2, h3⟩
  · rintro ⟨q, h1, h2, h3⟩; exact ⟨q, ⟨h1, h2⟩, h3⟩

/-- **C63, lane frames.**  On straight lanes, converting a box of positions to lane coordinates gives exactly the ranges of the two
coordinates over the box. -/
theorem absoluteToLocal_exact (l : Lane) (a b : Vec2) (hl : l.shape = .straight a b) (pos : Itv Vec2) (hx : pos.1.x ≤ pos.2.x) (hy : pos.1.y ≤ pos.2.y) :
    RangeOf (Itv.absoluteToLocal pos l).1 {z | ∃ q, InBox q pos ∧ z = (l.localCoordinates q).1} ∧
    RangeOf (Itv.absoluteToLocal pos l).2 {z | ∃ q, InBox q pos ∧ z = (l.localCoordinates q).2} := by
  have e : ∀ q, l.localCoordinates q = Lane.straightLocal a b q := fun q => by unfold Lane.localCoordinates; rw [hl]
  set d := Lane.straightDir a b with hd
  have h1 := overCorners_affine (pos.1.x, pos.2.x) (pos.1.y, pos.2.y) hx hy (fun c => (l.localCoordinates c).1) (-(a.x * d.x) - a.y * d.y) d.x d.y
    (fun q => by rw [e]; unfold Lane.straightLocal Vec2.dot; dsimp only; rw [← hd, Vec2.sub_x, Vec2.sub_y]; ring)
  have h2 := overCorners_affine (pos.1.x, pos.2.x) (pos.1.y, pos.2.y) hx hy (fun c => (l.localCoordinates c).2) (a.x * d.y - a.y * d.x) (-d.y) d.x
    (fun q => by rw [e]; unfold Lane.straightLocal Vec2.dot; dsimp only; rw [← hd, Vec2.sub_x, Vec2.sub_y]; ring)
  constructor
  · refine rangeOf_congr h1 fun z => ?_
    constructor
    · rintro ⟨q, ⟨h1, h2⟩, h3⟩; exact ⟨q, h1, h2, h3⟩
    · rintro ⟨q, h1, h2, h3⟩; exact ⟨q, ⟨h1, h2⟩, h3⟩
  · refine rangeOf_congr h2 fun z => ?_
    constructor
    · rintro ⟨q, ⟨h1, h2⟩, h3⟩; exact ⟨q, h1, h2, h3⟩
    · rintro ⟨q, h1, h2, h3⟩; exact ⟨q, ⟨h1, h2⟩, h3⟩

/-- Back from lane coordinates, on straight lanes: exactly the ranges of `x` and `y`. -/
theorem localToAbsolute_exact (l : Lane) (a b : Vec2) (hl : l.shape = .straight a b) (lon lat : Itv ℝ) (hx : lon.1 ≤ lon.2) (hy : lat.1 ≤ lat.2) :
    RangeOf ((Itv.localToAbsolute lon lat l).1.x, (Itv.localToAbsolute lon lat l).2.x) {z | ∃ s r, InItv s lon ∧ InItv r lat ∧ z = (l.position s r).x} ∧
    RangeOf ((Itv.localToAbsolute lon lat l).1.y, (Itv.localToAbsolute lon lat l).2.y) {z | ∃ s r, InItv s lon ∧ InItv r lat ∧ z = (l.position s r).y} := by
  have e : ∀ s r, l.position s r = Lane.straightPosition a b s r := fun s r => by unfold Lane.position; rw [hl]
  set d := Lane.straightDir a b with hd
  have h1 := overCorners_affine lon lat hx hy (fun c => (l.position c.x c.y).x) a.x d.x (-d.y)
    (fun q => by rw [e]; unfold Lane.straightPosition; dsimp only; rw [← hd]; ring)
  have h2 := overCorners_affine lon lat hx hy (fun c => (l.position c.x c.y).y) a.y d.y d.x
    (fun q => by rw [e]; unfold Lane.straightPosition; dsimp only; rw [← hd]; ring)
  constructor
  · refine rangeOf_congr h1 fun z => ?_
    constructor
    · rintro ⟨s, r, h1, h2, h3⟩; exact ⟨⟨s, r⟩, h1, h2, h3⟩
    · rintro ⟨q, h1, h2, h3⟩; exact ⟨q.x, q.y, h1, h2, h3⟩
  · refine rangeOf_congr h2 fun z => ?_
    constructor
    · rintro ⟨s, r, h1, h2, h3⟩; exact ⟨⟨s, r⟩, h1, h2, h3⟩
    · rintro ⟨q, h1, h2, h3⟩; exact ⟨q.x, q.y, h1, h2, h3⟩

/-- On circular lanes the conversion does not enclose: on the circle of radius 10 around the origin, the point (0, 9) of the box
[-1, 1] × [9, 10] is further inside than all corners. -/
theorem absoluteToLocal_circular : ∃ (l : Lane) (pos : Itv Vec2) (q : Vec2), InBox q pos ∧
    ¬ InItv (l.localCoordinates q).2 (Itv.absoluteToLocal pos l).2 := by
  refine ⟨{ shape := .circular ⟨0, 0⟩ 10 0 1 true }, (⟨-1, 9⟩, ⟨1, 10⟩), ⟨0, 9⟩, ?_, ?_⟩
  · norm_num [InBox, InItv]
  · rintro ⟨_, h⟩
    have e0 : √((0 : ℝ) ^ 2 + 9 ^ 2) = 9 := by rw [show (0 : ℝ) ^ 2 + 9 ^ 2 = 9 ^ 2 by norm_num, Real.sqrt_sq (by norm_num)]
    have e1 : (9 : ℝ) < √((-1 : ℝ) ^ 2 + 9 ^ 2) := by rw [Real.lt_sqrt (by norm_num)]; norm_num
    have e2 : (9 : ℝ) < √((-1 : ℝ) ^ 2 + 10 ^ 2) := by rw [Real.lt_sqrt (by norm_num)]; norm_num
    have e3 : (9 : ℝ) < √((1 : ℝ) ^ 2 + 9 ^ 2) := by rw [Real.lt_sqrt (by norm_num)]; norm_num
    have e4 : (9 : ℝ) < √((1 : ℝ) ^ 2 + 10 ^ 2) := by rw [Real.lt_sqrt (by norm_num)]; norm_num
    simp only [Itv.absoluteToLocal, Itv.overCorners, Lane.localCoordinates, Lane.circDir, Vec2.norm, Vec2.sub_x, Vec2.sub_y, sub_zero, if_true, e0,
      le_max_iff] at h
    rcases h with (h | h) | (h | h) <;> linarith

/-- A square box in the frame of the lane along the diagonal. -/
example : RangeOf (Itv.section' (⟨0, 0⟩, ⟨1, 2⟩) ⟨1, -1⟩) {z | ∃ q : Vec2, InBox q (⟨0, 0⟩, ⟨1, 2⟩) ∧ z = q.x * 1 + q.y * -1} :=
  section_exact _ _ (by norm_num) (by norm_num)

end HighwayEnv.Props
