import Verif.Spec.Regression
import Verif.Lemmas.Num
import Verif.Spec.Sample
import Mathlib.Analysis.Matrix.Spectrum
import Mathlib.Analysis.Matrix.PosDef
import Mathlib.Analysis.SpecialFunctions.Log.Deriv
import Mathlib.Analysis.Complex.ExponentialBounds

/-!
# C92: regression of the parameters of a linear vehicle
-/

noncomputable section
open Classical Matrix

namespace HighwayEnv.Props
open HighwayEnv HighwayEnv.Spec Regression

variable {d : ℕ}

/-! ## The Gramian -/

private theorem sum_mulVec (data : Dataset d) (x : Fin d → ℝ) :
    (data.map fun o => vecMulVec o.1 o.1).sum *ᵥ x = (data.map fun o => (o.1 ⬝ᵥ x) • o.1).sum := by
  induction data with
  | nil => simp
  | cons o data ih =>
    rw [List.map_cons, List.sum_cons, Matrix.add_mulVec, ih, List.map_cons, List.sum_cons]
    congr 1
    ext i
    simp [vecMulVec_mulVec, mul_comm]

private theorem dot_sum (data : Dataset d) (f : (Fin d → ℝ) × ℝ → ℝ) (x : Fin d → ℝ) :
    x ⬝ᵥ (data.map fun o => f o • o.1).sum = (data.map fun o => f o * (o.1 ⬝ᵥ x)).sum := by
  induction data with
  | nil => simp
  | cons o data ih => rw [List.map_cons, List.sum_cons, dotProduct_add, ih, List.map_cons, List.sum_cons, dotProduct_smul, smul_eq_mul, dotProduct_comm x]

private theorem gram_mulVec (data : Dataset d) (l s : ℝ) (x : Fin d → ℝ) :
    gramian data l s *ᵥ x = (1 / s) • (data.map fun o => (o.1 ⬝ᵥ x) • o.1).sum + l • x := by
  unfold gramian
  rw [Matrix.add_mulVec, Matrix.smul_mulVec, sum_mulVec, Matrix.smul_mulVec, Matrix.one_mulVec]

private theorem gram_quad (data : Dataset d) (l s : ℝ) (x : Fin d → ℝ) :
    x ⬝ᵥ gramian data l s *ᵥ x = (data.map fun o => (o.1 ⬝ᵥ x) ^ 2).sum / s + l * (x ⬝ᵥ x) := by
  rw [gram_mulVec, dotProduct_add, dotProduct_smul, dotProduct_smul, dot_sum]
  simp only [smul_eq_mul, sq]
  ring

private theorem gram_lower (data : Dataset d) {l s : ℝ} (hs : 0 < s) (x : Fin d → ℝ) : l * (x ⬝ᵥ x) ≤ x ⬝ᵥ gramian data l s *ᵥ x := by
  rw [gram_quad]
  have : 0 ≤ (data.map fun o => (o.1 ⬝ᵥ x) ^ 2).sum := List.sum_nonneg (by simp only [List.mem_map]; rintro _ ⟨o, _, rfl⟩; positivity)
  have : 0 ≤ (data.map fun o => (o.1 ⬝ᵥ x) ^ 2).sum / s := by positivity
  linarith

private theorem gram_symm (data : Dataset d) (l s : ℝ) : (gramian data l s).transpose = gramian data l s := by
  unfold gramian
  have : ((data.map fun o => vecMulVec o.1 o.1).sum).transpose = (data.map fun o => vecMulVec o.1 o.1).sum := by
    induction data with
    | nil => simp
    | cons o data ih =>
      rw [List.map_cons, List.sum_cons, Matrix.transpose_add, ih]
      congr 1
      ext i j
      simp [vecMulVec_apply, mul_comm]
  rw [Matrix.transpose_add, Matrix.transpose_smul, this, Matrix.transpose_smul, Matrix.transpose_one]

private theorem dot_self_nonneg (x : Fin d → ℝ) : 0 ≤ x ⬝ᵥ x := Finset.sum_nonneg fun i _ => mul_self_nonneg _

private theorem dot_self_pos {x : Fin d → ℝ} (h : x ≠ 0) : 0 < x ⬝ᵥ x :=
  lt_of_le_of_ne (dot_self_nonneg x) fun h0 => h (dotProduct_self_eq_zero.1 h0.symm)

/-- The Gramian can be inverted. -/
theorem gramian_regular (data : Dataset d) {l s : ℝ} (hl : 0 < l) (hs : 0 < s) : IsUnit (gramian data l s).det := by
  rw [isUnit_iff_ne_zero]
  intro h0
  obtain ⟨x, hx, hx0⟩ := Matrix.exists_mulVec_eq_zero_iff.2 h0
  have := gram_lower data (l := l) hs x
  rw [hx0, dotProduct_zero] at this
  nlinarith [dot_self_pos hx]

private theorem gram_estimate (data : Dataset d) {l s : ℝ} (hl : 0 < l) (hs : 0 < s) :
    gramian data l s *ᵥ estimate data l s = (1 / s) • (data.map fun o => o.2 • o.1).sum := by
  unfold estimate
  rw [Matrix.mulVec_smul, Matrix.mulVec_mulVec, Matrix.mul_nonsing_inv _ (gramian_regular data hl hs), Matrix.one_mulVec]

private theorem symm_dot {m : Matrix (Fin d) (Fin d) ℝ} (h : m.transpose = m) (x y : Fin d → ℝ) : x ⬝ᵥ m *ᵥ y = y ⬝ᵥ m *ᵥ x := by
  rw [dotProduct_mulVec, ← Matrix.mulVec_transpose, h, dotProduct_comm]

private theorem loss_quad (data : Dataset d) (l s : ℝ) (x : Fin d → ℝ) :
    ridgeLoss data l s x = x ⬝ᵥ gramian data l s *ᵥ x - 2 * (x ⬝ᵥ ((1 / s) • (data.map fun o => o.2 • o.1).sum)) +
      (data.map fun o => o.2 ^ 2).sum / s := by
  unfold ridgeLoss
  rw [gram_quad, dotProduct_smul, dot_sum, smul_eq_mul]
  have : (data.map fun o => (o.2 - x ⬝ᵥ o.1) ^ 2).sum =
      (data.map fun o => (o.1 ⬝ᵥ x) ^ 2).sum - 2 * (data.map fun o => o.2 * (o.1 ⬝ᵥ x)).sum + (data.map fun o => o.2 ^ 2).sum := by
    induction data with
    | nil => simp
    | cons o data ih => simp only [List.map_cons, List.sum_cons, ih, dotProduct_comm x o.1]; ring
  rw [this]
  ring

/-- **C92, the estimate.**  For any data, the estimated parameter is the only minimiser of the regularised squared error: any other parameter has a
larger error, by at least `lambda` times the squared distance. -/
theorem estimate_minimises (data : Dataset d) (l s : ℝ) (hl : 0 < l) (hs : 0 < s) (theta : Fin d → ℝ) :
    ridgeLoss data l s (estimate data l s) + l * ((theta - estimate data l s) ⬝ᵥ (theta - estimate data l s)) ≤ ridgeLoss data l s theta := by
  set e := estimate data l s with he
  have hb := gram_estimate data hl hs
  rw [← he] at hb
  rw [loss_quad, loss_quad, ← hb]
  have h1 := gram_lower data (l := l) hs (theta - e)
  have h2 : (theta - e) ⬝ᵥ gramian data l s *ᵥ (theta - e) =
      theta ⬝ᵥ gramian data l s *ᵥ theta - 2 * (theta ⬝ᵥ gramian data l s *ᵥ e) + e ⬝ᵥ gramian data l s *ᵥ e := by
    rw [Matrix.mulVec_sub, dotProduct_sub, sub_dotProduct, sub_dotProduct, symm_dot (gram_symm data l s) e theta]
    ring
  rw [h2] at h1
  linarith

/-- The Gramian has determinant at least `lambda ^ d`: the logarithm in the radius is never negative. -/
theorem gramian_det (data : Dataset d) {l s : ℝ} (hl : 0 < l) (hs : 0 < s) : l ^ d ≤ (gramian data l s).det := by
  have hH : (gramian data l s).IsHermitian := by
    rw [Matrix.IsHermitian, Matrix.conjTranspose_eq_transpose_of_trivial, gram_symm]
  have hdet : (gramian data l s).det = ∏ i, hH.eigenvalues i := by simpa using hH.det_eq_prod_eigenvalues
  rw [hdet]
  have hle : ∀ i, l ≤ hH.eigenvalues i := by
    intro i
    have hv := hH.mulVec_eigenvectorBasis i
    set w : Fin d → ℝ := ⇑(hH.eigenvectorBasis i) with hw
    have hw0 : w ≠ 0 := by
      intro h0
      apply hH.eigenvectorBasis.orthonormal.ne_zero i
      ext j
      exact congrFun h0 j
    have hp := dot_self_pos hw0
    have := gram_lower data (l := l) hs w
    rw [hv, dotProduct_smul, smul_eq_mul] at this
    exact le_of_mul_le_mul_right this hp
  calc l ^ d = ∏ _i : Fin d, l := by simp
    _ ≤ ∏ i, hH.eigenvalues i := Finset.prod_le_prod (fun _ _ => hl.le) fun i _ => hle i

/-! ## Exact data -/

private theorem sub_dot_self (a b : Fin d → ℝ) : (a - b) ⬝ᵥ (a - b) = a ⬝ᵥ a - 2 * (b ⬝ᵥ a) + b ⬝ᵥ b := by
  rw [dotProduct_sub, sub_dotProduct, sub_dotProduct, dotProduct_comm a b]
  ring

/-- The error of the estimate on exact data: small in the metric of the Gramian. -/
private theorem exact_error (data : Dataset d) {l s : ℝ} (hl : 0 < l) (hs : 0 < s) (theta : Fin d → ℝ) (h : ExactData theta data) :
    (theta - estimate data l s) ⬝ᵥ gramian data l s *ᵥ (theta - estimate data l s) ≤ l * (theta ⬝ᵥ theta) := by
  set e := theta - estimate data l s with he
  have hsum : (data.map fun o => o.2 • o.1).sum = (data.map fun o => (o.1 ⬝ᵥ theta) • o.1).sum := by
    congr 1
    refine List.map_congr_left fun o ho => ?_
    rw [h o ho, dotProduct_comm]
  have hG : gramian data l s *ᵥ e = l • theta := by
    rw [he, Matrix.mulVec_sub, gram_estimate data hl hs, gram_mulVec, hsum]
    simp
  have h1 := gram_lower data (l := l) hs e
  rw [hG, dotProduct_smul, smul_eq_mul] at h1 ⊢
  have h2 : e ⬝ᵥ e ≤ e ⬝ᵥ theta := le_of_mul_le_mul_left h1 hl
  have h3 : 0 ≤ (theta - e) ⬝ᵥ (theta - e) := dot_self_nonneg _
  rw [sub_dot_self] at h3
  have : e ⬝ᵥ theta ≤ theta ⬝ᵥ theta := by linarith
  exact mul_le_mul_of_nonneg_left this hl.le

private theorem radius_lower (data : Dataset d) {l δ s b : ℝ} (hl : 0 < l) (hs : 0 < s) :
    Real.sqrt (2 * Real.log (1 / δ)) + Real.sqrt (l * d) * b ≤ radius data l δ s b ∨ δ ≤ 0 := by
  by_cases hδ : δ ≤ 0
  · exact .inr hδ
  left
  unfold radius
  gcongr ?_ + _
  apply Real.sqrt_le_sqrt
  have h1 : 1 ≤ (gramian data l s).det / l ^ d := by rw [le_div_iff₀ (by positivity), one_mul]; exact gramian_det data hl hs
  have h2 : 1 ≤ Real.sqrt ((gramian data l s).det / l ^ d) := Real.one_le_sqrt.2 h1
  have hδ' : 0 < δ := lt_of_not_ge hδ
  gcongr

/-- **C92, the ellipsoid.**  If the outputs are exactly `theta · phi` and no parameter exceeds the bound, then `theta` is in the confidence ellipsoid:
its distance to the estimate, in the metric of the Gramian, is at most the radius.  For any number of observations and any features. -/
theorem ellipsoid_contains (data : Dataset d) (l δ s b : ℝ) (hl : 0 < l) (hδ : 0 < δ) (hs : 0 < s) (theta : Fin d → ℝ)
    (h : ExactData theta data) (hb : ∀ i, |theta i| ≤ b) :
    let e := ellipsoid data l δ s b
    Real.sqrt ((theta - e.1) ⬝ᵥ e.2.1 *ᵥ (theta - e.1)) ≤ e.2.2 := by
  dsimp only [ellipsoid]
  have h1 := exact_error data hl hs theta h
  have h2 : theta ⬝ᵥ theta ≤ d * b ^ 2 := by
    unfold dotProduct
    calc ∑ i, theta i * theta i ≤ ∑ _i : Fin d, b ^ 2 := Finset.sum_le_sum fun i _ => by
          have := hb i
          nlinarith [abs_mul_abs_self (theta i), abs_nonneg (theta i)]
      _ = d * b ^ 2 := by simp
  have h3 : Real.sqrt ((theta - estimate data l s) ⬝ᵥ gramian data l s *ᵥ (theta - estimate data l s)) ≤ Real.sqrt (l * d * b ^ 2) :=
    Real.sqrt_le_sqrt (h1.trans (by rw [mul_assoc]; gcongr))
  refine h3.trans ?_
  rw [Real.sqrt_mul (by positivity), Real.sqrt_sq_eq_abs]
  rcases radius_lower data (δ := δ) (b := b) hl hs with h4 | h4
  · refine le_trans ?_ h4
    rcases Nat.eq_zero_or_pos d with rfl | hd
    · simp
    · have hb0 : 0 ≤ b := (abs_nonneg _).trans (hb ⟨0, hd⟩)
      rw [abs_of_nonneg hb0]
      linarith [Real.sqrt_nonneg (2 * Real.log (1 / δ))]
  · linarith

private theorem clip_closer {x t a b : ℝ} (ha : a ≤ t) (hb : t ≤ b) : (t - npClip x a b) ^ 2 ≤ (t - x) ^ 2 := by
  unfold npClip
  rcases le_total x a with h | h
  · rw [max_eq_right h, min_eq_left (by linarith)]; nlinarith
  · rw [max_eq_left h]
    rcases le_total x b with h' | h'
    · rw [min_eq_left h']
    · rw [min_eq_right h']; nlinarith

private theorem bound_le (box : Itv (Fin (d + 1) → ℝ)) {theta : Fin (d + 1) → ℝ} (h : InParamBox theta box) (i : Fin (d + 1)) :
    |theta i| ≤ paramBound box := by
  unfold paramBound
  refine le_trans ?_ (Finset.le_sup' (fun i => max |box.1 i| |box.2 i|) (Finset.mem_univ i))
  exact abs_le_max_abs_abs (h i).1 (h i).2

private theorem eig_lower (m : Matrix (Fin (d + 1)) (Fin (d + 1)) ℝ) (hm : m.transpose = m) (values : Fin (d + 1) → ℝ) (p : Matrix (Fin (d + 1)) (Fin (d + 1)) ℝ)
    (hd : Diagonalises m values p) (x : Fin (d + 1) → ℝ) : Finset.univ.inf' Finset.univ_nonempty values * (x ⬝ᵥ x) ≤ x ⬝ᵥ m *ᵥ x := by
  set μ := Finset.univ.inf' Finset.univ_nonempty values with hμ
  have hH : (m - μ • (1 : Matrix (Fin (d + 1)) (Fin (d + 1)) ℝ)).IsHermitian := by
    rw [Matrix.IsHermitian, Matrix.conjTranspose_eq_transpose_of_trivial, Matrix.transpose_sub, hm, Matrix.transpose_smul, Matrix.transpose_one]
  have hpos : (m - μ • (1 : Matrix (Fin (d + 1)) (Fin (d + 1)) ℝ)).PosSemidef := by
    rw [hH.posSemidef_iff_eigenvalues_nonneg]
    intro i
    change 0 ≤ hH.eigenvalues i
    have hv := hH.mulVec_eigenvectorBasis i
    set w : Fin (d + 1) → ℝ := ⇑(hH.eigenvectorBasis i) with hw
    have hw0 : w ≠ 0 := by
      intro h0
      apply hH.eigenvectorBasis.orthonormal.ne_zero i
      ext j
      exact congrFun h0 j
    rw [Matrix.sub_mulVec, Matrix.smul_mulVec, Matrix.one_mulVec] at hv
    have hmw : m *ᵥ w = (hH.eigenvalues i + μ) • w := by rw [add_smul, ← hv]; simp
    set z := p⁻¹ *ᵥ w with hz
    have hpz : p *ᵥ z = w := by rw [hz, Matrix.mulVec_mulVec, Matrix.mul_nonsing_inv _ hd.1, Matrix.one_mulVec]
    have hz0 : z ≠ 0 := by rintro h0; rw [h0, Matrix.mulVec_zero] at hpz; exact hw0 hpz.symm
    have hDz : diagonal values *ᵥ z = (hH.eigenvalues i + μ) • z := by
      have h1 : p *ᵥ (diagonal values *ᵥ z) = p *ᵥ ((hH.eigenvalues i + μ) • z) := by
        rw [Matrix.mulVec_mulVec, ← hd.2.1, ← Matrix.mulVec_mulVec, hpz, hmw, Matrix.mulVec_smul, hpz]
      have h2 := congrArg (fun y => p⁻¹ *ᵥ y) h1
      simpa [Matrix.mulVec_mulVec, Matrix.nonsing_inv_mul _ hd.1, ← Matrix.mul_assoc] using h2
    obtain ⟨j, hj⟩ := Function.ne_iff.1 hz0
    have := congrFun hDz j
    rw [Matrix.mulVec_diagonal, Pi.smul_apply, smul_eq_mul] at this
    have hval : values j = hH.eigenvalues i + μ := mul_right_cancel₀ hj this
    have hle : μ ≤ values j := Finset.inf'_le _ (Finset.mem_univ j)
    linarith
  have := hpos.dotProduct_mulVec_nonneg x
  rw [Matrix.sub_mulVec, Matrix.smul_mulVec, Matrix.one_mulVec, dotProduct_sub, dotProduct_smul, smul_eq_mul] at this
  simp only [star_trivial] at this
  linarith

private theorem eig_low_pos (data : Dataset (d + 1)) {l s : ℝ} (hl : 0 < l) (hs : 0 < s) (values : Fin (d + 1) → ℝ) (p : Matrix (Fin (d + 1)) (Fin (d + 1)) ℝ)
    (hd : Diagonalises (gramian data l s) values p) : 0 < Finset.univ.inf' Finset.univ_nonempty values := by
  rw [Finset.lt_inf'_iff]
  intro i _
  set w : Fin (d + 1) → ℝ := p *ᵥ Pi.single i 1 with hw
  have hw0 : w ≠ 0 := by
    intro h0
    have := congrArg (fun y => p⁻¹ *ᵥ y) h0
    simp only [hw, Matrix.mulVec_mulVec, Matrix.nonsing_inv_mul _ hd.1, Matrix.one_mulVec, Matrix.mulVec_zero] at this
    have := congrFun this i
    simp at this
  have hGw : gramian data l s *ᵥ w = values i • w := by
    rw [hw, Matrix.mulVec_mulVec, hd.2.1, ← Matrix.mulVec_mulVec, Matrix.diagonal_mulVec_single, mul_one, ← Matrix.mulVec_smul]
    congr 1
    ext j
    simp [Pi.single_apply]
  have := gram_lower data (l := l) hs w
  rw [hGw, dotProduct_smul, smul_eq_mul] at this
  have hp := dot_self_pos hw0
  have h2 : l ≤ values i := le_of_mul_le_mul_right this hp
  linarith

private theorem cauchy (x y : Fin d → ℝ) : |x ⬝ᵥ y| ≤ Real.sqrt (x ⬝ᵥ x) * Real.sqrt (y ⬝ᵥ y) := by
  rw [← Real.sqrt_mul (dot_self_nonneg x)]
  apply Real.abs_le_sqrt
  have := Finset.sum_mul_sq_le_sq_mul_sq Finset.univ x y
  simpa [dotProduct, sq] using this

/-- **C92, consistency.**  A dataset whose outputs are exactly `theta · phi`, for a parameter in the box, is consistent — whatever the features, the number of
observations and the (correct) eigenvalue routine. -/
theorem exact_consistent (eig : Eig (d + 1)) (heig : EigCorrect eig) (data : Dataset (d + 1)) (box : Itv (Fin (d + 1) → ℝ)) (theta : Fin (d + 1) → ℝ)
    (hbox : InParamBox theta box) (h : ExactData theta data) (hne : data ≠ []) : isConsistent eig data box = .ok true := by
  obtain ⟨o, ho⟩ : ∃ o, data.getLast? = some o := ⟨data.getLast hne, List.getLast?_eq_some_getLast hne⟩
  unfold isConsistent
  rw [ho]
  dsimp only
  split_ifs with ht
  · rfl
  congr 1
  have hl : (0 : ℝ) < 1 / 100000 := by norm_num
  have hs : (0 : ℝ) < 1 / 10 := by norm_num
  set train := data.dropLast with htrain
  have htr : ExactData theta train := fun q hq => h q (List.dropLast_subset _ hq)
  have hoe : o.2 = theta ⬝ᵥ o.1 := h o (List.mem_of_getLast? ho)
  have hell := ellipsoid_contains train (1 / 100000) (1 / 10) (1 / 10) (paramBound box) hl (by norm_num) hs theta htr fun i => bound_le box hbox i
  unfold isValid
  apply decide_eq_true
  unfold Regression.polytope
  dsimp only [ellipsoid] at hell ⊢
  set G := gramian train (1 / 100000) (1 / 10) with hG
  set e := estimate train (1 / 100000) (1 / 10) with he
  set β := radius train (1 / 100000) (1 / 10) (1 / 10) (paramBound box) with hβ
  have hsym : G.transpose = G := gram_symm _ _ _
  have hdiag := heig G hsym
  set μ := Finset.univ.inf' Finset.univ_nonempty (eig G).1 with hμ
  have hμ0 : 0 < μ := eig_low_pos train hl hs _ _ hdiag
  set c := clipVec e box.1 box.2 with hc
  -- the clipped estimate is at most as far from theta
  have h1 : (theta - c) ⬝ᵥ (theta - c) ≤ (theta - e) ⬝ᵥ (theta - e) := by
    unfold dotProduct
    refine Finset.sum_le_sum fun i _ => ?_
    have := clip_closer (x := e i) (hbox i).1 (hbox i).2
    simpa [hc, clipVec, sq] using this
  have h2 : μ * ((theta - e) ⬝ᵥ (theta - e)) ≤ (theta - e) ⬝ᵥ G *ᵥ (theta - e) := eig_lower G hsym _ _ hdiag _
  have hβ0 : 0 ≤ β := (Real.sqrt_nonneg _).trans hell
  have h3 : (theta - e) ⬝ᵥ G *ᵥ (theta - e) ≤ β ^ 2 := (Real.sqrt_le_left hβ0).1 hell
  have h4 : Real.sqrt ((theta - c) ⬝ᵥ (theta - c)) ≤ β / Real.sqrt μ := by
    rw [le_div_iff₀ (Real.sqrt_pos.2 hμ0), ← Real.sqrt_mul (dot_self_nonneg _)]
    apply Real.sqrt_le_iff.2 ⟨hβ0, ?_⟩
    nlinarith
  have h5 : |o.2 - c ⬝ᵥ o.1| ≤ Real.sqrt ((theta - c) ⬝ᵥ (theta - c)) * Real.sqrt (o.1 ⬝ᵥ o.1) := by
    rw [hoe, ← sub_dotProduct]
    exact cauchy _ _
  have h6 : Real.sqrt (o.1 ⬝ᵥ o.1 / μ) * β = β / Real.sqrt μ * Real.sqrt (o.1 ⬝ᵥ o.1) := by
    rw [Real.sqrt_div (dot_self_nonneg _)]; ring
  have h7 : |o.2 - c ⬝ᵥ o.1| ≤ Real.sqrt (o.1 ⬝ᵥ o.1 / μ) * β := by
    rw [h6]; exact h5.trans (mul_le_mul_of_nonneg_right h4 (Real.sqrt_nonneg _))
  linarith

/-- An empty dataset raises. -/
theorem consistent_empty (eig : Eig (d + 1)) (box : Itv (Fin (d + 1) → ℝ)) : isConsistent eig [] box = .error .indexError := rfl

/-- **C92, the box.**  Whatever the data, all the parameters at the vertices of the confidence polytope are in the box (if the box is not empty). -/
theorem polytope_in_box (eig : Eig (d + 1)) (data : Dataset (d + 1)) (box : Itv (Fin (d + 1) → ℝ)) (hbox : ∀ i, box.1 i ≤ box.2 i) (h : Fin (d + 1) → Bool) :
    InParamBox ((Regression.polytope eig data box).1 + (Regression.polytope eig data box).2.1 h) box := by
  intro i
  have hb := hbox i
  unfold Regression.polytope clipVec
  simp only [Pi.add_apply, Pi.sub_apply]
  have key : ∀ x y lo hi : ℝ, lo ≤ hi → lo ≤ npClip x lo hi + npClip y (lo - npClip x lo hi) (hi - npClip x lo hi) ∧
      npClip x lo hi + npClip y (lo - npClip x lo hi) (hi - npClip x lo hi) ≤ hi := by
    intro x y lo hi hle
    obtain ⟨c1, c2⟩ := npClip_mem (x := y) (a := lo - npClip x lo hi) (b := hi - npClip x lo hi) (by linarith)
    constructor <;> linarith
  exact key _ _ _ _ hb

/-- **C92, predicted dynamics.**  Whatever was recorded, every vertex of the polytope of dynamics of a regression vehicle is the dynamics of some parameters in the
box. -/
theorem estimated_dynamics_in_box {ι : Type} (eig : Eig (d + 1)) (data : Dataset (d + 1)) (box : Itv (Fin (d + 1) → ℝ)) (hbox : ∀ i, box.1 i ≤ box.2 i)
    (s : Matrix ι ι ℝ × (Fin (d + 1) → Matrix ι ι ℝ)) (da : Matrix ι ι ℝ) (hda : da ∈ (polytopeFromEstimation eig data box s).2) :
    ∃ theta, InParamBox theta box ∧ (polytopeFromEstimation eig data box s).1 + da = s.1 + ∑ k, theta k • s.2 k := by
  unfold polytopeFromEstimation at hda ⊢
  dsimp only at hda ⊢
  obtain ⟨h, _, rfl⟩ := List.mem_map.1 hda
  refine ⟨_, polytope_in_box eig data box hbox h, ?_⟩
  rw [add_assoc, ← Finset.sum_add_distrib]
  congr 1
  exact Finset.sum_congr rfl fun k _ => by rw [Pi.add_apply, add_smul]

/-- **C92, no data.**  A regression vehicle that has recorded nothing cannot build its prediction: it raises instead of using the box. -/
theorem regression_needs_data (eig3 : Eig 3) (eig2 : Eig 2) (boxA : Itv (Fin 3 → ℝ)) (boxB : Itv (Fin 2 → ℝ))
    (s : Matrix (Fin 4) (Fin 4) ℝ × (Fin 3 → Matrix (Fin 4) (Fin 4) ℝ)) :
    longitudinalPolytope eig3 none boxA s = .error .typeError ∧ longitudinalPolytope eig3 (some {}) boxA s = .error .keyError ∧
      lateralPolytope eig2 none boxB = .error .typeError ∧ lateralPolytope eig2 (some {}) boxB = .error .keyError := ⟨rfl, by simp [longitudinalPolytope], rfl, by simp [lateralPolytope]⟩

/-- With a record of accelerations, the longitudinal prediction only needs that record; likewise for the lateral one. -/
theorem regression_with_data (eig3 : Eig 3) (eig2 : Eig 2) (boxA : Itv (Fin 3 → ℝ)) (boxB : Itv (Fin 2 → ℝ))
    (s : Matrix (Fin 4) (Fin 4) ℝ × (Fin 3 → Matrix (Fin 4) (Fin 4) ℝ)) (data : Records) :
    (data.longitudinal ≠ [] → longitudinalPolytope eig3 (some data) boxA s = .ok (polytopeFromEstimation eig3 data.longitudinal boxA s)) ∧
    (data.longitudinal = [] → longitudinalPolytope eig3 (some data) boxA s = .error .keyError) ∧
    (data.lateral ≠ [] → lateralPolytope eig2 (some data) boxB = .ok (polytopeFromEstimation eig2 data.lateral boxB lateralStructure)) ∧
    (data.lateral = [] → lateralPolytope eig2 (some data) boxB = .error .keyError) :=
  ⟨fun h => if_neg h, fun h => if_pos h, fun h => if_neg h, fun h => if_pos h⟩

/-! ## A linear vehicle never contradicts its own records -/

private theorem recorded_exact (G : Globals) (a : Fin 3 → ℝ) (b : Fin 2 → ℝ) : ∀ (past : List (Road × Vehicle)) (data : Records),
    Recorded G past data → (∀ q ∈ past, accVector q.2 = a ∧ steerVector q.2 = b) →
    ExactData a data.longitudinal ∧ ExactData b data.lateral ∧ data.longitudinal.length = past.length ∧ data.lateral.length = past.length := by
  intro past
  induction past with
  | nil => rintro data rfl _; exact ⟨fun o ho => by simp at ho, fun o ho => by simp at ho, rfl, rfl⟩
  | cons q past ih =>
    rintro data ⟨before, hb, hc⟩ hq
    obtain ⟨h1, h2, h3, h4⟩ := ih before hb fun q' hq' => hq q' (List.mem_cons_of_mem _ hq')
    obtain ⟨ha, hs⟩ := hq q (List.mem_cons_self ..)
    unfold collectData addFeatures at hc
    cases hn : q.1.neighbourVehicles q.2 with
    | error e => rw [hn] at hc; simp [bind, Except.bind] at hc
    | ok fr =>
      cases hl : q.1.network.getLane q.2.targetLane with
      | error e => rw [hn, show q.1.network.getLaneStep q.2.targetLane.toStep = _ from hl] at hc; simp [bind, Except.bind] at hc
      | ok lane =>
        rw [hn, show q.1.network.getLaneStep q.2.targetLane.toStep = _ from hl, hl] at hc
        simp only [bind, Except.bind, pure, Except.pure, Except.ok.injEq] at hc
        subst hc
        refine ⟨?_, ?_, by simp [h3], by simp [h4]⟩
        · intro o ho
          rcases List.mem_append.1 ho with ho | ho
          · exact h1 o ho
          · rw [List.mem_singleton.1 ho, ← ha]
            simp [accVector, dotProduct, Fin.sum_univ_succ]
            ring
        · intro o ho
          rcases List.mem_append.1 ho with ho | ho
          · exact h2 o ho
          · rw [List.mem_singleton.1 ho, ← hs]
            simp [steerVector, dotProduct, Fin.sum_univ_succ]

/-- **C92, recording.**  Whatever the traffic and the manoeuvres of a linear vehicle, if its parameters never changed and are in the boxes, then the data it has
recorded after any positive number of actions is consistent with these boxes, for the acceleration and for the steering. -/
theorem recorded_consistent (G : Globals) (eig3 : Eig 3) (eig2 : Eig 2) (h3 : EigCorrect eig3) (h2 : EigCorrect eig2) (past : List (Road × Vehicle))
    (data : Records) (hrec : Recorded G past data) (hne : past ≠ []) (a : Fin 3 → ℝ) (b : Fin 2 → ℝ)
    (hp : ∀ q ∈ past, accVector q.2 = a ∧ steerVector q.2 = b) (boxA : Itv (Fin 3 → ℝ)) (boxB : Itv (Fin 2 → ℝ)) (hA : InParamBox a boxA)
    (hB : InParamBox b boxB) : isConsistent eig3 data.longitudinal boxA = .ok true ∧ isConsistent eig2 data.lateral boxB = .ok true := by
  obtain ⟨e1, e2, l1, l2⟩ := recorded_exact G a b past data hrec hp
  have hpos : 0 < past.length := List.length_pos_of_ne_nil hne
  exact ⟨exact_consistent eig3 h3 _ boxA a hA e1 (List.ne_nil_of_length_pos (by omega)),
    exact_consistent eig2 h2 _ boxB b hB e2 (List.ne_nil_of_length_pos (by omega))⟩

/-! ## The polytope need not contain the parameter -/

/-- There is a correct eigenvalue routine that answers, on a given symmetric matrix, any given correct decomposition. -/
private theorem eig_exists {n : ℕ} (m : Matrix (Fin n) (Fin n) ℝ) (values : Fin n → ℝ) (p : Matrix (Fin n) (Fin n) ℝ) (h : Diagonalises m values p) :
    ∃ eig : Eig n, EigCorrect eig ∧ eig m = (values, p) := by
  have hex : ∀ k : Matrix (Fin n) (Fin n) ℝ, k.transpose = k → ∃ vp : (Fin n → ℝ) × Matrix (Fin n) (Fin n) ℝ, Diagonalises k vp.1 vp.2 := by
    intro k hk
    have hH : k.IsHermitian := by rw [Matrix.IsHermitian, Matrix.conjTranspose_eq_transpose_of_trivial, hk]
    let q : Matrix (Fin n) (Fin n) ℝ := Matrix.of fun i j => hH.eigenvectorBasis j i
    have hqq : q.transpose * q = 1 := by
      ext i j
      have := orthonormal_iff_ite.1 hH.eigenvectorBasis.orthonormal i j
      rw [Matrix.mul_apply, Matrix.one_apply, ← this, PiLp.inner_apply]
      simp [q, mul_comm]
    refine ⟨(hH.eigenvalues, q), ?_, ?_, ?_⟩
    · rw [isUnit_iff_ne_zero]
      intro h0
      have := congrArg Matrix.det hqq
      rw [Matrix.det_mul, h0, mul_zero, Matrix.det_one] at this
      exact zero_ne_one this
    · ext i j
      have hv := congrFun (hH.mulVec_eigenvectorBasis j) i
      rw [Matrix.mul_diagonal]
      simp only [Pi.smul_apply, smul_eq_mul] at hv
      rw [mul_comm]
      exact hv
    · intro j
      have := congrFun (congrFun hqq j) j
      rw [Matrix.mul_apply, Matrix.one_apply_eq] at this
      rw [← this]
      exact Finset.sum_congr rfl fun i _ => by simp [sq]
  refine ⟨fun k => if k = m then (values, p) else if hk : k.transpose = k then Classical.choose (hex k hk) else (0, 0), ?_, by simp⟩
  intro k hk
  by_cases hm : k = m
  · simp only [hm, if_true]; exact h
  · simp only [hm, if_false, hk, dif_pos]
    exact Classical.choose_spec (hex k hk)

private theorem npClip_high {x lo hi : ℝ} (h : hi ≤ x) (hle : lo ≤ hi) : npClip x lo hi = hi := by
  unfold npClip; rw [max_eq_left (hle.trans h), min_eq_right h]

private theorem npClip_low {x lo hi : ℝ} (h : x ≤ lo) (hle : lo ≤ hi) : npClip x lo hi = lo := by
  unfold npClip; rw [max_eq_right h, min_eq_left hle]

/-- **C92, limit.**  The confidence polytope need not contain the parameter: one exact observation, of a parameter in the box, is enough for a correct eigenvalue
routine to give a polytope (the convex hull of its vertices) that misses it. -/
theorem polytope_misses_truth : ∃ (eig : Eig 2) (data : Dataset 2) (box : Itv (Fin 2 → ℝ)) (theta : Fin 2 → ℝ),
    EigCorrect eig ∧ data ≠ [] ∧ InParamBox theta box ∧ ExactData theta data ∧
      theta ∉ convexHull ℝ (Set.range fun h => (Regression.polytope eig data box).1 + (Regression.polytope eig data box).2.1 h) := by
  set l : ℝ := 1 / 100000 with hl
  have hl0 : 0 < l := by norm_num [hl]
  set s : ℝ := 1 / Real.sqrt 2 with hs
  have hss : s * s = 1 / 2 := by rw [hs, div_mul_div_comm, Real.mul_self_sqrt (by norm_num)]; norm_num
  have hs0 : 0 < s := by positivity
  set data : Dataset 2 := [(![1, 1], 0)] with hdata
  set box : Itv (Fin 2 → ℝ) := (![-1, -1], ![1, 1]) with hbox
  set p : Matrix (Fin 2) (Fin 2) ℝ := !![s, -s; s, s] with hp
  have hG : gramian data l (1 / 10) = !![10 + l, 10; 10, 10 + l] := by
    unfold gramian
    rw [hdata]
    ext i j
    fin_cases i <;> fin_cases j <;> simp [vecMulVec]
  have hinv : p⁻¹ = !![s, s; -s, s] := by
    apply Matrix.inv_eq_right_inv
    rw [hp]
    ext i j
    fin_cases i <;> fin_cases j <;> simp [Matrix.mul_apply, Fin.sum_univ_succ] <;> nlinarith
  have hdiag : Diagonalises (gramian data l (1 / 10)) ![20 + l, l] p := by
    rw [hG]
    refine ⟨?_, ?_, ?_⟩
    · rw [isUnit_iff_ne_zero, hp, Matrix.det_fin_two_of]
      intro h0
      nlinarith
    · rw [hp]
      ext i j
      fin_cases i <;> fin_cases j <;> simp [Matrix.mul_apply, Fin.sum_univ_succ, Matrix.diagonal] <;> ring
    · intro j
      rw [hp]
      fin_cases j <;> simp [Fin.sum_univ_succ] <;> nlinarith
  obtain ⟨eig, heig, hval⟩ := eig_exists _ _ _ hdiag
  refine ⟨eig, data, box, ![1, -1], heig, by simp [hdata], ?_, ?_, ?_⟩
  · intro i; fin_cases i <;> simp [hbox]
  · intro o ho
    rw [hdata, List.mem_singleton] at ho
    rw [ho]
    simp [dotProduct, Fin.sum_univ_succ]
  have hest : estimate data l (1 / 10) = 0 := by
    unfold estimate
    simp [hdata]
  have hbound : paramBound box = 1 := by
    unfold paramBound
    apply le_antisymm
    · apply Finset.sup'_le
      intro i _
      fin_cases i <;> simp [hbox]
    · refine le_trans ?_ (Finset.le_sup' _ (Finset.mem_univ (0 : Fin 2)))
      simp [hbox]
  set β := radius data l (1 / 10) (1 / 10) 1 with hβ
  have hβ1 : 1 ≤ β := by
    rcases radius_lower data (l := l) (δ := 1 / 10) (s := 1 / 10) (b := 1) hl0 (by norm_num) with h | h
    · refine le_trans ?_ h
      have h1 : 1 ≤ Real.log (1 / (1 / 10)) := by
        rw [Real.le_log_iff_exp_le (by norm_num)]
        have := Real.exp_one_lt_d9
        norm_num at *
        linarith
      have h2 : 1 ≤ Real.sqrt (2 * Real.log (1 / (1 / 10))) := Real.one_le_sqrt.2 (by linarith)
      exact le_add_of_le_of_nonneg h2 (by positivity)
    · norm_num at h
  set a := Real.sqrt (1 / (20 + l)) with ha
  set b := Real.sqrt (1 / l) with hb
  have ha1 : a ≤ 1 := by
    apply Real.sqrt_le_one.2
    rw [div_le_one (by positivity)]
    linarith
  have ha0 : 0 ≤ a := Real.sqrt_nonneg _
  have hb1 : 300 ≤ b := by
    rw [hb]
    apply Real.le_sqrt_of_sq_le
    norm_num [hl]
  have hs1 : 1 / 2 ≤ s := by nlinarith
  have hk : 1 / 2 ≤ Real.sqrt β * s := by
    have : 1 ≤ Real.sqrt β := Real.one_le_sqrt.2 hβ1
    nlinarith
  have hcenter : (Regression.polytope eig data box).1 = 0 := by
    change clipVec (estimate data l (1 / 10)) box.1 box.2 = 0
    rw [hest]
    ext i
    fin_cases i <;> simp [clipVec, hbox, npClip]
  have hvert : ∀ h, (Regression.polytope eig data box).2.1 h = fun _ => sign (h 1) := by
    intro h
    have e1 : (Regression.polytope eig data box).2.1 h =
        clipVec ((Real.sqrt (radius data l (1 / 10) (1 / 10) (paramBound box)) • ((eig (gramian data l (1 / 10))).2⁻¹ *
          diagonal fun i => Real.sqrt (1 / (eig (gramian data l (1 / 10))).1 i))) *ᵥ fun i => sign (h i))
          (box.1 - (Regression.polytope eig data box).1) (box.2 - (Regression.polytope eig data box).1) := rfl
    rw [e1, hcenter, hval, hbound, ← hβ]
    dsimp only
    rw [hinv]
    have hx : ∀ i, ((Real.sqrt β • (!![s, s; -s, s] * diagonal fun i => Real.sqrt (1 / (![20 + l, l] : Fin 2 → ℝ) i))) *ᵥ fun i => sign (h i)) i =
        Real.sqrt β * s * ((if i = 0 then 1 else -1) * a * sign (h 0) + b * sign (h 1)) := by
      have hD : (diagonal fun i => Real.sqrt (1 / (![20 + l, l] : Fin 2 → ℝ) i)) = !![a, 0; 0, b] := by
        ext i j
        fin_cases i <;> fin_cases j <;> simp [ha, hb]
      have hM : !![s, s; -s, s] * !![a, 0; 0, b] = !![s * a, s * b; -s * a, s * b] := by
        ext i j
        fin_cases i <;> fin_cases j <;> simp [Matrix.mul_apply, Fin.sum_univ_succ]
      intro i
      rw [hD, hM]
      fin_cases i <;> simp [Matrix.mulVec, dotProduct, Fin.sum_univ_succ] <;> ring
    ext i
    unfold clipVec
    rw [hx]
    have hlo : (box.1 - 0) i = -1 := by fin_cases i <;> simp [hbox]
    have hhi : (box.2 - 0) i = 1 := by fin_cases i <;> simp [hbox]
    rw [hlo, hhi]
    have habs : |(if i = 0 then 1 else -1) * a * sign (h 0)| ≤ 1 := by
      rw [abs_mul, abs_mul, abs_of_nonneg ha0]
      have h1 : |(if i = 0 then (1 : ℝ) else -1)| = 1 := by split_ifs <;> simp
      have h2 : |sign (h 0)| = 1 := by unfold sign; split_ifs <;> simp
      rw [h1, h2]; linarith
    obtain ⟨g1, g2⟩ := abs_le.1 habs
    set t := (if i = 0 then (1 : ℝ) else -1) * a * sign (h 0) with ht
    cases h1 : h 1 with
    | true =>
      simp only [sign, if_true]
      exact npClip_high (by nlinarith) (by norm_num)
    | false =>
      simp only [sign, Bool.false_eq_true, if_false]
      exact npClip_low (by nlinarith) (by norm_num)
  intro hmem
  have hsub : (Set.range fun h => (Regression.polytope eig data box).1 + (Regression.polytope eig data box).2.1 h) ⊆ {x : Fin 2 → ℝ | x 0 = x 1} := by
    rintro _ ⟨h, rfl⟩
    simp [hcenter, hvert]
  have hconv : Convex ℝ {x : Fin 2 → ℝ | x 0 = x 1} := by
    intro x hx y hy u v _ _ _
    simp only [Set.mem_setOf_eq] at hx hy ⊢
    simp [hx, hy]
  have := convexHull_min hsub hconv hmem
  simp only [Set.mem_setOf_eq] at this
  norm_num at this

/-- A correct eigenvalue routine exists, in any dimension. -/
theorem eig_correct_exists (n : ℕ) : ∃ eig : Eig n, EigCorrect eig := by
  have h : Diagonalises (1 : Matrix (Fin n) (Fin n) ℝ) 1 1 := by
    refine ⟨by simp, by simp, fun j => ?_⟩
    simp [Matrix.one_apply]
  obtain ⟨eig, h, _⟩ := eig_exists _ _ _ h
  exact ⟨eig, h⟩

/-- Two observations of the parameter (1, 2). -/
example : InParamBox (![1, 2] : Fin 2 → ℝ) (![0, 0], ![3, 3]) ∧ ExactData (![1, 2] : Fin 2 → ℝ) [(![1, 1], 3), (![2, 0], 2)] := by
  constructor
  · intro i; fin_cases i <;> simp; norm_num
  · intro o ho
    simp only [List.mem_cons, List.not_mem_nil, or_false] at ho
    rcases ho with rfl | rfl <;> simp [dotProduct, Fin.sum_univ_succ]
    norm_num

/-- A linear vehicle that has collected data twice. -/
example : ∃ past data, past.length = 2 ∧ Recorded ({} : Globals) past data ∧
    ∀ q ∈ past, accVector q.2 = ![3 / 10, 3 / 10, 2] ∧ steerVector q.2 = ![5, 25 / 3] := by
  have key : ∀ (x : ℝ) (before : Records), ∃ data,
      collectData ({} : Globals) { network := Sample.net, vehicles := [Sample.car 0 .linear x 0 20], rng := ⟨fun _ => 0, fun _ => 0, 0, 0⟩ } (Sample.car 0 .linear x 0 20) before = .ok data := by
    intro x before
    unfold collectData addFeatures Road.neighbourVehicles
    have hl : Sample.net.getLane (Sample.car 0 .linear x 0 20).targetLane = .ok (Sample.lane 0) := Graph.getLane_of_hasLane Sample.net_py (by rfl) Sample.net_has0
    have hl' : Sample.net.getLane (Sample.car 0 .linear x 0 20).laneIndex = .ok (Sample.lane 0) := Graph.getLane_of_hasLane Sample.net_py (by rfl) Sample.net_has0
    have hl2 : Sample.net.getLaneStep (Sample.car 0 .linear x 0 20).targetLane.toStep = .ok (Sample.lane 0) := hl
    simp only [Option.getD_none, hl, hl2, hl', bind, Except.bind, pure, Except.pure]
    exact ⟨_, rfl⟩
  obtain ⟨d1, h1⟩ := key 10 {}
  obtain ⟨d2, h2⟩ := key 11 d1
  refine ⟨[(_, _), (_, _)], d2, rfl, ⟨d1, ⟨{}, rfl, h1⟩, h2⟩, ?_⟩
  intro q hq
  simp only [List.mem_cons, List.not_mem_nil, or_false] at hq
  rcases hq with rfl | rfl <;> exact ⟨rfl, rfl⟩

end HighwayEnv.Props
