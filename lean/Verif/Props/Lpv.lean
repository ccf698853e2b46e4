import Verif.Props.Interval
import Mathlib.Analysis.Convex.Combination
import Mathlib.LinearAlgebra.Matrix.SemiringInverse

/-!
# C64, C65: matrix polytopes and the linear interval predictor
-/

noncomputable section
open Classical Matrix
namespace HighwayEnv.Props
open HighwayEnv Spec

/-! ## C64 -/

/-- **C64.**  For a matrix that depends affinely on its parameters, the matrices of a parameter box are exactly the nominal matrix plus the
convex combinations of the deviations. -/
theorem polytope_exact {k : ℕ} {M : Type*} [AddCommGroup M] [Module ℝ M] (c : M) (g : Fin k → M) (params : Fin k → Itv ℝ)
    (hp : ∀ i, (params i).1 ≤ (params i).2) :
    {m | ∃ θ : Fin k → ℝ, (∀ i, InItv (θ i) (params i)) ∧ m = c + ∑ i, θ i • g i} =
    {m | ∃ e ∈ convexHull ℝ (↑(polytope (fun θ => c + ∑ i, θ i • g i) params).2 : Set M),
      m = (polytope (fun θ => c + ∑ i, θ i • g i) params).1 + e} := by
  set mean : Fin k → ℝ := fun i => ((params i).1 + (params i).2) / 2 with hmean
  -- the linear map, and the deviation from the mean
  let L : (Fin k → ℝ) →ₗ[ℝ] M :=
    { toFun := fun θ => ∑ i, θ i • g i
      map_add' := fun x y => by simp only [Pi.add_apply, add_smul, Finset.sum_add_distrib]
      map_smul' := fun r x => by simp only [Pi.smul_apply, smul_eq_mul, mul_smul, Finset.smul_sum, RingHom.id_apply] }
  let F : (Fin k → ℝ) →ᵃ[ℝ] M := L.toAffineMap - AffineMap.const ℝ (Fin k → ℝ) (L mean)
  have hF : ∀ θ, F θ = L θ - L mean := fun θ => rfl
  have hL : ∀ θ : Fin k → ℝ, L θ = ∑ i, θ i • g i := fun _ => rfl
  have box : {θ : Fin k → ℝ | ∀ i, InItv (θ i) (params i)} =
      convexHull ℝ (Set.univ.pi fun i => ({(params i).1, (params i).2} : Set ℝ)) := by
    rw [convexHull_pi]
    ext θ
    simp only [convexHull_pair, Set.mem_pi, Set.mem_univ, forall_const, Set.mem_ofPred_eq]
    refine forall_congr' fun i => ?_
    rw [segment_eq_Icc (hp i)]
    rfl
  have verts : (↑(polytope (fun θ => c + ∑ i, θ i • g i) params).2 : Set M) =
      F '' (Set.univ.pi fun i => ({(params i).1, (params i).2} : Set ℝ)) := by
    ext m
    simp only [polytope, Finset.coe_image, Finset.coe_univ, Set.image_univ, Set.mem_range, Set.mem_image, Set.mem_pi, Set.mem_univ, forall_const,
      Set.mem_insert_iff, Set.mem_singleton_iff]
    constructor
    · rintro ⟨v, rfl⟩
      refine ⟨fun i => if v i = true then (params i).2 else (params i).1, fun i => ?_, ?_⟩
      · dsimp only; split <;> simp
      · rw [hF, hL, hL, hmean]; abel
    · rintro ⟨θ, hθ, rfl⟩
      refine ⟨fun i => decide (θ i = (params i).2), ?_⟩
      have : (fun i => if decide (θ i = (params i).2) = true then (params i).2 else (params i).1) = θ := by
        funext i
        by_cases h : θ i = (params i).2
        · rw [if_pos (decide_eq_true h), h]
        · rw [if_neg (by simpa using h)]; exact ((hθ i).resolve_right h).symm
      have e2 : ∑ x, (if decide (θ x = (params x).2) = true then (params x).2 else (params x).1) • g x = ∑ x, θ x • g x :=
        Finset.sum_congr rfl fun x _ => by rw [congrFun this x]
      dsimp only
      rw [e2, hF, hL, hL, hmean]; abel
  rw [verts, ← AffineMap.image_convexHull, ← box]
  ext m
  simp only [Set.mem_ofPred_eq, Set.mem_image, polytope]
  constructor
  · rintro ⟨θ, hθ, rfl⟩
    refine ⟨F θ, ⟨θ, hθ, rfl⟩, ?_⟩
    rw [hF, hL, hL, hmean]; abel
  · rintro ⟨e, ⟨θ, hθ, rfl⟩, rfl⟩
    refine ⟨θ, hθ, ?_⟩
    rw [hF, hL, hL, hmean]; abel

/-- The form the predictor uses: every matrix of the box is the nominal one plus deviations with weights between 0 and 1. -/
theorem polytope_inPolytope {k : ℕ} {ι : Type} (c : Matrix ι ι ℝ) (g : Fin k → Matrix ι ι ℝ) (params : Fin k → Itv ℝ)
    (θ : Fin k → ℝ) (hθ : ∀ i, InItv (θ i) (params i)) (da : List (Matrix ι ι ℝ)) (hnd : da.Nodup)
    (hda : ∀ m, m ∈ da ↔ m ∈ (polytope (fun θ => c + ∑ i, θ i • g i) params).2) :
    InPolytope (polytope (fun θ => c + ∑ i, θ i • g i) params).1 da (c + ∑ i, θ i • g i) := by
  have hm : c + ∑ i, θ i • g i ∈ {m | ∃ θ : Fin k → ℝ, (∀ i, InItv (θ i) (params i)) ∧ m = c + ∑ i, θ i • g i} := ⟨θ, hθ, rfl⟩
  rw [polytope_exact c g params fun i => (hθ i).1.trans (hθ i).2] at hm
  obtain ⟨e, he, heq⟩ := hm
  rw [Finset.mem_convexHull'] at he
  obtain ⟨w, w0, w1, we⟩ := he
  have hset : (polytope (fun θ => c + ∑ i, θ i • g i) params).2 = da.toFinset := by ext m; simp [hda]
  rw [hset] at w0 w1 we
  refine ⟨da.map w, by simp, ?_, ?_⟩
  · intro x hx
    obtain ⟨m, hm, rfl⟩ := List.mem_map.1 hx
    have hmf := List.mem_toFinset.2 hm
    exact ⟨w0 m hmf, w1 ▸ Finset.single_le_sum w0 hmf⟩
  · rw [heq, ← we, List.sum_toFinset _ hnd]
    congr 2
    clear * - 
    induction da with
    | nil => rfl
    | cons a l ih => simp [ih]

/-! ## C65: one step -/

section
variable {ι κ δ : Type} [DecidableEq ι] [Fintype ι] [Fintype κ] [Fintype δ]

private theorem dev_bound (m : Matrix ι ι ℝ) (x : Itv (ι → ℝ)) (z : ι → ℝ) (hz : InItv z x) (α : ℝ) (h0 : 0 ≤ α) (h1 : α ≤ 1) (i : ι) :
    -((LPV.mp m *ᵥ Itv.n x.1) i) - (LPV.mn m *ᵥ Itv.p x.2) i ≤ ((α • m) *ᵥ z) i ∧
    ((α • m) *ᵥ z) i ≤ (LPV.mp m *ᵥ Itv.p x.2) i + (LPV.mn m *ᵥ Itv.n x.1) i := by
  simp only [mulVec, dotProduct, LPV.mp, LPV.mn, Matrix.map_apply, Itv.p, Itv.n, Matrix.smul_apply, smul_eq_mul, Pi.sup_apply, Pi.neg_apply,
    Pi.zero_apply]
  rw [← Finset.sum_neg_distrib, ← Finset.sum_sub_distrib, ← Finset.sum_add_distrib]
  have key : ∀ j, -(max (m i j) 0 * max (-x.1 j) 0) - max (-m i j) 0 * max (x.2 j) 0 ≤ α * m i j * z j ∧
      α * m i j * z j ≤ max (m i j) 0 * max (x.2 j) 0 + max (-m i j) 0 * max (-x.1 j) 0 := by
    intro j
    have a1 := hz.1 j
    have a2 := hz.2 j
    generalize m i j = c at *
    generalize z j = y at *
    generalize x.1 j = lo at *
    generalize x.2 j = hi at *
    have p2 : 0 ≤ max hi 0 := le_max_right _ _
    have n1 : 0 ≤ max (-lo) 0 := le_max_right _ _
    have y1 : y ≤ max hi 0 := a2.trans (le_max_left _ _)
    have y2 : -y ≤ max (-lo) 0 := (neg_le_neg a1).trans (le_max_left _ _)
    generalize max hi 0 = P at *
    generalize max (-lo) 0 = N at *
    rcases le_total 0 c with hc | hc
    · rw [max_eq_left hc, max_eq_right (by linarith)]
      have q1 : c * y ≤ c * P := mul_le_mul_of_nonneg_left y1 hc
      have q2 : c * -y ≤ c * N := mul_le_mul_of_nonneg_left y2 hc
      have q3 : 0 ≤ c * P := mul_nonneg hc p2
      have q4 : 0 ≤ c * N := mul_nonneg hc n1
      constructor <;> nlinarith
    · rw [max_eq_right hc, max_eq_left (by linarith)]
      have q1 : -c * y ≤ -c * P := mul_le_mul_of_nonneg_left y1 (by linarith)
      have q2 : -c * -y ≤ -c * N := mul_le_mul_of_nonneg_left y2 (by linarith)
      have q3 : 0 ≤ -c * P := mul_nonneg (by linarith) p2
      have q4 : 0 ≤ -c * N := mul_nonneg (by linarith) n1
      constructor <;> nlinarith
  exact ⟨Finset.sum_le_sum fun j _ => (key j).1, Finset.sum_le_sum fun j _ => (key j).2⟩

private theorem devs_bound (da : List (Matrix ι ι ℝ)) (x : Itv (ι → ℝ)) (z : ι → ℝ) (hz : InItv z x) (α : List ℝ) (hl : α.length = da.length)
    (hα : ∀ c ∈ α, 0 ≤ c ∧ c ≤ 1) (i : ι) :
    -(((da.map LPV.mp).sum *ᵥ Itv.n x.1) i) - ((da.map LPV.mn).sum *ᵥ Itv.p x.2) i ≤ ((List.zipWith (fun c m => c • m) α da).sum *ᵥ z) i ∧
    ((List.zipWith (fun c m => c • m) α da).sum *ᵥ z) i ≤ ((da.map LPV.mp).sum *ᵥ Itv.p x.2) i + ((da.map LPV.mn).sum *ᵥ Itv.n x.1) i := by
  induction da generalizing α with
  | nil => simp
  | cons m l ih =>
    cases α with
    | nil => simp at hl
    | cons c α =>
      have h1 := dev_bound m x z hz c (hα c (by simp)).1 (hα c (by simp)).2 i
      have h2 := ih α (by simpa using hl) fun c hc => hα c (by simp [hc])
      simp only [List.map_cons, List.sum_cons, List.zipWith_cons_cons, add_mulVec, Pi.add_apply]
      constructor <;> linarith [h1.1, h1.2, h2.1, h2.2]

private theorem disturbance_bound (d : Matrix ι δ ℝ) (w : δ → ℝ) (o : Itv (δ → ℝ)) (hw : InItv w o) (i : ι) :
    (LPV.mp d *ᵥ o.1) i - (LPV.mn d *ᵥ o.2) i ≤ (d *ᵥ w) i ∧ (d *ᵥ w) i ≤ (LPV.mp d *ᵥ o.2) i - (LPV.mn d *ᵥ o.1) i := by
  simp only [mulVec, dotProduct, LPV.mp, LPV.mn, Matrix.map_apply]
  rw [← Finset.sum_sub_distrib, ← Finset.sum_sub_distrib]
  have key : ∀ j, max (d i j) 0 * o.1 j - max (-d i j) 0 * o.2 j ≤ d i j * w j ∧ d i j * w j ≤ max (d i j) 0 * o.2 j - max (-d i j) 0 * o.1 j := by
    intro j
    have a1 := hw.1 j
    have a2 := hw.2 j
    rcases le_total 0 (d i j) with hc | hc
    · rw [max_eq_left hc, max_eq_right (by linarith)]
      constructor <;> nlinarith
    · rw [max_eq_right hc, max_eq_left (by linarith)]
      constructor <;> nlinarith
  exact ⟨Finset.sum_le_sum fun j _ => (key j).1, Finset.sum_le_sum fun j _ => (key j).2⟩

private theorem nominal_mono (a : Matrix ι ι ℝ) (ha : Metzler a) (dt : ℝ) (hdt : 0 ≤ dt) (hst : ∀ i, 0 ≤ 1 + dt * a i i) (x y : ι → ℝ) (h : x ≤ y) (i : ι) :
    x i + dt * (a *ᵥ x) i ≤ y i + dt * (a *ᵥ y) i := by
  have e : ∀ z : ι → ℝ, z i + dt * (a *ᵥ z) i = ∑ j, ((if i = j then 1 else 0) + dt * a i j) * z j := by
    intro z
    simp only [mulVec, dotProduct, add_mul, Finset.sum_add_distrib, Finset.mul_sum, ite_mul, one_mul, zero_mul, Finset.sum_ite_eq, Finset.mem_univ,
      if_true, mul_assoc]
  rw [e, e]
  refine Finset.sum_le_sum fun j _ => mul_le_mul_of_nonneg_left (h j) ?_
  by_cases hij : i = j
  · subst hij; simpa using hst i
  · rw [if_neg hij, zero_add]; exact mul_nonneg hdt (ha i j hij)

/-- **C65, one step of the interval predictor.**  If the nominal matrix has non-negative off-diagonal entries and the time step does not
overshoot its diagonal, the state after one step of the uncertain system lies in the stepped interval, for every matrix of the polytope and
every admissible disturbance. -/
theorem predictor_encloses (s : LPV ι κ δ) (hm : Metzler s.a0) (dt : ℝ) (hdt : 0 ≤ dt) (hst : ∀ i, 0 ≤ 1 + dt * s.a0 i i) (x : Itv (ι → ℝ))
    (z : ι → ℝ) (hz : InItv z x) (a : Matrix ι ι ℝ) (ha : InPolytope s.a0 s.da a) (w : δ → ℝ) (hw : InItv w s.omega) :
    InItv (linearStep a s.b s.d 0 s.u w dt z) (s.predictor x dt) := by
  obtain ⟨α, hl, hα, rfl⟩ := ha
  have d1 := fun i => devs_bound s.da x z hz α hl hα i
  have d2 := fun i => disturbance_bound s.d w s.omega hw i
  have n1 := fun i => nominal_mono s.a0 hm dt hdt hst x.1 z hz.1 i
  have n2 := fun i => nominal_mono s.a0 hm dt hdt hst z x.2 hz.2 i
  constructor
  · intro i
    simp only [linearStep, LPV.predictor, sub_zero, add_mulVec, Pi.add_apply, Pi.sub_apply, Pi.smul_apply, smul_eq_mul]
    have := mul_le_mul_of_nonneg_left (add_le_add (d1 i).1 (d2 i).1) hdt
    linarith [n1 i]
  · intro i
    simp only [linearStep, LPV.predictor, sub_zero, add_mulVec, Pi.add_apply, Pi.sub_apply, Pi.smul_apply, smul_eq_mul]
    have := mul_le_mul_of_nonneg_left (add_le_add (d1 i).2 (d2 i).2) hdt
    linarith [n2 i]

private theorem sum_le_sum_zip (da : List (Matrix ι ι ℝ)) (α : List ℝ) (hl : α.length = da.length) (hα : ∀ c ∈ α, 0 ≤ c ∧ c ≤ 1) (i j : ι) :
    ((da.map fun m => Itv.product (β := ι → ι → ℝ) (fun (c : ℝ) m => c • m) ((0 : ℝ), (1 : ℝ)) (m, m)).map Prod.fst).sum i j ≤
      (List.zipWith (fun c m => c • m) α da).sum i j ∧
    (List.zipWith (fun c m => c • m) α da).sum i j ≤
      ((da.map fun m => Itv.product (β := ι → ι → ℝ) (fun (c : ℝ) m => c • m) ((0 : ℝ), (1 : ℝ)) (m, m)).map Prod.snd).sum i j := by
  induction da generalizing α with
  | nil => cases α <;> exact ⟨le_rfl, le_rfl⟩
  | cons m l ih =>
    cases α with
    | nil => simp at hl
    | cons c α =>
      have h1 := product_encloses.2.2.2 ι ι (0, 1) (m, m) c m (hα c (by simp)) ⟨le_rfl, le_rfl⟩
      have h2 := ih α (by simpa using hl) fun c hc => hα c (by simp [hc])
      simp only [List.map_cons, List.sum_cons, List.zipWith_cons_cons, Matrix.add_apply, Pi.add_apply]
      exact ⟨add_le_add (h1.1 i j) h2.1, add_le_add (h1.2 i j) h2.2⟩

/-- **C65, one step of the naive predictor.**  No condition on the matrix or the time step is needed. -/
theorem naive_encloses (s : LPV ι κ δ) (dt : ℝ) (hdt : 0 ≤ dt) (x : Itv (ι → ℝ))
    (z : ι → ℝ) (hz : InItv z x) (a : Matrix ι ι ℝ) (ha : InPolytope s.a0 s.da a) (w : δ → ℝ) (hw : InItv w s.omega) :
    InItv (linearStep a s.b s.d 0 s.u w dt z) (s.naive x dt) := by
  obtain ⟨α, hl, hα, rfl⟩ := ha
  have hs := sum_le_sum_zip s.da α hl hα
  have hA := product_encloses.2.2.1 ι ι (_, _) x (s.a0 + (List.zipWith (fun c m => c • m) α s.da).sum) z
    ⟨fun i j => add_le_add le_rfl (hs i j).1, fun i j => add_le_add le_rfl (hs i j).2⟩ hz
  have hD := product_encloses.2.2.1 ι δ (s.d, s.d) s.omega s.d w ⟨le_rfl, le_rfl⟩ hw
  constructor
  · refine add_le_add hz.1 (smul_le_smul_of_nonneg_left ?_ hdt)
    rw [sub_zero]
    exact add_le_add (add_le_add hA.1 hD.1) le_rfl
  · refine add_le_add hz.2 (smul_le_smul_of_nonneg_left ?_ hdt)
    rw [sub_zero]
    exact add_le_add (add_le_add hA.2 hD.2) le_rfl

/-! ## C65: the whole prediction -/

private theorem step_fixed {s s' : LPV ι κ δ} {dt : ℝ} (h : s.step dt = .ok s') :
    s' = { s with xit := s'.xit, xt := s'.xt } ∧ s'.xit = if isMetzler s.a0 then s.predictor s.xit dt else s.naive s.xit dt := by
  unfold LPV.step at h
  split at h
  · cases h
  · have := Except.ok.inj h
    subst this
    exact ⟨rfl, rfl⟩

private theorem frame_polytope (t ti : Matrix ι ι ℝ) (a0 : Matrix ι ι ℝ) (da : List (Matrix ι ι ℝ)) (a : Matrix ι ι ℝ) (h : InPolytope a0 da a) :
    InPolytope (ti * a0 * t) (da.map fun m => ti * m * t) (ti * a * t) := by
  obtain ⟨α, hl, hα, rfl⟩ := h
  refine ⟨α, by simpa using hl, hα, ?_⟩
  rw [mul_add, add_mul]
  congr 1
  clear hα
  induction da generalizing α with
  | nil => cases α <;> simp
  | cons m l ih =>
    cases α with
    | nil => simp at hl
    | cons c α =>
      simp only [List.zipWith_cons_cons, List.sum_cons, List.map_cons, mul_add, add_mul]
      rw [ih α (by simpa using hl)]
      simp [mul_smul_comm, smul_mul_assoc]

/-- The general statement: whatever frame the constructor picks, the interval converted back contains every evolution whose disturbance
enters through a matrix `e` that the frame maps to `d`. -/
private theorem lpv_general (s : ℕ → LPV ι κ δ) (dt : ℝ) (hdt : 0 ≤ dt) (hs : ∀ t, (s t).step dt = .ok (s (t + 1)))
    (hm : isMetzler (s 0).a0 = true → Metzler (s 0).a0 ∧ ∀ i, 0 ≤ 1 + dt * (s 0).a0 i i)
    (z : ℕ → ι → ℝ) (hz0 : InItv (z 0) (s 0).xit) (hz : Evolution (s 0).a0 (s 0).da (s 0).b (s 0).d (s 0).omega (s 0).u 0 dt z) (t : ℕ) :
    s t = { s 0 with xit := (s t).xit, xt := (s t).xt } ∧ InItv (z t) (s t).xit := by
  induction t with
  | zero => exact ⟨rfl, hz0⟩
  | succ t ih =>
    obtain ⟨e, hi⟩ := ih
    obtain ⟨e1, e2⟩ := step_fixed (hs t)
    refine ⟨?_, ?_⟩
    · rw [e1]
      rw [e]
    · obtain ⟨a, w, ha, hw, hx⟩ := hz t
      have ea : (s t).a0 = (s 0).a0 := by rw [e]
      have ed : (s t).da = (s 0).da := by rw [e]
      have eb : (s t).b = (s 0).b := by rw [e]
      have edd : (s t).d = (s 0).d := by rw [e]
      have eo : (s t).omega = (s 0).omega := by rw [e]
      have eu : (s t).u = (s 0).u := by rw [e]
      rw [e2, hx, ← eb, ← edd, ← eu]
      split
      · rename_i h
        rw [ea] at h
        obtain ⟨h1, h2⟩ := hm h
        exact predictor_encloses (s t) (ea ▸ h1) dt hdt (ea ▸ h2) _ _ hi a (by rw [ea, ed]; exact ha) w (eo ▸ hw)
      · exact naive_encloses (s t) dt hdt _ _ hi a (by rw [ea, ed]; exact ha) w (eo ▸ hw)

/-- **C65.**  When the closed-loop matrix has non-negative off-diagonal entries, the interval predicted after any number of steps, converted
back, contains the state of every evolution of the uncertain closed loop that starts in the initial interval. -/
theorem lpv_encloses (eig : Matrix ι ι ℝ → Option (Matrix ι ι ℝ × Matrix ι ι ℝ)) (x0 : ι → ℝ) (a0 : Matrix ι ι ℝ) (da : List (Matrix ι ι ℝ))
    (b : Matrix ι κ ℝ) (d : Matrix ι δ ℝ) (omega : Itv (δ → ℝ)) (u : κ → ℝ) (k : Matrix κ ι ℝ) (c : ι → ℝ) (xi : Itv (ι → ℝ))
    (dt : ℝ) (hdt : 0 ≤ dt) (hm : Metzler (a0 + b * k)) (hst : ∀ i, 0 ≤ 1 + dt * (a0 + b * k) i i)
    (s : ℕ → LPV ι κ δ) (hs0 : s 0 = LPV.init eig x0 a0 da b d omega u k c (some xi)) (hs : ∀ t, (s t).step dt = .ok (s (t + 1)))
    (x : ℕ → ι → ℝ) (hx0 : InItv (x 0) xi) (hx : Evolution (a0 + b * k) da b d omega u c dt x) (t : ℕ) :
    InItv (x t) ((s t).intervalBack (s t).xit) := by
  have hM : isMetzler (a0 + b * k) = true := by
    unfold isMetzler
    refine @decide_eq_true _ (propDecidable _) ?_
    intro i j
    by_cases h : i = j
    · rw [if_pos h]; norm_num
    · rw [if_neg h, sub_zero]; exact le_trans (by norm_num) (hm i j h)
  have hf : LPV.frame eig (a0 + b * k) = some (1, 1) := by unfold LPV.frame; rw [if_pos hM]
  have hi : LPV.init eig x0 a0 da b d omega u k c (some xi) =
      { a0 := a0 + b * k, da := da, b := b, d := d, omega := omega, u := u, k := k, center := c, coordinates := some (1, 1), xt := x0,
        xit := (xi.1 - c, xi.2 - c) } := by
    unfold LPV.init
    simp only [hf, LPV.toFrame, LPV.stateToFrame, one_mul, mul_one, one_mulVec, Option.getD_some]
    congr 1
    swap
    · exact Matrix.one_mul b
    exact (List.map_congr_left fun m _ => by simp [LPV.toFrame]).trans (List.map_id da)
  rw [hi] at hs0
  have key := lpv_general s dt hdt hs (fun _ => by rw [hs0]; exact ⟨hm, hst⟩) (fun t => x t - c)
    (by rw [hs0]; exact ⟨sub_le_sub_right hx0.1 c, sub_le_sub_right hx0.2 c⟩)
    (by
      rw [hs0]
      intro t
      obtain ⟨a, w, ha, hw, e⟩ := hx t
      refine ⟨a, w, ha, hw, ?_⟩
      dsimp only
      rw [e]
      unfold linearStep
      rw [sub_zero]; abel) t
  have hc : (s t).coordinates = some (1, 1) ∧ (s t).center = c := by rw [key.1, hs0]; exact ⟨rfl, rfl⟩
  have hsc : ∀ v : Itv (ι → ℝ), Itv.scaling (α := ι → ι → ℝ) (fun (m : Matrix ι ι ℝ) x => m *ᵥ x) (1 : Matrix ι ι ℝ) v = v := by
    intro v
    have hp : (Itv.p (1 : Matrix ι ι ℝ) : ι → ι → ℝ) = (1 : Matrix ι ι ℝ) := by
      funext i j
      show max ((1 : Matrix ι ι ℝ) i j) 0 = _
      by_cases h : i = j
      · subst h; simp
      · simp [Matrix.one_apply_ne h]
    have hn : (Itv.n (1 : Matrix ι ι ℝ) : ι → ι → ℝ) = (0 : Matrix ι ι ℝ) := by
      funext i j
      show max (-(1 : Matrix ι ι ℝ) i j) 0 = 0
      by_cases h : i = j
      · subst h; simp
      · simp [Matrix.one_apply_ne h]
    unfold Itv.scaling
    rw [hp, hn]
    simp
  unfold LPV.intervalBack
  rw [hc.1, hc.2]
  dsimp only
  rw [hsc]
  exact ⟨by have := key.2.1; intro i; have := this i; simp only [Pi.sub_apply, Pi.add_apply] at *; linarith,
    by have := key.2.2; intro i; have := this i; simp only [Pi.sub_apply, Pi.add_apply] at *; linarith⟩

/-- **C65, rotated frames.**  When the constructor diagonalises the matrix (with the columns of `T`), the prediction started from the known
initial state contains every evolution without disturbance — and, as the disturbance matrix is not rotated, every evolution whose
disturbances enter through `T * d` instead of `d`. -/
theorem lpv_encloses_rotated (eig : Matrix ι ι ℝ → Option (Matrix ι ι ℝ × Matrix ι ι ℝ)) (T Ti : Matrix ι ι ℝ) (x0 : ι → ℝ) (a0 : Matrix ι ι ℝ)
    (da : List (Matrix ι ι ℝ)) (b : Matrix ι κ ℝ) (d : Matrix ι δ ℝ) (omega : Itv (δ → ℝ)) (u : κ → ℝ) (k : Matrix κ ι ℝ) (c : ι → ℝ)
    (dt : ℝ) (hdt : 0 ≤ dt) (hnm : isMetzler (a0 + b * k) = false) (heig : eig (a0 + b * k) = some (T, Ti)) (hT : T * Ti = 1)
    (hd : ∃ v : ι → ℝ, Ti * (a0 + b * k) * T = diagonal v ∧ ∀ i, 0 ≤ 1 + dt * v i)
    (s : ℕ → LPV ι κ δ) (hs0 : s 0 = LPV.init eig x0 a0 da b d omega u k c) (hs : ∀ t, (s t).step dt = .ok (s (t + 1)))
    (x : ℕ → ι → ℝ) (hx0 : x 0 = x0) (hx : Evolution (a0 + b * k) da b (T * d) omega u c dt x) (t : ℕ) :
    InItv (x t) ((s t).intervalBack (s t).xit) := by
  have hT' : Ti * T = 1 := mul_eq_one_comm.1 hT
  have hf : LPV.frame eig (a0 + b * k) = some (T, Ti) := by unfold LPV.frame; rw [if_neg (by rw [hnm]; simp), heig]
  obtain ⟨v, hv, hst⟩ := hd
  have hi : LPV.init eig x0 a0 da b d omega u k c =
      { a0 := diagonal v, da := da.map fun m => Ti * m * T, b := Ti * b, d := d, omega := omega, u := u, k := k, center := c,
        coordinates := some (T, Ti), xt := x0, xit := (Ti *ᵥ (x0 - c), Ti *ᵥ (x0 - c)) } := by
    unfold LPV.init
    simp only [hf, LPV.stateToFrame, Option.getD_none]
    rw [show LPV.toFrame (some (T, Ti)) (a0 + b * k) = diagonal v from hv]
    rfl
  rw [hi] at hs0
  have key := lpv_general s dt hdt hs
    (fun _ => by
      rw [hs0]
      exact ⟨fun i j hij => by show 0 ≤ diagonal v i j; rw [diagonal_apply_ne _ hij], fun i => by show 0 ≤ 1 + dt * diagonal v i i; rw [diagonal_apply_eq]; exact hst i⟩)
    (fun t => Ti *ᵥ (x t - c))
    (by rw [hs0, hx0]; exact ⟨le_rfl, le_rfl⟩)
    (by
      rw [hs0]
      intro t
      obtain ⟨a, w, ha, hw, e⟩ := hx t
      refine ⟨Ti * a * T, w, ?_, hw, ?_⟩
      · have := frame_polytope T Ti _ _ _ ha
        rw [hv] at this
        exact this
      · show Ti *ᵥ (x (t + 1) - c) = linearStep (Ti * a * T) (Ti * b) d 0 u w dt (Ti *ᵥ (x t - c))
        rw [e]
        unfold linearStep
        have e1 : (Ti * a * T) *ᵥ (Ti *ᵥ (x t - c)) = Ti *ᵥ (a *ᵥ (x t - c)) := by
          rw [mulVec_mulVec, Matrix.mul_assoc, Matrix.mul_assoc, hT, Matrix.mul_one, mulVec_mulVec]
        have e2 : Ti *ᵥ ((T * d) *ᵥ w) = d *ᵥ w := by
          rw [mulVec_mulVec, ← Matrix.mul_assoc, hT', Matrix.one_mul]
        have e3 : Ti *ᵥ (b *ᵥ u) = (Ti * b) *ᵥ u := by rw [mulVec_mulVec]
        rw [sub_zero, e1, show x t + dt • (a *ᵥ (x t - c) + (T * d) *ᵥ w + b *ᵥ u) - c = (x t - c) + dt • (a *ᵥ (x t - c) + (T * d) *ᵥ w + b *ᵥ u) by abel,
          mulVec_add, mulVec_smul, mulVec_add, mulVec_add, e2, e3]) t
  have hc : (s t).coordinates = some (T, Ti) ∧ (s t).center = c := by rw [key.1, hs0]; exact ⟨rfl, rfl⟩
  have hb : ((s t).intervalBack (s t).xit) = ((Itv.scaling (α := ι → ι → ℝ) (fun (m : Matrix ι ι ℝ) x => m *ᵥ x) T (s t).xit).1 + c,
      (Itv.scaling (α := ι → ι → ℝ) (fun (m : Matrix ι ι ℝ) x => m *ᵥ x) T (s t).xit).2 + c) := by
    unfold LPV.intervalBack
    rw [hc.1, hc.2]
  rw [hb]
  have hle : (s t).xit.1 ≤ (s t).xit.2 := key.2.1.trans key.2.2
  have hr : T *ᵥ (Ti *ᵥ (x t - c)) = x t - c := by rw [mulVec_mulVec, hT, one_mulVec]
  constructor
  · intro i
    have h := (scaling_exact T (s t).xit hle i).1.2 ⟨Ti *ᵥ (x t - c), key.2, rfl⟩
    rw [hr] at h
    simp only [Pi.add_apply, Pi.sub_apply] at h ⊢
    linarith
  · intro i
    have h := (scaling_exact T (s t).xit hle i).2.2 ⟨Ti *ᵥ (x t - c), key.2, rfl⟩
    rw [hr] at h
    simp only [Pi.add_apply, Pi.sub_apply] at h ⊢
    linarith

/-- **C65, no frame.**  When the matrix is neither of that form nor diagonalisable, the naive prediction contains every evolution around the
origin — whatever the configured `center` is. -/
theorem lpv_encloses_unrotated (eig : Matrix ι ι ℝ → Option (Matrix ι ι ℝ × Matrix ι ι ℝ)) (x0 : ι → ℝ) (a0 : Matrix ι ι ℝ)
    (da : List (Matrix ι ι ℝ)) (b : Matrix ι κ ℝ) (d : Matrix ι δ ℝ) (omega : Itv (δ → ℝ)) (u : κ → ℝ) (k : Matrix κ ι ℝ) (c : ι → ℝ) (xi : Itv (ι → ℝ))
    (dt : ℝ) (hdt : 0 ≤ dt) (hnm : isMetzler (a0 + b * k) = false) (heig : eig (a0 + b * k) = none)
    (s : ℕ → LPV ι κ δ) (hs0 : s 0 = LPV.init eig x0 a0 da b d omega u k c (some xi)) (hs : ∀ t, (s t).step dt = .ok (s (t + 1)))
    (x : ℕ → ι → ℝ) (hx0 : InItv (x 0) xi) (hx : Evolution (a0 + b * k) da b d omega u 0 dt x) (t : ℕ) :
    InItv (x t) ((s t).intervalBack (s t).xit) := by
  have hf : LPV.frame eig (a0 + b * k) = none := by unfold LPV.frame; rw [if_neg (by rw [hnm]; simp), heig]
  have hi : LPV.init eig x0 a0 da b d omega u k c (some xi) =
      { a0 := a0 + b * k, da := da, b := b, d := d, omega := omega, u := u, k := k, center := c, coordinates := none, xt := x0,
        xit := xi } := by
    unfold LPV.init
    simp only [hf, LPV.toFrame, LPV.stateToFrame, Option.getD_some]
    congr 1
    exact (List.map_congr_left fun m _ => by rfl).trans (List.map_id da)
  rw [hi] at hs0
  have key := lpv_general s dt hdt hs (fun h => by rw [hs0] at h; exact absurd h (by rw [hnm]; simp)) x (by rw [hs0]; exact hx0) (by rw [hs0]; exact hx) t
  have hc : (s t).coordinates = none := by rw [key.1, hs0]
  unfold LPV.intervalBack
  rw [hc]
  exact key.2

/-- Adding a matrix to the nominal one and to a member of the polytope. -/
private theorem polytope_shift (a0 m : Matrix ι ι ℝ) (da : List (Matrix ι ι ℝ)) (a : Matrix ι ι ℝ) (h : InPolytope a0 da a) : InPolytope (a0 + m) da (a + m) := by
  obtain ⟨α, h1, h2, h3⟩ := h
  exact ⟨α, h1, h2, by rw [h3]; abel⟩

/-- The prediction of a driven system in any invertible frame in which the closed loop has non-negative off-diagonal entries. -/
private theorem lpv_driven (eig : Matrix ι ι ℝ → Option (Matrix ι ι ℝ × Matrix ι ι ℝ)) (T Ti : Matrix ι ι ℝ) (x0 : ι → ℝ) (a0 : Matrix ι ι ℝ) (da : List (Matrix ι ι ℝ))
    (b : Matrix ι κ ℝ) (d : Matrix ι δ ℝ) (omega : Itv (δ → ℝ)) (u0 : κ → ℝ) (k : Matrix κ ι ℝ) (dt : ℝ) (hdt : 0 ≤ dt) (hf : LPV.frame eig (a0 + b * k) = some (T, Ti))
    (hT : T * Ti = 1) (hm : Metzler (Ti * (a0 + b * k) * T)) (hst : ∀ i, 0 ≤ 1 + dt * (Ti * (a0 + b * k) * T) i i) (u : ℕ → κ → ℝ) (x : ℕ → ι → ℝ) (hx0 : x 0 = x0)
    (hx : Driven a0 da b (T * d) omega u dt x) (s : ℕ → LPV ι κ δ) (hs0 : s 0 = LPV.init eig x0 a0 da b d omega u0 k 0)
    (hs : ∀ t, ((s t).setControl (u t) (some (x t))).step dt = .ok (s (t + 1))) (t : ℕ) : InItv (x t) ((s t).intervalBack (s t).xit) := by
  have hT' : Ti * T = 1 := mul_eq_one_comm.1 hT
  have key : ∀ t, (s t).a0 = Ti * (a0 + b * k) * T ∧ (s t).da = da.map (fun m => Ti * m * T) ∧ (s t).b = Ti * b ∧ (s t).d = d ∧ (s t).omega = omega ∧ (s t).k = k ∧
      (s t).center = 0 ∧ (s t).coordinates = some (T, Ti) ∧ InItv (Ti *ᵥ x t) (s t).xit := by
    intro t
    induction t with
    | zero =>
      rw [hs0]
      unfold LPV.init
      simp only [hf, LPV.stateToFrame, LPV.toFrame, Option.getD_none, hx0, sub_zero]
      exact ⟨trivial, by congr 1, trivial, trivial, trivial, trivial, trivial, trivial, le_rfl, le_rfl⟩
    | succ t ih =>
      obtain ⟨i1, i2, i3, i4, i5, i6, i7, i8, i9⟩ := ih
      have hstep := hs t
      obtain ⟨e1, e2⟩ := step_fixed hstep
      have f1 : ((s t).setControl (u t) (some (x t))) = { s t with u := u t - k *ᵥ x t } := by rw [← i6]; rfl
      rw [f1] at e1 e2
      refine ⟨by rw [e1]; exact i1, by rw [e1]; exact i2, by rw [e1]; exact i3, by rw [e1]; exact i4, by rw [e1]; exact i5, by rw [e1]; exact i6, by rw [e1]; exact i7,
        by rw [e1]; exact i8, ?_⟩
      obtain ⟨a, w, ha, hw, hxt⟩ := hx t
      have hpoly : InPolytope (Ti * (a0 + b * k) * T) (da.map fun m => Ti * m * T) (Ti * (a + b * k) * T) := frame_polytope T Ti _ _ _ (polytope_shift a0 (b * k) da a ha)
      have hz : Ti *ᵥ x (t + 1) = linearStep (Ti * (a + b * k) * T) (Ti * b) d 0 (u t - k *ᵥ x t) w dt (Ti *ᵥ x t) := by
        rw [hxt]
        unfold linearStep
        have q1 : (Ti * (a + b * k) * T) *ᵥ (Ti *ᵥ x t) = Ti *ᵥ (a *ᵥ x t) + (Ti * b) *ᵥ (k *ᵥ x t) := by
          rw [mulVec_mulVec, Matrix.mul_assoc, Matrix.mul_assoc, hT, Matrix.mul_one, ← mulVec_mulVec, add_mulVec, mulVec_add, ← mulVec_mulVec, ← mulVec_mulVec]
        have q2 : Ti *ᵥ ((T * d) *ᵥ w) = d *ᵥ w := by rw [mulVec_mulVec, ← Matrix.mul_assoc, hT', Matrix.one_mul]
        have q3 : Ti *ᵥ (b *ᵥ u t) = (Ti * b) *ᵥ u t := by rw [mulVec_mulVec]
        rw [sub_zero, sub_zero, q1, mulVec_add, mulVec_smul, mulVec_add, mulVec_add, q2, q3, mulVec_sub]
        congr 2
        abel
      rw [e2, hz]
      have g1 : ({ s t with u := u t - k *ᵥ x t } : LPV ι κ δ).a0 = Ti * (a0 + b * k) * T := i1
      rw [← i3, ← i4]
      split
      · exact predictor_encloses { s t with u := u t - k *ᵥ x t } (by rw [g1]; exact hm) dt hdt (by rw [g1]; exact hst) _ _ i9 _ (by rw [g1]; show InPolytope _ (s t).da _; rw [i2]; exact hpoly)
          w (by show InItv w (s t).omega; rw [i5]; exact hw)
      · exact naive_encloses { s t with u := u t - k *ᵥ x t } dt hdt _ _ i9 _ (by rw [g1]; show InPolytope _ (s t).da _; rw [i2]; exact hpoly) w
          (by show InItv w (s t).omega; rw [i5]; exact hw)
  obtain ⟨_, _, _, _, _, _, i7, i8, i9⟩ := key t
  have hb : ((s t).intervalBack (s t).xit) = Itv.scaling (α := ι → ι → ℝ) (fun (m : Matrix ι ι ℝ) x => m *ᵥ x) T (s t).xit := by
    unfold LPV.intervalBack
    rw [i8, i7]
    simp
  rw [hb]
  have hle : (s t).xit.1 ≤ (s t).xit.2 := i9.1.trans i9.2
  have hr : T *ᵥ (Ti *ᵥ x t) = x t := by rw [mulVec_mulVec, hT, one_mulVec]
  constructor
  · intro i
    have h := (scaling_exact T (s t).xit hle i).1.2 ⟨Ti *ᵥ x t, i9, rfl⟩
    rwa [hr] at h
  · intro i
    have h := (scaling_exact T (s t).xit hle i).2.2 ⟨Ti *ᵥ x t, i9, rfl⟩
    rwa [hr] at h

/-- **C65, predicting a controlled system.**  The way `LaneKeepingEnv.step` uses the predictor: before every step, the control applied is declared together with the measured
state, `set_control(u, state=x)`.  If the closed loop `a0 + b k` has non-negative off-diagonal entries, the predicted interval always contains the state of the system driven in
*open loop* by the controls `u` — any controls, not only the feedback `k x` the predictor was built with. -/
theorem lpv_controlled (eig : Matrix ι ι ℝ → Option (Matrix ι ι ℝ × Matrix ι ι ℝ)) (x0 : ι → ℝ) (a0 : Matrix ι ι ℝ) (da : List (Matrix ι ι ℝ)) (b : Matrix ι κ ℝ)
    (d : Matrix ι δ ℝ) (omega : Itv (δ → ℝ)) (u0 : κ → ℝ) (k : Matrix κ ι ℝ) (dt : ℝ) (hdt : 0 ≤ dt) (hm : Metzler (a0 + b * k)) (hst : ∀ i, 0 ≤ 1 + dt * (a0 + b * k) i i)
    (u : ℕ → κ → ℝ) (x : ℕ → ι → ℝ) (hx0 : x 0 = x0) (hx : Driven a0 da b d omega u dt x) (s : ℕ → LPV ι κ δ) (hs0 : s 0 = LPV.init eig x0 a0 da b d omega u0 k 0)
    (hs : ∀ t, ((s t).setControl (u t) (some (x t))).step dt = .ok (s (t + 1))) (t : ℕ) : InItv (x t) ((s t).intervalBack (s t).xit) := by
  have hM : isMetzler (a0 + b * k) = true := by
    unfold isMetzler
    refine @decide_eq_true _ (propDecidable _) ?_
    intro i j
    by_cases h : i = j
    · rw [if_pos h]; norm_num
    · rw [if_neg h, sub_zero]; exact le_trans (by norm_num) (hm i j h)
  have hf : LPV.frame eig (a0 + b * k) = some (1, 1) := by unfold LPV.frame; rw [if_pos hM]
  exact lpv_driven eig 1 1 x0 a0 da b d omega u0 k dt hdt hf (by simp) (by simpa using hm) (by simpa using hst) u x hx0 (by simpa using hx) s hs0 hs t

/-- **C65, predicting a controlled system in a rotated frame** (the pole-placement controller of `dynamics.simulate`): the same when the closed loop is diagonalised, for disturbances
that enter through `T * d` (none, if `d = 0`). -/
theorem lpv_controlled_rotated (eig : Matrix ι ι ℝ → Option (Matrix ι ι ℝ × Matrix ι ι ℝ)) (T Ti : Matrix ι ι ℝ) (x0 : ι → ℝ) (a0 : Matrix ι ι ℝ)
    (da : List (Matrix ι ι ℝ)) (b : Matrix ι κ ℝ) (d : Matrix ι δ ℝ) (omega : Itv (δ → ℝ)) (u0 : κ → ℝ) (k : Matrix κ ι ℝ)
    (dt : ℝ) (hdt : 0 ≤ dt) (hnm : isMetzler (a0 + b * k) = false) (heig : eig (a0 + b * k) = some (T, Ti)) (hT : T * Ti = 1)
    (hd : ∃ v : ι → ℝ, Ti * (a0 + b * k) * T = diagonal v ∧ ∀ i, 0 ≤ 1 + dt * v i)
    (u : ℕ → κ → ℝ) (x : ℕ → ι → ℝ) (hx0 : x 0 = x0) (hx : Driven a0 da b (T * d) omega u dt x) (s : ℕ → LPV ι κ δ) (hs0 : s 0 = LPV.init eig x0 a0 da b d omega u0 k 0)
    (hs : ∀ t, ((s t).setControl (u t) (some (x t))).step dt = .ok (s (t + 1))) (t : ℕ) : InItv (x t) ((s t).intervalBack (s t).xit) := by
  have hf : LPV.frame eig (a0 + b * k) = some (T, Ti) := by unfold LPV.frame; rw [if_neg (by rw [hnm]; simp), heig]
  obtain ⟨v, hv, hst⟩ := hd
  exact lpv_driven eig T Ti x0 a0 da b d omega u0 k dt hdt hf hT (by rw [hv]; intro i j hij; rw [diagonal_apply_ne _ hij]) (by rw [hv]; intro i; rw [diagonal_apply_eq]; exact hst i)
    u x hx0 hx s hs0 hs t

/-- With at least one deviation, the prediction can be stepped forever. -/
theorem lpv_runs (s0 : LPV ι κ δ) (dt : ℝ) (h : s0.da ≠ []) : ∃ s : ℕ → LPV ι κ δ, s 0 = s0 ∧ ∀ t, (s t).step dt = .ok (s (t + 1)) := by
  let f : LPV ι κ δ → LPV ι κ δ := fun s => { s with
    xit := if isMetzler s.a0 then s.predictor s.xit dt else s.naive s.xit dt
    xt := s.xt + dt • (s.a0 *ᵥ s.xt + s.b *ᵥ s.u) }
  refine ⟨fun t => f^[t] s0, rfl, fun t => ?_⟩
  have hd : (f^[t] s0).da ≠ [] := by
    induction t with
    | zero => exact h
    | succ t ih => rw [Function.iterate_succ_apply']; exact ih
  show LPV.step (f^[t] s0) dt = .ok (f^[t + 1] s0)
  rw [Function.iterate_succ_apply']
  unfold LPV.step
  rw [if_neg hd]

end

/-- An upper triangular matrix with the eigenvectors (1, 0) and (3/5, 4/5). -/
private def tri : Matrix (Fin 2) (Fin 2) ℝ := !![-1, -3; 0, -5]
private def triT : Matrix (Fin 2) (Fin 2) ℝ := !![1, 3 / 5; 0, 4 / 5]
private def triTi : Matrix (Fin 2) (Fin 2) ℝ := !![1, -3 / 4; 0, 5 / 4]
private def triEig : Matrix (Fin 2) (Fin 2) ℝ → Option (Matrix (Fin 2) (Fin 2) ℝ × Matrix (Fin 2) (Fin 2) ℝ) := fun _ => some (triT, triTi)

private theorem tri_inv : triT * triTi = 1 := by
  unfold triT triTi
  ext i j
  fin_cases i <;> fin_cases j <;> norm_num [Matrix.mul_apply, Fin.sum_univ_two]

private theorem tri_diag : triTi * tri * triT = diagonal ![-1, -5] := by
  unfold triT triTi tri
  ext i j
  fin_cases i <;> fin_cases j <;> norm_num [Matrix.mul_apply, Fin.sum_univ_two]

private theorem tri_not_metzler : isMetzler tri = false := by
  unfold isMetzler
  refine @decide_eq_false _ (propDecidable _) ?_
  intro h
  have := h 0 1
  norm_num [tri] at this

/-- The system of the witness: from the origin, with a disturbance of the second state. -/
private def triSys : LPV (Fin 2) (Fin 1) (Fin 1) :=
  LPV.init triEig 0 tri [0] 0 (!![0; 1]) ((fun _ => -1), (fun _ => 1)) 0 0 0

/-- Hypotheses of `lpv_encloses_rotated` are met. -/
example (s : ℕ → LPV (Fin 2) (Fin 1) (Fin 1)) (h0 : s 0 = triSys) (hs : ∀ t, (s t).step (1 / 10) = .ok (s (t + 1))) (x : ℕ → Fin 2 → ℝ) (hx0 : x 0 = 0)
    (hx : Evolution tri [0] 0 (triT * (!![0; 1] : Matrix (Fin 2) (Fin 1) ℝ)) ((fun _ : Fin 1 => (-1 : ℝ)), (fun _ => 1)) (0 : Fin 1 → ℝ) 0 (1 / 10) x) (t : ℕ) :
    InItv (x t) ((s t).intervalBack (s t).xit) :=
  lpv_encloses_rotated triEig triT triTi 0 tri [0] 0 _ _ 0 0 0 (1 / 10) (by norm_num) (by simpa using tri_not_metzler) rfl tri_inv
    ⟨_, by simpa using tri_diag, by intro i; fin_cases i <;> norm_num⟩ s h0 hs x hx0 (by simpa using hx) t

/-- Hypotheses of `lpv_controlled` are met: an integrator driven by the constant control 1, predicted with the feedback `-x`, follows `x = t / 10`. -/
example : ∃ (s : ℕ → LPV (Fin 1) (Fin 1) (Fin 1)) (x : ℕ → Fin 1 → ℝ), s 0 = LPV.init (fun _ => none) 0 0 [0] 1 0 (0, 0) 0 (-1) 0 ∧
    (∀ t, ((s t).setControl (fun _ => 1) (some (x t))).step (1 / 10) = .ok (s (t + 1))) ∧ (∀ t, x t = fun _ => (t : ℝ) / 10) ∧ ∀ t, InItv (x t) ((s t).intervalBack (s t).xit) := by
  let f : ℕ → LPV (Fin 1) (Fin 1) (Fin 1) → LPV (Fin 1) (Fin 1) (Fin 1) := fun t s => { s.setControl (fun _ => 1) (some fun _ => (t : ℝ) / 10) with
    xit := if isMetzler (s.setControl (fun _ => 1) (some fun _ => (t : ℝ) / 10)).a0 then (s.setControl (fun _ => 1) (some fun _ => (t : ℝ) / 10)).predictor s.xit (1 / 10)
      else (s.setControl (fun _ => 1) (some fun _ => (t : ℝ) / 10)).naive s.xit (1 / 10)
    xt := s.xt + (1 / 10 : ℝ) • (s.a0 *ᵥ s.xt + s.b *ᵥ (s.setControl (fun _ => 1) (some fun _ => (t : ℝ) / 10)).u) }
  let s : ℕ → LPV (Fin 1) (Fin 1) (Fin 1) := fun t => Nat.rec (LPV.init (fun _ => none) 0 0 [0] 1 0 (0, 0) 0 (-1) 0) f t
  have hda : ∀ t, (s t).da ≠ [] := by
    intro t
    induction t with
    | zero => show LPV.da (LPV.init _ _ _ _ _ _ _ _ _ _) ≠ []; unfold LPV.init; simp
    | succ t ih => exact ih
  have hs : ∀ t, ((s t).setControl (fun _ => 1) (some fun _ => (t : ℝ) / 10)).step (1 / 10) = .ok (s (t + 1)) := by
    intro t
    unfold LPV.step
    rw [if_neg (show ((s t).setControl (fun _ => 1) (some fun _ => (t : ℝ) / 10)).da ≠ [] from hda t)]
    rfl
  refine ⟨s, fun t _ => (t : ℝ) / 10, rfl, hs, fun _ => rfl, ?_⟩
  refine lpv_controlled (fun _ => none) 0 0 [0] 1 0 (0, 0) 0 (-1) (1 / 10) (by norm_num) ?_ ?_ (fun _ _ => 1) _ ?_ ?_ s rfl hs
  · intro i j hij; exact absurd (Subsingleton.elim i j) hij
  · intro i; simp; norm_num
  · funext i; simp
  · intro t
    refine ⟨0, 0, ⟨[0], rfl, by simp, by simp⟩, ⟨le_rfl, le_rfl⟩, ?_⟩
    unfold linearStep
    funext i
    simp
    ring

/-- **C65, finding.**  The disturbance matrix is not converted to the rotated frame: already after one step of 0.1 s, the state reached under
the admissible disturbance 1 is outside the predicted interval. -/
theorem lpv_rotated_disturbance_lost : ∃ s' : LPV (Fin 2) (Fin 1) (Fin 1), triSys.step (1 / 10) = .ok s' ∧
    ¬ InItv (linearStep tri 0 (!![0; 1] : Matrix (Fin 2) (Fin 1) ℝ) 0 (0 : Fin 1 → ℝ) (fun _ => 1) (1 / 10) 0) (s'.intervalBack s'.xit) := by
  have hf : LPV.frame triEig (tri + (0 : Matrix (Fin 2) (Fin 1) ℝ) * (0 : Matrix (Fin 1) (Fin 2) ℝ)) = some (triT, triTi) := by
    unfold LPV.frame
    rw [if_neg (by rw [show tri + (0 : Matrix (Fin 2) (Fin 1) ℝ) * (0 : Matrix (Fin 1) (Fin 2) ℝ) = tri by simp, tri_not_metzler]; simp)]
    rfl
  have hi : triSys =
      { a0 := diagonal ![-1, -5], da := [0], b := 0, d := !![0; 1], omega := ((fun _ => -1), (fun _ => 1)), u := 0, k := 0, center := 0,
        coordinates := some (triT, triTi), xt := 0, xit := (0, 0) } := by
    unfold triSys LPV.init
    simp only [hf, LPV.stateToFrame, Option.getD_none]
    congr 1
    · show triTi * (tri + _) * triT = _
      rw [← tri_diag]; simp
    · simp [LPV.toFrame]
    · exact Matrix.mul_zero _
    · simp
  have hmz : isMetzler (diagonal ![(-1 : ℝ), -5]) = true := by
    unfold isMetzler
    refine @decide_eq_true _ (propDecidable _) ?_
    intro i j
    by_cases h : i = j
    · rw [if_pos h]; norm_num
    · rw [if_neg h, diagonal_apply_ne _ h]; norm_num
  rw [hi]
  unfold LPV.step
  rw [if_neg (by simp)]
  refine ⟨_, rfl, ?_⟩
  dsimp only
  rw [if_pos hmz]
  intro h
  have h1 := h.2 1
  simp [linearStep, LPV.intervalBack, LPV.predictor, Itv.scaling, Itv.p, Itv.n, LPV.mp, LPV.mn, triT, Matrix.mulVec, dotProduct, Fin.sum_univ_two] at h1
  change (10 : ℝ)⁻¹ ≤ max (4 / 5) 0 * 10⁻¹ + max (-(4 / 5)) 0 * 10⁻¹ at h1
  norm_num at h1

end HighwayEnv.Props
