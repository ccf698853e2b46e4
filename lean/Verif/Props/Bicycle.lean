import Verif.Model.BicycleLpv
import Verif.Props.Kinematics
import Mathlib.Analysis.SpecialFunctions.Trigonometric.ArctanDeriv
import Mathlib.Analysis.SpecialFunctions.Complex.Arg
import Mathlib.Analysis.Calculus.Deriv.MeanValue

/-!
# C90, C91: the dynamical bicycle — its linear model and the damping of the yaw rate
-/

noncomputable section
open Classical Matrix

namespace HighwayEnv.Props
open HighwayEnv HighwayEnv.Spec HighwayEnv.Vehicle

/-! ## C90 — the linear model -/

/-- The vehicle with its lateral motion and steering reduced by the factor `t`: with 0, it drives straight on. -/
def reduced (v : Vehicle) (t : ℝ) : Vehicle :=
  { v with lateralSpeed := t * v.lateralSpeed, yawRate := t * v.yawRate, steering := t * v.steering }

theorem arctan2_pos {y x : ℝ} (hx : 0 < x) : arctan2 y x = Real.arctan (y / x) := by
  unfold arctan2
  rw [Complex.arg_of_re_nonneg (by simpa using hx.le), Real.arctan_eq_arcsin]
  congr 1
  dsimp only
  rw [Complex.norm_def, Complex.normSq_mk, show x * x + y * y = x ^ 2 * (1 + (y / x) ^ 2) by field_simp, Real.sqrt_mul (by positivity),
    Real.sqrt_sq hx.le]
  field_simp

private theorem atan_deriv (c x : ℝ) (hx : 0 < x) : HasDerivAt (fun t : ℝ => arctan2 (t * c) x) (c / x) 0 := by
  have h : (fun t : ℝ => arctan2 (t * c) x) = fun t => Real.arctan (t * (c / x)) := by
    funext t; rw [arctan2_pos hx, mul_div_assoc]
  rw [h]
  have := (hasDerivAt_mul_const (x := (0 : ℝ)) (c / x)).arctan
  simpa using this

private theorem lateral_formula (v : Vehicle) (hs : 1 ≤ v.speed) : v.bicycleLateral =
    (30 * (v.steering - Real.arctan ((v.lateralSpeed + 5 / 2 * v.yawRate) / v.speed)) -
        30 * Real.arctan ((v.lateralSpeed - 5 / 2 * v.yawRate) / v.speed) - v.yawRate * v.speed,
      900 / 37 * (v.steering - Real.arctan ((v.lateralSpeed + 5 / 2 * v.yawRate) / v.speed) +
        Real.arctan ((v.lateralSpeed - 5 / 2 * v.yawRate) / v.speed))) := by
  unfold bicycleLateral INERTIA_Z LENGTH WIDTH
  dsimp only
  rw [if_neg (by rw [abs_of_nonneg (by linarith)]; linarith), arctan2_pos (by linarith), arctan2_pos (by linarith)]
  ext
  · dsimp only; ring_nf
  · dsimp only; ring_nf

/-- The matrices of the linear model from 1 m/s on: triangular, with negative diagonal, so straight driving is stable in continuous time. -/
theorem linear_matrices (v : Vehicle) (hs : 1 ≤ v.speed) :
    v.lateralLpvDynamics = (!![-60 / v.speed, -v.speed; 0, -4500 / (37 * v.speed)], ![30, 450 / 37]) := by
  have h0 : v.speed ≠ 0 := by linarith
  unfold lateralLpvDynamics lateralLpvStructure atFrictions frictions INERTIA_Z LENGTH WIDTH
  dsimp only
  rw [if_neg (by rw [abs_of_nonneg (by linarith)]; linarith)]
  ext i j
  · fin_cases i <;> fin_cases j <;> simp [Fin.sum_univ_two] <;> field_simp <;> norm_num
  · fin_cases i <;> norm_num

private theorem linear45 (v : Vehicle) : v.derivativeLinear 4 =
      v.lateralLpvDynamics.1 0 0 * v.lateralSpeed + v.lateralLpvDynamics.1 0 1 * v.yawRate + v.lateralLpvDynamics.2 0 * v.steering ∧
    v.derivativeLinear 5 =
      v.lateralLpvDynamics.1 1 0 * v.lateralSpeed + v.lateralLpvDynamics.1 1 1 * v.yawRate + v.lateralLpvDynamics.2 1 * v.steering := by
  have e4 : v.derivativeLinear 4 = (v.lateralLpvDynamics.1 *ᵥ ![v.lateralSpeed, v.yawRate] + fun i => v.lateralLpvDynamics.2 i * v.steering) 0 := rfl
  have e5 : v.derivativeLinear 5 = (v.lateralLpvDynamics.1 *ᵥ ![v.lateralSpeed, v.yawRate] + fun i => v.lateralLpvDynamics.2 i * v.steering) 1 := rfl
  rw [e4, e5]
  constructor <;> simp [Matrix.mulVec, dotProduct, Fin.sum_univ_two]

private theorem full_stack (v : Vehicle) : v.fullLateralLpvDynamics =
    (stack ![0, v.speed, 1, 0] ![0, 0, 0, 1] v.lateralLpvDynamics.1, ![0, 0, v.lateralLpvDynamics.2 0, v.lateralLpvDynamics.2 1]) := by
  unfold fullLateralLpvDynamics fullLateralLpvStructure lateralLpvDynamics atFrictions stack
  ext i j
  · fin_cases i <;> fin_cases j <;> simp [Fin.sum_univ_two]
  · rfl

/-- **C90, the linear lateral model.**  From 1 m/s on, `derivative_linear` agrees with `derivative` on position, heading and speed, and is its first-order
expansion around straight driving for the lateral acceleration.  For the yaw acceleration it is not: the effect of the steering is half of what it
should be. -/
theorem linear_model (v : Vehicle) (hs : 1 ≤ v.speed) :
    (∀ i : Fin 6, i < 4 → v.derivativeLinear i = v.derivative i) ∧
      HasDerivAt (fun t => (reduced v t).derivative 4) (v.derivativeLinear 4) 0 ∧
      HasDerivAt (fun t => (reduced v t).derivative 5) (v.derivativeLinear 5 + 450 / 37 * v.steering) 0 := by
  have h0 : 0 < v.speed := by linarith
  have d1 : HasDerivAt (fun t : ℝ => Real.arctan ((t * v.lateralSpeed + 5 / 2 * (t * v.yawRate)) / v.speed))
      ((v.lateralSpeed + 5 / 2 * v.yawRate) / v.speed) 0 := by
    have := (hasDerivAt_mul_const (x := (0 : ℝ)) ((v.lateralSpeed + 5 / 2 * v.yawRate) / v.speed)).arctan
    have e : (fun t : ℝ => Real.arctan ((t * v.lateralSpeed + 5 / 2 * (t * v.yawRate)) / v.speed)) =
        fun t => Real.arctan (t * ((v.lateralSpeed + 5 / 2 * v.yawRate) / v.speed)) := by funext t; congr 1; ring
    rw [e]; simpa using this
  have d2 : HasDerivAt (fun t : ℝ => Real.arctan ((t * v.lateralSpeed - 5 / 2 * (t * v.yawRate)) / v.speed))
      ((v.lateralSpeed - 5 / 2 * v.yawRate) / v.speed) 0 := by
    have := (hasDerivAt_mul_const (x := (0 : ℝ)) ((v.lateralSpeed - 5 / 2 * v.yawRate) / v.speed)).arctan
    have e : (fun t : ℝ => Real.arctan ((t * v.lateralSpeed - 5 / 2 * (t * v.yawRate)) / v.speed)) =
        fun t => Real.arctan (t * ((v.lateralSpeed - 5 / 2 * v.yawRate) / v.speed)) := by funext t; congr 1; ring
    rw [e]; simpa using this
  have d3 : HasDerivAt (fun t : ℝ => t * v.steering) v.steering 0 := hasDerivAt_mul_const _
  have d4 : HasDerivAt (fun t : ℝ => t * v.yawRate * v.speed) (v.yawRate * v.speed) 0 := by
    simpa [mul_assoc] using hasDerivAt_mul_const (x := (0 : ℝ)) (v.yawRate * v.speed)
  have f : ∀ t, (reduced v t).bicycleLateral = _ := fun t => lateral_formula (reduced v t) hs
  refine ⟨?_, ?_, ?_⟩
  · intro i hi
    fin_cases i
    · rfl
    · rfl
    · rfl
    · rfl
    · exact absurd hi (by decide)
    · exact absurd hi (by decide)
  · have e : (fun t => (reduced v t).derivative 4) = fun t => (reduced v t).bicycleLateral.1 := rfl
    rw [e]
    simp only [f]
    unfold reduced
    dsimp only
    have := (((d3.sub d1).const_mul 30).sub (d2.const_mul 30)).sub d4
    have val : v.derivativeLinear 4 = 30 * (v.steering - (v.lateralSpeed + 5 / 2 * v.yawRate) / v.speed) -
        30 * ((v.lateralSpeed - 5 / 2 * v.yawRate) / v.speed) - v.yawRate * v.speed := by
      rw [(linear45 v).1, linear_matrices v hs]
      simp
      field_simp
      ring
    rw [val]
    exact this
  · have e : (fun t => (reduced v t).derivative 5) = fun t => (reduced v t).bicycleLateral.2 := rfl
    rw [e]
    simp only [f]
    unfold reduced
    dsimp only
    have := ((d3.sub d1).add d2).const_mul (900 / 37)
    have val : v.derivativeLinear 5 + 450 / 37 * v.steering = 900 / 37 * (v.steering - (v.lateralSpeed + 5 / 2 * v.yawRate) / v.speed +
        (v.lateralSpeed - 5 / 2 * v.yawRate) / v.speed) := by
      rw [(linear45 v).2, linear_matrices v hs]
      simp
      field_simp
      ring
    rw [val]
    exact this

/-- The vehicle with its heading, its lateral motion and steering reduced by the factor `t`. -/
def straightened (v : Vehicle) (t : ℝ) : Vehicle := { reduced v t with heading := t * v.heading }

/-- **C90, the full lateral model.**  The system `A x + B u` on ordinate, heading, lateral speed and yaw rate is the first-order expansion of their
derivatives around driving straight along the abscissas, up to the same factor on the yaw acceleration. -/
theorem full_linear_model (v : Vehicle) (hs : 1 ≤ v.speed) (dx : Fin 4 → ℝ)
    (hdx : dx = v.fullLateralLpvDynamics.1 *ᵥ ![v.pos.y, v.heading, v.lateralSpeed, v.yawRate] + fun i => v.fullLateralLpvDynamics.2 i * v.steering) :
    HasDerivAt (fun t => (straightened v t).derivative 1) (dx 0) 0 ∧ HasDerivAt (fun t => (straightened v t).derivative 2) (dx 1) 0 ∧
      HasDerivAt (fun t => (straightened v t).derivative 4) (dx 2) 0 ∧
      HasDerivAt (fun t => (straightened v t).derivative 5) (dx 3 + 450 / 37 * v.steering) 0 := by
  have hdx0 : dx 0 = v.speed * v.heading + v.lateralSpeed := by
    rw [hdx, full_stack]; unfold stack
    simp [Matrix.mulVec, dotProduct, Fin.sum_univ_four]; ring
  have hdx1 : dx 1 = v.yawRate := by
    rw [hdx, full_stack]; unfold stack
    simp [Matrix.mulVec, dotProduct, Fin.sum_univ_four]
  have hdx2 : dx 2 = v.derivativeLinear 4 := by
    rw [(linear45 v).1, hdx, full_stack]; unfold stack
    simp [Matrix.mulVec, dotProduct, Fin.sum_univ_four]; ring
  have hdx3 : dx 3 = v.derivativeLinear 5 := by
    rw [(linear45 v).2, hdx, full_stack]; unfold stack
    simp [Matrix.mulVec, dotProduct, Fin.sum_univ_four]; ring
  obtain ⟨_, m4, m5⟩ := linear_model v hs
  refine ⟨?_, ?_, ?_, ?_⟩
  · rw [hdx0]
    have e : (fun t => (straightened v t).derivative 1) = fun t => v.speed * Real.sin (t * v.heading) + t * v.lateralSpeed * Real.cos (t * v.heading) := by
      funext t
      change (Vec2.rot (t * v.heading) ⟨v.speed, t * v.lateralSpeed⟩).y = _
      unfold Vec2.rot
      dsimp only
      ring
    rw [e]
    have h1 := ((hasDerivAt_mul_const (x := (0 : ℝ)) v.heading).sin).const_mul v.speed
    have h2 := (hasDerivAt_mul_const (x := (0 : ℝ)) v.lateralSpeed).mul ((hasDerivAt_mul_const (x := (0 : ℝ)) v.heading).cos)
    have := h1.add h2
    simp only [zero_mul, Real.cos_zero, mul_one, one_mul, Real.sin_zero, neg_zero, mul_zero, add_zero] at this
    exact this
  · rw [hdx1]
    exact hasDerivAt_mul_const _
  · rw [hdx2]; exact m4
  · rw [hdx3]; exact m5

/-- Below 1 m/s the linear model has no damping and ignores the steering, whereas `derivative` damps lateral speed and yaw rate at rate 2. -/
theorem linear_model_slow (v : Vehicle) (hs : |v.speed| < 1) :
    v.derivativeLinear 4 = -v.speed * v.yawRate ∧ v.derivativeLinear 5 = 0 ∧
      v.derivative 4 = -v.speed * v.yawRate - 2 * v.lateralSpeed ∧ v.derivative 5 = -2 * v.yawRate := by
  refine ⟨?_, ?_, ?_, ?_⟩
  · rw [(linear45 v).1]
    unfold lateralLpvDynamics lateralLpvStructure atFrictions
    simp [hs, Matrix.mulVec, dotProduct]
  · rw [(linear45 v).2]
    unfold lateralLpvDynamics lateralLpvStructure atFrictions
    simp [hs, Matrix.mulVec, dotProduct]
  · change v.bicycleLateral.1 = _
    unfold bicycleLateral
    dsimp only
    rw [if_pos hs]
    ring
  · change v.bicycleLateral.2 = _
    unfold bicycleLateral INERTIA_Z LENGTH WIDTH
    dsimp only
    rw [if_pos hs]
    ring

/-- The hypotheses are met. -/
example : ∃ v : Vehicle, 1 ≤ v.speed ∧ v.steering ≠ 0 ∧ v.derivativeLinear 5 = 450 / 37 * v.steering ∧
    HasDerivAt (fun t => (reduced v t).derivative 5) (900 / 37 * v.steering) 0 := by
  let v : Vehicle := { uid := 0, kind := .bicycle, pos := ⟨0, 0⟩, heading := 0, speed := 8, steering := 1, laneIndex := ⟨"", "", 0⟩, targetLane := ⟨"", "", 0⟩, lane := { shape := .straight ⟨0, 0⟩ ⟨1, 0⟩ } }
  have e : v.derivativeLinear 5 = 450 / 37 * v.steering := by
    rw [(linear45 v).2, linear_matrices v (by norm_num [v])]
    simp [v]
  refine ⟨v, by norm_num [v], by norm_num [v], e, ?_⟩
  have := (linear_model v (by norm_num [v])).2.2
  rw [e] at this
  convert this using 1
  ring

/-! ## C91 — damping of the yaw rate -/

/-- One step with straight wheels at constant speed. -/
private theorem coast_step {g : Graph} {rec : Bool} {dt : ℝ} {v v' : Vehicle} (hk : v.kind = .bicycle) (hc : v.crashed = false) (h1 : 1 ≤ v.speed)
    (h15 : v.speed ≤ 15) (h : ({ v with steering := 0, acceleration := 0 } : Vehicle).step g rec dt = .ok v') :
    v'.kind = .bicycle ∧ v'.crashed = false ∧ v'.speed = v.speed ∧
      v'.yawRate = npClip v.yawRate (-(2 * Real.pi)) (2 * Real.pi) - dt * (900 / 37) *
        (Real.arctan ((v.lateralSpeed + 5 / 2 * npClip v.yawRate (-(2 * Real.pi)) (2 * Real.pi)) / v.speed) -
          Real.arctan ((v.lateralSpeed - 5 / 2 * npClip v.yawRate (-(2 * Real.pi)) (2 * Real.pi)) / v.speed)) := by
  have hp := Real.pi_pos
  set u : Vehicle := { v with steering := 0, acceleration := 0 } with hu
  have huk : u.kind = .bicycle := hk
  obtain ⟨i, l, hist, _, _, rfl⟩ := step_ok h
  have hbase : u.clipActionsBase = u := by
    unfold Vehicle.clipActionsBase
    have hcu : u.crashed = false := hc
    rw [hcu]
    simp only [Bool.false_eq_true, if_false]
    have hm : u.kind.maxSpeed = 15 := by rw [huk]; rfl
    have hsu : u.speed = v.speed := rfl
    rw [hm, hsu, if_neg (by linarith), if_neg (by linarith)]
  have hclip : u.clipActions = { u with steering := 0, yawRate := npClip v.yawRate (-(2 * Real.pi)) (2 * Real.pi) } := by
    unfold Vehicle.clipActions
    rw [hbase]
    dsimp only
    rw [if_pos huk]
    have : npClip u.steering (-Real.pi / 2) (Real.pi / 2) = 0 := by
      change npClip 0 (-Real.pi / 2) (Real.pi / 2) = 0
      exact npClip_of_mem (by linarith) (by linarith)
    rw [this]
  have hmove : u.move dt = u.clipActions.integrateBicycle dt := by
    unfold Vehicle.move
    have h1 : u.kind.isIDM = false := by rw [huk]; rfl
    simp only [h1, Bool.false_eq_true, if_false]
    rw [if_pos (by rw [hclip]; exact huk)]
  dsimp only
  rw [hmove, hclip]
  refine ⟨hk, hc, ?_, ?_⟩
  · unfold integrateBicycle
    dsimp only
    rw [hu]
    dsimp only
    ring
  · unfold integrateBicycle
    dsimp only
    rw [lateral_formula _ (by rw [hu]; exact h1), hu]
    dsimp only
    ring

private theorem arctan_gap {x y : ℝ} (h : x ≤ y) : 0 ≤ Real.arctan y - Real.arctan x ∧ Real.arctan y - Real.arctan x ≤ y - x := by
  refine ⟨by linarith [Real.arctan_strictMono.monotone h], ?_⟩
  have hm : Antitone fun z : ℝ => Real.arctan z - z := by
    apply antitone_of_deriv_nonpos
    · exact Real.differentiable_arctan.sub differentiable_id
    · intro z
      have : HasDerivAt (fun z : ℝ => Real.arctan z - z) (1 / (1 + z ^ 2) - 1) z := (Real.hasDerivAt_arctan z).sub (hasDerivAt_id z)
      rw [this.deriv]
      have : 1 / (1 + z ^ 2) ≤ 1 := by rw [div_le_one (by positivity)]; nlinarith [sq_nonneg z]
      linarith
  have := hm h
  dsimp only at this
  linarith

private theorem arctan_gap_lower {x y e : ℝ} (h : x ≤ y) (hx : -e ≤ x) (hy : y ≤ e) :
    (y - x) / (1 + e ^ 2) ≤ Real.arctan y - Real.arctan x := by
  rcases h.eq_or_lt with rfl | hlt
  · simp
  obtain ⟨c, hc, he⟩ := exists_hasDerivAt_eq_slope Real.arctan (fun z => 1 / (1 + z ^ 2)) hlt Real.continuous_arctan.continuousOn
    (fun z _ => Real.hasDerivAt_arctan z)
  have hcc : c ^ 2 ≤ e ^ 2 := sq_le_sq' (by linarith [hc.1]) (by linarith [hc.2])
  have h1 : 1 / (1 + e ^ 2) ≤ 1 / (1 + c ^ 2) := one_div_le_one_div_of_le (by positivity) (by linarith)
  rw [he, le_div_iff₀ (by linarith)] at h1
  calc (y - x) / (1 + e ^ 2) = 1 / (1 + e ^ 2) * (y - x) := by ring
    _ ≤ _ := h1

private theorem clip_abs {x b : ℝ} (hb : 0 ≤ b) : |npClip x (-b) b| ≤ |x| ∧ (|x| ≤ b → npClip x (-b) b = x) := by
  constructor
  · unfold npClip
    rcases le_total x (-b) with h | h
    · rw [max_eq_right h, min_eq_left (by linarith), abs_neg, abs_of_nonneg hb, abs_of_nonpos (by linarith)]; linarith
    · rw [max_eq_left h]
      rcases le_total x b with h' | h'
      · rw [min_eq_left h']
      · rw [min_eq_right h', abs_of_nonneg hb, abs_of_nonneg (by linarith)]; exact h'
  · intro h
    obtain ⟨h1, h2⟩ := abs_le.1 h
    exact npClip_of_mem h1 h2

/-- **C91, damping.**  A dynamical bicycle driving at constant speed with straight wheels, at 1 m/s or more and at least 2250/37·dt (about 4.05 m/s at
15 steps per second, 6.08 m/s at 10): from one step to the next its yaw rate does not grow, whatever its lateral speed — for any number of steps. -/
theorem bicycle_yaw_damped (g : Graph) (rec : Bool) (dt : ℝ) (hdt : 0 ≤ dt) (n : ℕ) (v v' : Vehicle) (hk : v.kind = .bicycle) (hc : v.crashed = false)
    (h1 : 1 ≤ v.speed) (h15 : v.speed ≤ 15) (hfast : 2250 * dt ≤ 37 * v.speed) (h : drive g rec dt (List.replicate n (0, 0)) v = .ok v') :
    |v'.yawRate| ≤ |v.yawRate| ∧ v'.speed = v.speed := by
  induction n generalizing v with
  | zero => cases h; exact ⟨le_rfl, rfl⟩
  | succ n ih =>
    rw [List.replicate_succ] at h
    unfold drive at h
    obtain ⟨w, hw, hrest⟩ := bind_ok h
    obtain ⟨k1, k2, k3, k4⟩ := coast_step hk hc h1 h15 hw
    obtain ⟨r1, r2⟩ := ih w k1 k2 (by rw [k3]; exact h1) (by rw [k3]; exact h15) (by rw [k3]; exact hfast) hrest
    refine ⟨r1.trans ?_, r2.trans k3⟩
    have hs : 0 < v.speed := by linarith
    refine le_trans ?_ (clip_abs (x := v.yawRate) (b := 2 * Real.pi) (by linarith [Real.pi_pos])).1
    rw [k4]
    generalize npClip v.yawRate (-(2 * Real.pi)) (2 * Real.pi) = r
    have key : ∀ r s : ℝ, 0 ≤ r → |r - dt * (900 / 37) * (Real.arctan ((s + 5 / 2 * r) / v.speed) - Real.arctan ((s - 5 / 2 * r) / v.speed))| ≤ r := by
      intro r s hr
      obtain ⟨g1, g2⟩ := arctan_gap (x := (s - 5 / 2 * r) / v.speed) (y := (s + 5 / 2 * r) / v.speed) (by gcongr; linarith)
      set D := Real.arctan ((s + 5 / 2 * r) / v.speed) - Real.arctan ((s - 5 / 2 * r) / v.speed)
      have g3 : D ≤ 5 * r / v.speed := by
        refine g2.trans (le_of_eq ?_)
        field_simp
        ring
      have g4 : dt * (900 / 37) * D ≤ 2 * r := by
        have : dt * (900 / 37) * D ≤ dt * (900 / 37) * (5 * r / v.speed) := by gcongr
        refine this.trans ?_
        rw [show dt * (900 / 37) * (5 * r / v.speed) = (2250 * dt) * (2 * r) / (37 * v.speed) by field_simp; ring, div_le_iff₀ (by linarith)]
        nlinarith
      have g5 : 0 ≤ dt * (900 / 37) * D := by positivity
      rw [abs_le]
      constructor <;> linarith
    rcases le_total 0 r with hr | hr
    · rw [abs_of_nonneg hr]; exact key r _ hr
    · rw [abs_of_nonpos hr]
      have := key (-r) v.lateralSpeed (by linarith)
      rw [← abs_neg]
      refine le_trans (le_of_eq ?_) this
      congr 1
      rw [show v.lateralSpeed + 5 / 2 * -r = v.lateralSpeed - 5 / 2 * r by ring, show v.lateralSpeed - 5 / 2 * -r = v.lateralSpeed + 5 / 2 * r by ring]
      ring

/-- **C91, instability.**  Below this speed (and from 1 m/s on), straight driving is unstable: there is a bound such that any yaw rate other than 0, however
small, makes the lateral speed or the yaw rate exceed the bound after some steps. -/
theorem bicycle_yaw_unstable (dt speed : ℝ) (h1 : 1 ≤ speed) (h15 : speed ≤ 15) (hslow : 37 * speed < 2250 * dt) :
    ∃ ε > 0, ∀ (g : Graph) (rec : Bool) (vs : ℕ → Vehicle), (vs 0).kind = .bicycle → (vs 0).crashed = false → (vs 0).speed = speed → (vs 0).yawRate ≠ 0 →
      (∀ n, drive g rec dt [(0, 0)] (vs n) = .ok (vs (n + 1))) → ∃ n, ε < |(vs n).lateralSpeed| ∨ ε < |(vs n).yawRate| := by
  have hs : 0 < speed := by linarith
  have hdt : 0 < dt := by nlinarith
  -- the growth factor is `κ / (1 + e²) - 1`, with slip angles below `e`
  set κ := 4500 * dt / (37 * speed) with hκ
  have hκ2 : 2 < κ := by rw [hκ, lt_div_iff₀ (by linarith)]; linarith
  obtain ⟨e, he0, he1⟩ : ∃ e : ℝ, 0 < e ∧ 2 * (1 + e ^ 2) < κ := by
    refine ⟨Real.sqrt ((κ - 2) / 4), Real.sqrt_pos.2 (by linarith), ?_⟩
    rw [Real.sq_sqrt (by linarith)]; linarith
  set c := κ / (1 + e ^ 2) - 1 with hcdef
  have hc1 : 1 < c := by
    have : 2 < κ / (1 + e ^ 2) := by rw [lt_div_iff₀ (by positivity)]; linarith
    rw [hcdef]; linarith
  refine ⟨min (e * speed / (7 / 2)) (2 * Real.pi), lt_min (by positivity) (by positivity), ?_⟩
  intro g rec vs hk hc hsp hy hrun
  by_contra hno
  push Not at hno
  have hstep : ∀ n, ({ vs n with steering := 0, acceleration := 0 } : Vehicle).step g rec dt = .ok (vs (n + 1)) := by
    intro n
    have := hrun n
    unfold drive at this
    obtain ⟨w, hw, hrest⟩ := bind_ok this
    cases hrest
    exact hw
  have inv : ∀ n, (vs n).kind = .bicycle ∧ (vs n).crashed = false ∧ (vs n).speed = speed := by
    intro n
    induction n with
    | zero => exact ⟨hk, hc, hsp⟩
    | succ n ih =>
      obtain ⟨i1, i2, i3⟩ := ih
      obtain ⟨k1, k2, k3, _⟩ := coast_step i1 i2 (by rw [i3]; exact h1) (by rw [i3]; exact h15) (hstep n)
      exact ⟨k1, k2, k3.trans i3⟩
  have grow : ∀ n, c * |(vs n).yawRate| ≤ |(vs (n + 1)).yawRate| := by
    intro n
    obtain ⟨i1, i2, i3⟩ := inv n
    obtain ⟨_, _, _, k4⟩ := coast_step i1 i2 (by rw [i3]; exact h1) (by rw [i3]; exact h15) (hstep n)
    obtain ⟨b1, b2⟩ := hno n
    rw [(clip_abs (by positivity)).2 (b2.trans (min_le_right _ _)), i3] at k4
    rw [k4]
    have b1' := b1.trans (min_le_left _ _)
    have b2' := b2.trans (min_le_left _ _)
    generalize (vs n).yawRate = r at *
    generalize (vs n).lateralSpeed = s at *
    have key : ∀ r s : ℝ, 0 ≤ r → |s| ≤ e * speed / (7 / 2) → r ≤ e * speed / (7 / 2) →
        c * r ≤ -(r - dt * (900 / 37) * (Real.arctan ((s + 5 / 2 * r) / speed) - Real.arctan ((s - 5 / 2 * r) / speed))) := by
      intro r s hr hb1 hb2
      obtain ⟨s1, s2⟩ := abs_le.1 hb1
      have hl := arctan_gap_lower (x := (s - 5 / 2 * r) / speed) (y := (s + 5 / 2 * r) / speed) (e := e) (by gcongr; linarith)
        (by rw [le_div_iff₀ hs]; linarith) (by rw [div_le_iff₀ hs]; linarith)
      set D := Real.arctan ((s + 5 / 2 * r) / speed) - Real.arctan ((s - 5 / 2 * r) / speed)
      have : κ / (1 + e ^ 2) * r ≤ dt * (900 / 37) * D := by
        have h2 : dt * (900 / 37) * (((s + 5 / 2 * r) / speed - (s - 5 / 2 * r) / speed) / (1 + e ^ 2)) ≤ dt * (900 / 37) * D := by gcongr
        refine le_trans (le_of_eq ?_) h2
        rw [hκ]
        field_simp
        ring
      rw [hcdef]
      linarith
    rcases le_total 0 r with hr | hr
    · rw [abs_of_nonneg hr] at b2' ⊢
      exact (key r s hr b1' b2').trans (neg_le_abs _)
    · rw [abs_of_nonpos hr] at b2' ⊢
      have := key (-r) s (by linarith) b1' b2'
      refine this.trans ((le_of_eq ?_).trans (le_abs_self _))
      rw [show s + 5 / 2 * -r = s - 5 / 2 * r by ring, show s - 5 / 2 * -r = s + 5 / 2 * r by ring]
      ring
  have pow : ∀ n, c ^ n * |(vs 0).yawRate| ≤ |(vs n).yawRate| := by
    intro n
    induction n with
    | zero => simp
    | succ n ih =>
      refine le_trans ?_ (grow n)
      rw [pow_succ]
      nlinarith
  have hy0 : 0 < |(vs 0).yawRate| := abs_pos.2 hy
  obtain ⟨n, hn⟩ := pow_unbounded_of_one_lt (2 * Real.pi / |(vs 0).yawRate|) hc1
  rw [div_lt_iff₀ hy0] at hn
  have := (hno n).2.trans (min_le_right _ _)
  linarith [pow n]

/-- Both theorems apply: on any map with a lane, the drives exist — at 8.3 m/s with ten steps per second the yaw rate 0.1 rad/s never grows, at 3 m/s with
fifteen steps per second it is amplified. -/
example (g : Graph) (hg : IsPyGraph g) (a b : String) (k : ℕ) (l : Lane) (hl : HasLane g a b k l) :
    (∀ n, ∃ v v' : Vehicle, v.yawRate = 1 / 10 ∧ v.speed = 83 / 10 ∧ drive g false (1 / 10) (List.replicate n (0, 0)) v = .ok v' ∧ |v'.yawRate| ≤ 1 / 10) ∧
      ∃ ε > 0, ∃ (vs : ℕ → Vehicle) (n : ℕ), (vs 0).yawRate = ε / 10 ∧ (vs 0).lateralSpeed = 0 ∧ (vs 0).speed = 3 ∧
        (∀ n, drive g false (1 / 15) [(0, 0)] (vs n) = .ok (vs (n + 1))) ∧ (ε < |(vs n).lateralSpeed| ∨ ε < |(vs n).yawRate|) := by
  let v : Vehicle := { uid := 0, kind := .bicycle, pos := ⟨0, 0⟩, heading := 0, speed := 83 / 10, yawRate := 1 / 10, laneIndex := ⟨"", "", 0⟩,
                       targetLane := ⟨"", "", 0⟩, lane := { shape := .straight ⟨0, 0⟩ ⟨1, 0⟩ } }
  constructor
  · intro n
    obtain ⟨v', hv'⟩ := drive_ok g hg a b k l hl false (1 / 10) (List.replicate n (0, 0)) v
    refine ⟨v, v', rfl, rfl, hv', ?_⟩
    have := (bicycle_yaw_damped g false (1 / 10) (by norm_num) n v v' rfl rfl (by norm_num [v]) (by norm_num [v]) (by norm_num [v]) hv').1
    refine this.trans (le_of_eq ?_)
    change |(1 / 10 : ℝ)| = 1 / 10
    exact abs_of_nonneg (by norm_num)
  · obtain ⟨ε, h0, hε⟩ := bicycle_yaw_unstable (1 / 15) 3 (by norm_num) (by norm_num) (by norm_num)
    let next : Vehicle → Vehicle := fun v => (drive_ok g hg a b k l hl false (1 / 15) [(0, 0)] v).choose
    let vs : ℕ → Vehicle := fun n => next^[n] { v with speed := 3, yawRate := ε / 10 }
    have hvs : ∀ n, drive g false (1 / 15) [(0, 0)] (vs n) = .ok (vs (n + 1)) := by
      intro n
      have := (drive_ok g hg a b k l hl false (1 / 15) [(0, 0)] (vs n)).choose_spec
      rw [show vs (n + 1) = next (vs n) from Function.iterate_succ_apply' _ _ _]
      exact this
    obtain ⟨n, hn⟩ := hε g false vs rfl rfl rfl (by change ε / 10 ≠ 0; positivity) hvs
    exact ⟨ε, h0, vs, n, rfl, rfl, rfl, hvs, hn⟩

end HighwayEnv.Props
