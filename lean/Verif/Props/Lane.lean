import Verif.Lemmas.Lane
import Verif.Spec.Curve
import Mathlib.Analysis.SpecialFunctions.Trigonometric.ArctanDeriv

/-!
# Properties of lane geometry (C16–C20)
-/

noncomputable section
open Real
namespace HighwayEnv.Props
open Lane

/-! ## C16 — straight lanes -/

/-- World → lane → world is the identity. -/
theorem straight_position_localCoordinates (l : Lane) (a b p : Vec2) (hl : l.shape = .straight a b) (h : a ≠ b) :
    l.position (l.localCoordinates p).1 (l.localCoordinates p).2 = p := by
  simp only [position, localCoordinates, hl]; exact straight_pos_local h p

/-- Lane → world → lane is the identity. -/
theorem straight_localCoordinates_position (l : Lane) (a b : Vec2) (s r : ℝ) (hl : l.shape = .straight a b)
    (h : a ≠ b) : l.localCoordinates (l.position s r) = (s, r) := by
  simp only [position, localCoordinates, hl]; exact straight_local_pos h s r

/-- Lane coordinates of a straight lane measure true distances. -/
theorem straight_isometry (l : Lane) (a b p q : Vec2) (hl : l.shape = .straight a b) (h : a ≠ b) :
    ((l.localCoordinates p).1 - (l.localCoordinates q).1) ^ 2 + ((l.localCoordinates p).2 - (l.localCoordinates q).2) ^ 2
      = (p - q).norm ^ 2 := by
  have hd := straightDir_sq h
  simp only [localCoordinates, hl, straightLocal, Vec2.dot, Vec2.norm_sq, Vec2.sub_x, Vec2.sub_y]
  linear_combination ((p.x - q.x) ^ 2 + (p.y - q.y) ^ 2) * hd

/-- The lane starts at `start`, ends at `end`, and its heading is the direction of travel. -/
theorem straight_endpoints_heading (l : Lane) (a b : Vec2) (s : ℝ) (hl : l.shape = .straight a b) (h : a ≠ b) :
    l.position 0 0 = a ∧ l.position l.length 0 = b ∧
      Spec.HeadingOfCurve (fun u => l.position u 0) s (l.headingAt s) 1 := by
  have hp := norm_pos_of_ne h
  refine ⟨?_, ?_, by norm_num, ?_, ?_⟩
  · simp only [position, hl, straightPosition]; ext <;> simp
  · simp only [position, hl, straightPosition, Lane.length, straightDir]
    ext <;> simp only <;> field_simp <;> ring
  · simp only [position, headingAt, hl, straightPosition]
    have e : cos (straightHeading a b) = (straightDir a b).x := by rw [straightDir_eq_dir h]; rfl
    rw [e]
    have := (((hasDerivAt_id s).mul_const (straightDir a b).x).const_add a.x).add_const (0 * -(straightDir a b).y)
    simpa using this
  · simp only [position, headingAt, hl, straightPosition]
    have e : sin (straightHeading a b) = (straightDir a b).y := by rw [straightDir_eq_dir h]; rfl
    rw [e]
    have := (((hasDerivAt_id s).mul_const (straightDir a b).y).const_add a.y).add_const (0 * (straightDir a b).x)
    simpa using this

example : ∃ (l : Lane) (a b : Vec2), l.shape = .straight a b ∧ a ≠ b :=
  ⟨⟨.straight ⟨0, 0⟩ ⟨100, 4⟩, 4, false, 20, 0⟩, ⟨0, 0⟩, ⟨100, 4⟩, rfl, by intro h; simp at h⟩

/-! ## C17 — sine lanes -/

theorem sine_position_localCoordinates (l : Lane) (a b p : Vec2) (amp w ph : ℝ) (hl : l.shape = .sine a b amp w ph)
    (h : a ≠ b) : l.position (l.localCoordinates p).1 (l.localCoordinates p).2 = p := by
  simp only [position, localCoordinates, hl, sub_add_cancel]; exact straight_pos_local h p

theorem sine_localCoordinates_position (l : Lane) (a b : Vec2) (amp w ph s r : ℝ)
    (hl : l.shape = .sine a b amp w ph) (h : a ≠ b) : l.localCoordinates (l.position s r) = (s, r) := by
  simp only [position, localCoordinates, hl, straight_local_pos h]; simp

/-- `heading_at(s)` is the direction of the tangent of the centre line at `s`, in the direction of travel. -/
theorem sine_heading_tangent (l : Lane) (a b : Vec2) (amp w ph s : ℝ) (hl : l.shape = .sine a b amp w ph)
    (h : a ≠ b) :
    Spec.HeadingOfCurve (fun u => l.position u 0) s (l.headingAt s) √(1 + (amp * w * cos (w * s + ph)) ^ 2) := by
  set m := amp * w * cos (w * s + ph) with hm
  have hk : 0 < √(1 + m ^ 2) := by positivity
  have hdir := straightDir_eq_dir h
  have ex : (straightDir a b).x = cos (straightHeading a b) := by rw [hdir]; rfl
  have ey : (straightDir a b).y = sin (straightHeading a b) := by rw [hdir]; rfl
  have hs : HasDerivAt (fun u => amp * sin (w * u + ph)) m s := by
    have := ((hasDerivAt_sin (w * s + ph)).comp s (((hasDerivAt_id s).const_mul w).add_const ph)).const_mul amp
    refine HasDerivAt.congr_deriv this ?_
    rw [hm]; simp; ring
  refine ⟨hk, ?_, ?_⟩
  · simp only [position, headingAt, hl, straightPosition, ← hm, zero_add]
    rw [cos_add, cos_arctan, sin_arctan]
    have := (((hasDerivAt_id s).mul_const (straightDir a b).x).const_add a.x).add (hs.mul_const (-(straightDir a b).y))
    refine HasDerivAt.congr_deriv this ?_
    rw [ex, ey]; field_simp; ring
  · simp only [position, headingAt, hl, straightPosition, ← hm, zero_add]
    rw [sin_add, cos_arctan, sin_arctan]
    have := (((hasDerivAt_id s).mul_const (straightDir a b).y).const_add a.y).add (hs.mul_const ((straightDir a b).x))
    refine HasDerivAt.congr_deriv this ?_
    rw [ex, ey]; field_simp

example : ∃ (l : Lane) (a b : Vec2) (amp w ph : ℝ), l.shape = .sine a b amp w ph ∧ a ≠ b :=
  ⟨⟨.sine ⟨0, 0⟩ ⟨80, 0⟩ 3.25 (π / 80) (π / 2), 4, true, 20, 0⟩, _, _, _, _, _, rfl, by intro h; simp at h⟩

/-! ## C18 — circular lanes -/

theorem circular_position_localCoordinates (l : Lane) (c p : Vec2) (rad p0 p1 : ℝ) (cw : Bool)
    (hl : l.shape = .circular c rad p0 p1 cw) (hr : 0 < rad) :
    l.position (l.localCoordinates p).1 (l.localCoordinates p).2 = p := by
  simp only [position, localCoordinates, hl]
  have e1 : circDir cw * (circDir cw * (p0 + wrapToPi (arctan2 (p - c).y (p - c).x - p0) - p0) * rad) / rad + p0
      = p0 + wrapToPi (arctan2 (p - c).y (p - c).x - p0) := by
    have := circDir_mul cw
    field_simp
    linear_combination (wrapToPi (arctan2 (p - c).y (p - c).x - p0)) * this
  have e2 : rad - circDir cw * (rad - (p - c).norm) * circDir cw = (p - c).norm := by
    linear_combination ((p - c).norm - rad) * circDir_mul cw
  rw [e1, e2, dir_wrap, norm_dir_arg]
  ext <;> simp

/-- Lane → world → lane, in general: the lateral coordinate is recovered and the longitudinal one is recovered modulo a
full turn (2π·radius), for points that are not beyond the centre of the circle. -/
theorem circular_localCoordinates_position (l : Lane) (c : Vec2) (rad p0 p1 s r : ℝ) (cw : Bool)
    (hl : l.shape = .circular c rad p0 p1 cw) (hside : 0 < rad - r * circDir cw) :
    l.localCoordinates (l.position s r) = (circDir cw * wrapToPi (circDir cw * s / rad) * rad, r) := by
  simp only [position, localCoordinates, hl]
  set phi := circDir cw * s / rad + p0 with hphi
  have e : c + (rad - r * circDir cw) • Vec2.dir phi - c = (rad - r * circDir cw) • Vec2.dir phi := by ext <;> simp
  rw [e]
  obtain ⟨k, hk⟩ := arctan2_polar (phi := phi) hside
  simp only [Vec2.smul_x, Vec2.smul_y, Vec2.dir, hk]
  have hn := Vec2.norm_smul (rad - r * circDir cw) (Vec2.dir phi)
  rw [Vec2.norm_dir, mul_one, abs_of_pos hside] at hn
  simp only [Vec2.dir] at hn
  rw [hn]
  ext <;> simp only
  · rw [show phi + 2 * π * k - p0 = circDir cw * s / rad + 2 * π * k by rw [hphi]; ring, wrapToPi_add_int]
    ring
  · linear_combination r * circDir_mul cw

/-- Exact recovery for less than half a turn around the start of the lane. -/
theorem circular_roundtrip (l : Lane) (c : Vec2) (rad p0 p1 s r : ℝ) (cw : Bool)
    (hl : l.shape = .circular c rad p0 p1 cw) (hr : 0 < rad) (hside : 0 < rad - r * circDir cw)
    (hs : -(π * rad) < s ∧ s < π * rad) :
    l.localCoordinates (l.position s r) = (s, r) := by
  rw [circular_localCoordinates_position l c rad p0 p1 s r cw hl hside, wrapToPi_of_mem]
  · ext
    · simp only; field_simp; linear_combination s * circDir_mul cw
    · rfl
  · rw [le_div_iff₀ hr]; cases cw <;> simp [circDir] <;> linarith
  · rw [div_lt_iff₀ hr]; cases cw <;> simp [circDir] <;> linarith

/-- Longitudinal coordinates always stay within half a turn; `|lateral|` is the distance to the centre circle. -/
theorem circular_local_range (l : Lane) (c p : Vec2) (rad p0 p1 : ℝ) (cw : Bool)
    (hl : l.shape = .circular c rad p0 p1 cw) (hr : 0 < rad) :
    |(l.localCoordinates p).1| ≤ π * rad ∧ |(l.localCoordinates p).2| = |(p - c).norm - rad| := by
  simp only [localCoordinates, hl]
  constructor
  · have h1 := wrapToPi_ge (arctan2 (p - c).y (p - c).x - p0)
    have h2 := wrapToPi_lt (arctan2 (p - c).y (p - c).x - p0)
    rw [add_sub_cancel_left, abs_mul, abs_mul, abs_of_pos hr]
    have : |circDir cw| = 1 := by cases cw <;> simp [circDir]
    rw [this, one_mul]
    exact mul_le_mul_of_nonneg_right (abs_le.2 ⟨h1, h2.le⟩) hr.le
  · rw [abs_mul, show |circDir cw| = 1 by cases cw <;> simp [circDir], one_mul, abs_sub_comm]

/-- `heading_at(s)` is tangent to the centre line, pointing in the direction of travel, and `s` is arc length. -/
theorem circular_heading_tangent (l : Lane) (c : Vec2) (rad p0 p1 s : ℝ) (cw : Bool)
    (hl : l.shape = .circular c rad p0 p1 cw) (hr : 0 < rad) :
    Spec.HeadingOfCurve (fun u => l.position u 0) s (l.headingAt s) 1 := by
  have hphi : HasDerivAt (fun u => circDir cw * u / rad + p0) (circDir cw / rad) s := by
    have := (((hasDerivAt_id s).const_mul (circDir cw)).div_const rad).add_const p0
    simpa using this
  refine ⟨by norm_num, ?_, ?_⟩
  · simp only [position, headingAt, hl, Vec2.add_x, Vec2.smul_x, Vec2.dir, zero_mul, sub_zero]
    have := (((hasDerivAt_cos _).comp s hphi).const_mul rad).const_add c.x
    refine HasDerivAt.congr_deriv this ?_
    cases cw
    · simp only [circDir]; simp only [Bool.false_eq_true, if_false]
      rw [show -1 * s / rad + p0 + π / 2 * -1 = (-1 * s / rad + p0) - π / 2 by ring, cos_sub_pi_div_two]
      field_simp
    · simp only [circDir]; simp only [if_true, mul_one]
      rw [cos_add_pi_div_two]; field_simp
  · simp only [position, headingAt, hl, Vec2.add_y, Vec2.smul_y, Vec2.dir, zero_mul, sub_zero]
    have := (((hasDerivAt_sin _).comp s hphi).const_mul rad).const_add c.y
    refine HasDerivAt.congr_deriv this ?_
    cases cw
    · simp only [circDir]; simp only [Bool.false_eq_true, if_false]
      rw [show -1 * s / rad + p0 + π / 2 * -1 = (-1 * s / rad + p0) - π / 2 by ring, sin_sub_pi_div_two]
      field_simp
    · simp only [circDir]; simp only [if_true, mul_one]
      rw [sin_add_pi_div_two]; field_simp

/-- A circular lane starts and ends at its two phases. -/
theorem circular_endpoints (l : Lane) (c : Vec2) (rad p0 p1 : ℝ) (cw : Bool)
    (hl : l.shape = .circular c rad p0 p1 cw) (hr : 0 < rad) :
    l.position 0 0 = c + rad • Vec2.dir p0 ∧ l.position l.length 0 = c + rad • Vec2.dir p1 := by
  simp only [position, hl, Lane.length]
  constructor
  · simp
  · have : circDir cw * (rad * (p1 - p0) * circDir cw) / rad + p0 = p1 := by
      have := circDir_mul cw
      field_simp
      linear_combination (p1 - p0) * this
    rw [this]; simp

example : ∃ (l : Lane) (c : Vec2) (rad p0 p1 : ℝ) (cw : Bool), l.shape = .circular c rad p0 p1 cw ∧ 0 < rad ∧
    0 < rad - 1 * circDir cw ∧ -(π * rad) < 2 ∧ 2 < π * rad :=
  ⟨⟨.circular ⟨0, 0⟩ 20 (π / 2) 0 false, 4, false, 20, 0⟩, _, _, _, _, _, rfl, by norm_num, by norm_num [circDir],
    by nlinarith [two_le_pi], by nlinarith [two_le_pi]⟩

/-! ## C19 — membership in a lane -/

/-- `on_lane(p, margin=m)`. -/
theorem onLane_iff (l : Lane) (p : Vec2) (m : ℝ) :
    l.onLane p (margin := m) = true ↔
      |(l.localCoordinates p).2| ≤ l.width / 2 + m ∧
        -5 ≤ (l.localCoordinates p).1 ∧ (l.localCoordinates p).1 < l.length + 5 := by
  simp [onLane, optTruthy, widthAt, VEHICLE_LENGTH]

/-- Passing the coordinates that `local_coordinates` returned never changes the answer (0 included, although 0 is
treated as "not given"). -/
theorem onLane_precomputed (l : Lane) (p : Vec2) (m : ℝ) :
    l.onLane p (some (l.localCoordinates p).1) (some (l.localCoordinates p).2) m = l.onLane p (margin := m) := by
  unfold onLane
  split <;> simp [optTruthy]

/-- The same for `after_end`. -/
theorem afterEnd_iff (l : Lane) (p : Vec2) :
    (l.afterEnd p = true ↔ l.length - 5 / 2 < (l.localCoordinates p).1) ∧
      l.afterEnd p (some (l.localCoordinates p).1) = l.afterEnd p := by
  constructor
  · simp [afterEnd, optTruthy, VEHICLE_LENGTH]
  · unfold afterEnd
    split <;> simp [optTruthy]

/-- The centre line of a straight lane between its end points is on the lane, at distance 0, and moving sideways by
more than half the width leaves it. -/
theorem onLane_straight_strip (l : Lane) (a b : Vec2) (s r : ℝ) (hl : l.shape = .straight a b) (h : a ≠ b)
    (hs : 0 ≤ s ∧ s ≤ l.length) : l.onLane (l.position s r) = true ↔ |r| ≤ l.width / 2 := by
  have := onLane_iff l (l.position s r) 0
  rw [straight_localCoordinates_position l a b s r hl h] at this
  rw [this]; simp only [add_zero]
  constructor
  · exact fun h => h.1
  · intro h; exact ⟨h, by linarith, by linarith⟩

/-- `distance` is zero exactly on the centre line of the lane between its ends, and positive elsewhere. -/
theorem distance_zero_iff (l : Lane) (p : Vec2) :
    0 ≤ l.distance p ∧ (l.distance p = 0 ↔
      (l.localCoordinates p).2 = 0 ∧ 0 ≤ (l.localCoordinates p).1 ∧ (l.localCoordinates p).1 ≤ l.length) := by
  unfold Lane.distance
  set s := (l.localCoordinates p).1
  set r := (l.localCoordinates p).2
  have h1 : 0 ≤ |r| := abs_nonneg r
  have h2 : 0 ≤ max (s - l.length) 0 := le_max_right _ _
  have h3 : 0 ≤ max (0 - s) 0 := le_max_right _ _
  refine ⟨by simp only; positivity, ?_, ?_⟩
  · intro h
    simp only at h
    have e1 : |r| = 0 := by linarith
    have e2 : max (s - l.length) 0 = 0 := by linarith
    have e3 : max (0 - s) 0 = 0 := by linarith
    exact ⟨abs_eq_zero.1 e1, by have := le_max_left (0 - s) 0; linarith, by have := le_max_left (s - l.length) 0; linarith⟩
  · rintro ⟨e1, e2, e3⟩
    show |r| + max (s - l.length) 0 + max (0 - s) 0 = 0
    rw [e1, max_eq_right (by linarith), max_eq_right (by linarith)]; simp

/-- Heading-aware distance adds the unsigned angle between the heading and the lane (at most π). -/
theorem distanceWithHeading_eq (l : Lane) (p : Vec2) (h : ℝ) :
    ∃ ang, 0 ≤ ang ∧ ang ≤ π ∧ cos ang = cos (h - l.headingAt (l.localCoordinates p).1) ∧
      l.distanceWithHeading p (some h) = l.distance p + ang := by
  refine ⟨|wrapToPi (h - l.headingAt (l.localCoordinates p).1)|, abs_nonneg _,
    abs_le.2 ⟨wrapToPi_ge _, (wrapToPi_lt _).le⟩, ?_, ?_⟩
  · rw [cos_abs, cos_wrapToPi]
  · simp [distanceWithHeading, Lane.distance]

/-! ## C20 — reachability -/

theorem forbidden_never_reachable (l : Lane) (p : Vec2) (h : l.forbidden = true) : l.isReachableFrom p = false := by
  simp [isReachableFrom, h]

theorem reachable_iff (l : Lane) (p : Vec2) :
    l.isReachableFrom p = true ↔ l.forbidden = false ∧ |(l.localCoordinates p).2| ≤ 2 * l.width ∧
      0 ≤ (l.localCoordinates p).1 ∧ (l.localCoordinates p).1 < l.length + 5 := by
  unfold isReachableFrom
  cases l.forbidden
  · simp only [Bool.false_eq_true, if_false, widthAt, VEHICLE_LENGTH, true_and]
    exact decide_eq_true_iff
  · simp

example : ∃ l : Lane, ∃ p, l.forbidden = false ∧ l.isReachableFrom p = true := by
  refine ⟨⟨.straight ⟨0, 0⟩ ⟨100, 0⟩, 4, false, 20, 0⟩, ⟨0, 0⟩, rfl, ?_⟩
  rw [reachable_iff]
  have : (0:ℝ) ≤ (Vec2.norm (⟨100, 0⟩ - ⟨0, 0⟩)) := Vec2.norm_nonneg _
  simp [localCoordinates, straightLocal, Vec2.dot, Lane.length]
  linarith

end HighwayEnv.Props
