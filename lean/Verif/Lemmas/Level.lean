import Verif.Spec.TwoWay
import Verif.Lemmas.Place

/-! Geometry of lanes along the x axis. -/

noncomputable section
namespace HighwayEnv
open Spec Graph

private theorem sqrt_len {x0 x1 : ℝ} (h : x0 < x1) : √((x1 - x0) ^ 2 + (0 : ℝ) ^ 2) = x1 - x0 := by
  rw [zero_pow (by norm_num), add_zero, Real.sqrt_sq (by linarith)]

theorem level_dir {x0 x1 : ℝ} (y : ℝ) (h : x0 < x1) : Lane.straightDir ⟨x0, y⟩ ⟨x1, y⟩ = ⟨1, 0⟩ := by
  have hne : x1 - x0 ≠ 0 := by linarith
  unfold Lane.straightDir Vec2.norm
  simp only [Vec2.sub_x, Vec2.sub_y, sub_self]
  rw [sqrt_len h, div_self hne, zero_div]

theorem level_local {x0 x1 y : ℝ} {f : Bool} (h : x0 < x1) (p : Vec2) : (levelLane x0 x1 y f).localCoordinates p = (p.x - x0, p.y - y) := by
  simp only [levelLane, Lane.localCoordinates, Lane.straightLocal, level_dir y h, Vec2.dot, Vec2.sub_x, Vec2.sub_y]
  ext <;> simp

theorem level_length {x0 x1 y : ℝ} {f : Bool} (h : x0 < x1) : (levelLane x0 x1 y f).length = x1 - x0 := by
  simp only [levelLane, Lane.length, Vec2.norm, Vec2.sub_x, Vec2.sub_y, sub_self]
  exact sqrt_len h

theorem level_position {x0 x1 y : ℝ} {f : Bool} (h : x0 < x1) (s r : ℝ) : (levelLane x0 x1 y f).position s r = ⟨x0 + s, y + r⟩ := by
  simp only [levelLane, Lane.position, Lane.straightPosition, level_dir y h]
  ext <;> simp

theorem level_heading {x0 x1 y : ℝ} {f : Bool} (h : x0 < x1) (s : ℝ) : (levelLane x0 x1 y f).headingAt s = 0 := by
  simp only [levelLane, Lane.headingAt, Lane.straightHeading, arctan2, sub_self]
  have : (⟨x1 - x0, 0⟩ : ℂ) = ((x1 - x0 : ℝ) : ℂ) := rfl
  rw [this]
  exact Complex.arg_ofReal_of_nonneg (by linarith)

theorem wrap_zero : wrapToPi 0 = 0 := by
  unfold wrapToPi pyMod
  have hp := Real.pi_pos
  have : (0 + Real.pi) / (2 * Real.pi) = 1 / 2 := by field_simp; ring
  rw [this]
  norm_num

/-- A point on the lane is at distance 0 when heading along it. -/
theorem level_on {x0 x1 y : ℝ} {f : Bool} (h : x0 < x1) {x : ℝ} (h0 : x0 ≤ x) (h1 : x ≤ x1) :
    (levelLane x0 x1 y f).distanceWithHeading ⟨x, y⟩ (some 0) = 0 := by
  simp only [Lane.distanceWithHeading, level_local h, level_length h, level_heading h, sub_self, abs_zero, wrap_zero]
  rw [max_eq_right (by linarith), max_eq_right (by linarith)]
  norm_num

/-- Points at distance 0 are on the lane. -/
theorem level_near {x0 x1 y : ℝ} {f : Bool} (h : x0 < x1) {p : Vec2} {t : ℝ}
    (hd : (levelLane x0 x1 y f).distanceWithHeading p (some t) ≤ 0) : x0 ≤ p.x ∧ p.x ≤ x1 ∧ p.y = y := by
  simp only [Lane.distanceWithHeading, level_local h, level_length h, level_heading h, one_mul] at hd
  have a1 := abs_nonneg (p.y - y)
  have a2 := abs_nonneg (wrapToPi (t - 0))
  have a3 := le_max_right (p.x - x0 - (x1 - x0)) 0
  have a4 := le_max_right (0 - (p.x - x0)) 0
  have b3 := le_max_left (p.x - x0 - (x1 - x0)) 0
  have b4 := le_max_left (0 - (p.x - x0)) 0
  refine ⟨by linarith, by linarith, ?_⟩
  have : |p.y - y| = 0 := by linarith
  rw [abs_eq_zero] at this
  linarith

/-- The distance to a level lane. -/
theorem level_distance {x0 x1 y : ℝ} {f : Bool} (h : x0 < x1) (p : Vec2) (t : ℝ) :
    (levelLane x0 x1 y f).distanceWithHeading p (some t) = |p.y - y| + max (p.x - x1) 0 + max (x0 - p.x) 0 + |wrapToPi t| := by
  simp only [Lane.distanceWithHeading, level_local h, level_length h, level_heading h, one_mul, sub_zero]
  rw [show p.x - x0 - (x1 - x0) = p.x - x1 by ring, show 0 - (p.x - x0) = x0 - p.x by ring]

theorem back_dir {x0 x1 : ℝ} (y : ℝ) (h : x0 < x1) : Lane.straightDir ⟨x1, y⟩ ⟨x0, y⟩ = ⟨-1, 0⟩ := by
  have hne : x1 - x0 ≠ 0 := by linarith
  unfold Lane.straightDir Vec2.norm
  simp only [Vec2.sub_x, Vec2.sub_y, sub_self]
  rw [show (x0 - x1) ^ 2 = (x1 - x0) ^ 2 by ring, sqrt_len h, zero_div, show x0 - x1 = -(x1 - x0) by ring, neg_div, div_self hne]

theorem back_local {x0 x1 y : ℝ} (h : x0 < x1) (p : Vec2) : (backLane x0 x1 y).localCoordinates p = (x1 - p.x, y - p.y) := by
  simp only [backLane, Lane.localCoordinates, Lane.straightLocal, back_dir y h, Vec2.dot, Vec2.sub_x, Vec2.sub_y]
  ext <;> simp

theorem back_length {x0 x1 y : ℝ} (h : x0 < x1) : (backLane x0 x1 y).length = x1 - x0 := by
  simp only [backLane, Lane.length, Vec2.norm, Vec2.sub_x, Vec2.sub_y, sub_self]
  rw [show (x0 - x1) ^ 2 = (x1 - x0) ^ 2 by ring, sqrt_len h]

theorem back_position {x0 x1 y : ℝ} (h : x0 < x1) (s r : ℝ) : (backLane x0 x1 y).position s r = ⟨x1 - s, y - r⟩ := by
  simp only [backLane, Lane.position, Lane.straightPosition, back_dir y h]
  ext <;> simp <;> ring

theorem back_heading {x0 x1 y : ℝ} (h : x0 < x1) (s : ℝ) : (backLane x0 x1 y).headingAt s = Real.pi := by
  simp only [backLane, Lane.headingAt, Lane.straightHeading, arctan2, sub_self]
  have : (⟨x0 - x1, 0⟩ : ℂ) = ((x0 - x1 : ℝ) : ℂ) := rfl
  rw [this]
  exact Complex.arg_ofReal_of_neg (by linarith)

/-- The distance to a lane in the other direction. -/
theorem back_distance {x0 x1 y : ℝ} (h : x0 < x1) (p : Vec2) (t : ℝ) :
    (backLane x0 x1 y).distanceWithHeading p (some t) = |p.y - y| + max (p.x - x1) 0 + max (x0 - p.x) 0 + |wrapToPi (t - Real.pi)| := by
  simp only [Lane.distanceWithHeading, back_local h, back_length h, back_heading h, one_mul]
  rw [abs_sub_comm y p.y, show x1 - p.x - (x1 - x0) = x0 - p.x by ring, show 0 - (x1 - p.x) = p.x - x1 by ring]
  ring

theorem wrap_pi : |wrapToPi Real.pi| = Real.pi := by
  have hp := Real.pi_pos
  unfold wrapToPi pyMod
  have : (Real.pi + Real.pi) / (2 * Real.pi) = 1 := by field_simp; ring
  rw [this, Int.floor_one, Int.cast_one]
  rw [show Real.pi + Real.pi - 2 * Real.pi * 1 - Real.pi = -Real.pi by ring, abs_neg, abs_of_pos hp]

theorem wrap_neg_pi : |wrapToPi (-Real.pi)| = Real.pi := by
  have hp := Real.pi_pos
  unfold wrapToPi pyMod
  simp [abs_of_pos hp]

end HighwayEnv
