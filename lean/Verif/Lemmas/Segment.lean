import Verif.Lemmas.Lane

/-! Geometry of straight and sine lanes given by their unit direction. -/

noncomputable section
namespace HighwayEnv
open Spec

/-- `b` is `n` metres after `a` in the direction of the unit vector `u`. -/
structure Along (a b u : Vec2) (n : ℝ) : Prop where
  x : b.x = a.x + n * u.x
  y : b.y = a.y + n * u.y
  unit : u.x ^ 2 + u.y ^ 2 = 1
  pos : 0 < n

namespace Along
variable {a b u : Vec2} {n : ℝ}

theorem norm (h : Along a b u n) : (b - a).norm = n := by
  unfold Vec2.norm
  have : (b - a).x ^ 2 + (b - a).y ^ 2 = n ^ 2 := by
    simp only [Vec2.sub_x, Vec2.sub_y, h.x, h.y]
    have := h.unit
    linear_combination n ^ 2 * this
  rw [this, Real.sqrt_sq h.pos.le]

theorem dir (h : Along a b u n) : Lane.straightDir a b = u := by
  have hn := h.pos.ne'
  unfold Lane.straightDir
  rw [h.norm, h.x, h.y]
  ext <;> simp only <;> field_simp <;> ring

theorem heading (h : Along a b u n) : Lane.straightHeading a b = arctan2 u.y u.x := by
  unfold Lane.straightHeading arctan2
  have : (⟨b.x - a.x, b.y - a.y⟩ : ℂ) = (n : ℂ) * ⟨u.x, u.y⟩ := by
    rw [h.x, h.y]
    apply Complex.ext <;> simp
  rw [this, Complex.arg_real_mul _ h.pos]

theorem straightPosition (h : Along a b u n) (s r : ℝ) : Lane.straightPosition a b s r = ⟨a.x + s * u.x - r * u.y, a.y + s * u.y + r * u.x⟩ := by
  simp only [Lane.straightPosition, h.dir]
  ext <;> simp only <;> ring

theorem straightLocal (h : Along a b u n) (p : Vec2) :
    Lane.straightLocal a b p = ((p.x - a.x) * u.x + (p.y - a.y) * u.y, (p.y - a.y) * u.x - (p.x - a.x) * u.y) := by
  simp only [Lane.straightLocal, h.dir, Vec2.dot, Vec2.sub_x, Vec2.sub_y]
  ext <;> simp only <;> ring

end Along

theorem arctan2_east : arctan2 0 1 = 0 := Complex.arg_one
theorem arctan2_north : arctan2 1 0 = Real.pi / 2 := Complex.arg_I
theorem arctan2_south : arctan2 (-1) 0 = -(Real.pi / 2) := by
  unfold arctan2
  have : (⟨0, -1⟩ : ℂ) = -Complex.I := by apply Complex.ext <;> simp
  rw [this, Complex.arg_neg_I]
theorem arctan2_west : arctan2 0 (-1) = Real.pi := by
  unfold arctan2
  have : (⟨-1, 0⟩ : ℂ) = -1 := by apply Complex.ext <;> simp
  rw [this, Complex.arg_neg_one]

/-- A pose at distance 0 of a lane is on its centre line, between its ends. -/
theorem Lane.near_zero {l : Lane} {p : Vec2} {t : ℝ} (h : l.distanceWithHeading p (some t) ≤ 0) :
    (l.localCoordinates p).2 = 0 ∧ 0 ≤ (l.localCoordinates p).1 ∧ (l.localCoordinates p).1 ≤ l.length := by
  simp only [Lane.distanceWithHeading, one_mul] at h
  have a1 := abs_nonneg (l.localCoordinates p).2
  have a2 := abs_nonneg (wrapToPi (t - l.headingAt (l.localCoordinates p).1))
  have a3 := le_max_right ((l.localCoordinates p).1 - l.length) 0
  have a4 := le_max_right (0 - (l.localCoordinates p).1) 0
  have b3 := le_max_left ((l.localCoordinates p).1 - l.length) 0
  have b4 := le_max_left (0 - (l.localCoordinates p).1) 0
  refine ⟨abs_eq_zero.1 (by linarith), by linarith, by linarith⟩

end HighwayEnv
