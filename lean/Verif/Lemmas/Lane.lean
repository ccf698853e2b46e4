import Verif.Model.Lane
import Verif.Lemmas.Utils
import Mathlib.Analysis.SpecialFunctions.Trigonometric.Deriv

/-! Helper lemmas on lanes. -/

noncomputable section
open Real
namespace HighwayEnv.Lane

theorem circDir_mul (cw : Bool) : circDir cw * circDir cw = 1 := by cases cw <;> norm_num [circDir]
theorem circDir_ne (cw : Bool) : circDir cw ≠ 0 := by cases cw <;> norm_num [circDir]

theorem norm_pos_of_ne {a b : Vec2} (h : a ≠ b) : 0 < (b - a).norm := by
  rcases (Vec2.norm_nonneg (b - a)).lt_or_eq with h1 | h1
  · exact h1
  · exfalso; apply h
    have := Vec2.norm_eq_zero.1 h1.symm
    have hx := congrArg Vec2.x this; have hy := congrArg Vec2.y this
    simp at hx hy
    ext <;> linarith

theorem straightDir_sq {a b : Vec2} (h : a ≠ b) : (straightDir a b).x ^ 2 + (straightDir a b).y ^ 2 = 1 := by
  have hp := norm_pos_of_ne h
  have hs := Vec2.norm_sq (b - a)
  simp only [straightDir, Vec2.sub_x, Vec2.sub_y] at *
  rw [div_pow, div_pow, ← add_div, ← hs, div_self (by positivity)]

theorem straightDir_eq_dir {a b : Vec2} (h : a ≠ b) : straightDir a b = Vec2.dir (straightHeading a b) := by
  have hp := norm_pos_of_ne h
  have hz : (⟨b.x - a.x, b.y - a.y⟩ : ℂ) ≠ 0 := by
    intro hc; apply h
    have h1 := congrArg Complex.re hc; have h2 := congrArg Complex.im hc
    simp at h1 h2
    ext <;> linarith
  have hn : (b - a).norm = ‖(⟨b.x - a.x, b.y - a.y⟩ : ℂ)‖ := by rw [Vec2.norm_eq_toC]; rfl
  unfold straightDir straightHeading arctan2 Vec2.dir
  ext <;> simp only
  · rw [Complex.cos_arg hz, hn]
  · rw [Complex.sin_arg, hn]

theorem straight_pos_local {a b : Vec2} (h : a ≠ b) (p : Vec2) :
    straightPosition a b (straightLocal a b p).1 (straightLocal a b p).2 = p := by
  have hd := straightDir_sq h
  unfold straightPosition straightLocal Vec2.dot
  ext <;> simp only [Vec2.sub_x, Vec2.sub_y]
  · linear_combination (p.x - a.x) * hd
  · linear_combination (p.y - a.y) * hd

theorem straight_local_pos {a b : Vec2} (h : a ≠ b) (s r : ℝ) :
    straightLocal a b (straightPosition a b s r) = (s, r) := by
  have hd := straightDir_sq h
  unfold straightPosition straightLocal Vec2.dot
  ext <;> simp only [Vec2.sub_x, Vec2.sub_y]
  · linear_combination s * hd
  · linear_combination r * hd

theorem norm_dir_arg (v : Vec2) : v.norm • Vec2.dir (arctan2 v.y v.x) = v := by
  have e : v.norm = ‖(⟨v.x, v.y⟩ : ℂ)‖ := Vec2.norm_eq_toC v
  unfold arctan2 Vec2.dir
  rw [e]
  ext <;> simp only [Vec2.smul_x, Vec2.smul_y]
  · exact Complex.norm_mul_cos_arg _
  · exact Complex.norm_mul_sin_arg _

theorem arctan2_polar {r phi : ℝ} (hr : 0 < r) : ∃ k : ℤ, arctan2 (r * sin phi) (r * cos phi) = phi + 2 * π * k := by
  have hz : (⟨r * cos phi, r * sin phi⟩ : ℂ) = (r : ℂ) * (Complex.cos phi + Complex.sin phi * Complex.I) := by
    apply Complex.ext <;> simp [← Complex.ofReal_cos, ← Complex.ofReal_sin]
  unfold arctan2
  rw [hz, Complex.arg_mul_cos_add_sin_mul_I_eq_toIocMod hr]
  refine ⟨-toIocDiv two_pi_pos (-π) phi, ?_⟩
  have h := toIocMod_add_toIocDiv_zsmul Real.two_pi_pos (-π) phi
  rw [zsmul_eq_mul] at h
  push_cast
  linear_combination h

theorem dir_congr {x y : ℝ} (k : ℤ) (h : x = y + 2 * π * k) : Vec2.dir x = Vec2.dir y := by
  subst h
  unfold Vec2.dir
  rw [show y + 2 * π * k = y + k * (2 * π) by ring, cos_add_int_mul_two_pi, sin_add_int_mul_two_pi]

theorem dir_wrap (p0 x : ℝ) : Vec2.dir (p0 + wrapToPi (x - p0)) = Vec2.dir x := by
  apply dir_congr (-⌊(x - p0 + π) / (2 * π)⌋)
  rw [wrapToPi_eq]; push_cast; ring

end HighwayEnv.Lane
