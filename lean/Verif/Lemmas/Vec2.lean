import Verif.Model.Py
import Mathlib.Tactic.Linarith
import Mathlib.Tactic.Positivity
import Mathlib.Tactic.FieldSimp
import Mathlib.Tactic.LinearCombination

/-! Helper lemmas on 2-vectors. -/

noncomputable section
namespace HighwayEnv.Vec2

def toC (v : Vec2) : ℂ := ⟨v.x, v.y⟩

theorem norm_eq_toC (v : Vec2) : v.norm = ‖v.toC‖ := by
  rw [Complex.norm_def, Complex.normSq_apply]; unfold Vec2.norm toC; congr 1; ring

theorem norm_nonneg (v : Vec2) : 0 ≤ v.norm := Real.sqrt_nonneg _

theorem norm_sq (v : Vec2) : v.norm ^ 2 = v.x ^ 2 + v.y ^ 2 := Real.sq_sqrt (by positivity)

theorem norm_add_le (a b : Vec2) : (a + b).norm ≤ a.norm + b.norm := by
  simp only [norm_eq_toC]
  have : (a + b).toC = a.toC + b.toC := by apply Complex.ext <;> simp [toC]
  rw [this]; exact _root_.norm_add_le _ _

theorem norm_sub_comm (a b : Vec2) : (a - b).norm = (b - a).norm := by
  unfold norm; congr 1; simp only [sub_x, sub_y]; ring

theorem norm_smul (k : ℝ) (a : Vec2) : (k • a).norm = |k| * a.norm := by
  unfold norm; simp only [smul_x, smul_y]
  rw [show (k * a.x) ^ 2 + (k * a.y) ^ 2 = k ^ 2 * (a.x ^ 2 + a.y ^ 2) by ring,
    Real.sqrt_mul (sq_nonneg k), Real.sqrt_sq_eq_abs]

theorem norm_dir (h : ℝ) : (dir h).norm = 1 := by
  unfold norm dir; simp only [Real.cos_sq_add_sin_sq, Real.sqrt_one]

theorem norm_rot (a : ℝ) (v : Vec2) : (rot a v).norm = v.norm := by
  unfold norm rot; congr 1
  have := Real.sin_sq_add_cos_sq a
  linear_combination (v.x ^ 2 + v.y ^ 2) * this

theorem norm_le_of_sq {v : Vec2} {r : ℝ} (hr : 0 ≤ r) (h : v.x ^ 2 + v.y ^ 2 ≤ r ^ 2) : v.norm ≤ r := by
  unfold norm; rw [← Real.sqrt_sq hr]; exact Real.sqrt_le_sqrt h

theorem norm_eq_zero {v : Vec2} : v.norm = 0 ↔ v = 0 := by
  unfold norm
  rw [Real.sqrt_eq_zero (by positivity)]
  constructor
  · intro h; ext <;> simp <;> nlinarith [sq_nonneg v.x, sq_nonneg v.y]
  · rintro rfl; simp

end HighwayEnv.Vec2
