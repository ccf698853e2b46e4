import Verif.Model.Py
import Mathlib.Tactic.Linarith
import Mathlib.Tactic.Positivity

/-! Helper lemmas on `npClip`, `pyMod`, `pyInt`, `npRound`. -/

noncomputable section
namespace HighwayEnv

theorem npClip_le {x a b : ℝ} : npClip x a b ≤ b := min_le_right _ _
theorem le_npClip {x a b : ℝ} (h : a ≤ b) : a ≤ npClip x a b := le_min (le_max_right _ _) h
theorem npClip_mem {x a b : ℝ} (h : a ≤ b) : npClip x a b ∈ Set.Icc a b := ⟨le_npClip h, npClip_le⟩
theorem npClip_of_mem {x a b : ℝ} (h1 : a ≤ x) (h2 : x ≤ b) : npClip x a b = x := by
  unfold npClip; rw [max_eq_left h1, min_eq_left h2]
theorem npClip_mono {x y a b : ℝ} (h : x ≤ y) : npClip x a b ≤ npClip y a b :=
  min_le_min_right _ (max_le_max_right _ h)
theorem abs_npClip {x b : ℝ} (h : 0 ≤ b) : |npClip x (-b) b| ≤ b :=
  abs_le.2 ⟨le_npClip (by linarith), npClip_le⟩
theorem npClip_of_le {x a b : ℝ} (h : x ≤ a) (hab : a ≤ b) : npClip x a b = a := by
  unfold npClip; rw [max_eq_right h, min_eq_left hab]
theorem npClip_of_ge {x a b : ℝ} (h : b ≤ x) : npClip x a b = b := by
  unfold npClip; exact min_eq_right (h.trans (le_max_left _ _))

theorem npClipInt_le {x a b : Int} : npClipInt x a b ≤ b := min_le_right _ _
theorem le_npClipInt {x a b : Int} (h : a ≤ b) : a ≤ npClipInt x a b := le_min (le_max_right _ _) h

theorem pyMod_nonneg {x y : ℝ} (hy : 0 < y) : 0 ≤ pyMod x y := by
  unfold pyMod
  have h := Int.floor_le (x / y)
  rw [le_div_iff₀ hy] at h; linarith

theorem pyMod_lt {x y : ℝ} (hy : 0 < y) : pyMod x y < y := by
  unfold pyMod
  have h := Int.lt_floor_add_one (x / y)
  rw [div_lt_iff₀ hy] at h; linarith

theorem minAbs_abs_le_left (a b : ℝ) : |minAbs a b| ≤ |a| := by
  unfold minAbs; split <;> [exact le_of_lt ‹_›; exact le_rfl]
theorem minAbs_abs_le_right (a b : ℝ) : |minAbs a b| ≤ |b| := by
  unfold minAbs; split <;> [exact le_rfl; exact not_lt.1 ‹_›]
theorem minAbs_zero (a : ℝ) : minAbs a 0 = 0 := by
  unfold minAbs; split
  · rfl
  · simp only [abs_zero, abs_pos, ne_eq, not_not] at *; assumption

theorem npRound_near (x : ℝ) : |x - npRound x| ≤ 1 / 2 := by
  have h1 := Int.floor_le x
  have h2 := Int.lt_floor_add_one x
  unfold npRound
  split_ifs <;> push_cast <;> rw [abs_le] <;> constructor <;> linarith

theorem npRound_int (k : Int) : npRound (k : ℝ) = k := by
  unfold npRound
  simp

end HighwayEnv
