import Mathlib.Analysis.SpecialFunctions.Sqrt
import Mathlib.Tactic.Linarith
import Mathlib.Tactic.NormNum
import Mathlib.Tactic.Positivity
import Mathlib.Tactic.LinearCombination
import Verif.Spec.Platoon

/-!
# Numerical facts about the Intelligent Driver Model with its default parameters
-/

noncomputable section
namespace HighwayEnv.Idm
open HighwayEnv HighwayEnv.Spec

/-- The desired gap with the default parameters. -/
def gap (v w : ℝ) : ℝ := 10 + v * (3 / 2) + v * (v - w) / (2 * √15)

private theorem sqrt3 : (17320 / 10000 : ℝ) ≤ √3 ∧ √3 ≤ 17321 / 10000 := by
  constructor
  · exact Real.le_sqrt_of_sq_le (by norm_num)
  · rw [Real.sqrt_le_left (by norm_num)]; norm_num

private theorem ratio : ∃ q : ℝ, 6 * √3 / (2 * √15) = q ∧ 13416 / 10000 ≤ q ∧ q ≤ 13417 / 10000 := by
  refine ⟨_, rfl, ?_⟩
  have h3 := Real.sq_sqrt (show (0 : ℝ) ≤ 3 by norm_num)
  have h15 := Real.sq_sqrt (show (0 : ℝ) ≤ 15 by norm_num)
  have p15 : 0 < √(15 : ℝ) := Real.sqrt_pos.2 (by norm_num)
  have hq : (6 * √3 / (2 * √15)) ^ 2 = 9 / 5 := by
    rw [div_pow, mul_pow, mul_pow, h3, h15]; norm_num
  have hq0 : 0 ≤ 6 * √3 / (2 * √15) := by positivity
  constructor
  · exact le_of_sq_le_sq (by rw [hq]; norm_num) hq0
  · exact le_of_sq_le_sq (by rw [hq]; norm_num) (by norm_num)
where
  le_of_sq_le_sq {a b : ℝ} (h : a ^ 2 ≤ b ^ 2) (hb : 0 ≤ b) : a ≤ b := (abs_le_of_sq_le_sq' h hb).2

private theorem leader_min {v w e : ℝ} (hv : 0 ≤ v) (hw : 0 ≤ w) (he0 : 0 ≤ e) (he9 : e ≤ 9) :
    13417 / 10000 * (v * w) - (18 - e) * (w ^ 2 / 12) ≤ (30004 / 100000 + 3335 / 100000 * e) * v ^ 2 := by
  have hP : 0 < 18 - e := by linarith
  have e1 : (18 - e) * (13417 / 10000 * (v * w) - (18 - e) * (w ^ 2 / 12)) = 3 * (13417 / 10000) ^ 2 * v ^ 2 - ((18 - e) * w - 6 * (13417 / 10000) * v) ^ 2 / 12 := by
    ring
  have hp := mul_nonneg he0 (by linarith : 0 ≤ 9 - e)
  have e2 : 3 * (13417 / 10000 : ℝ) ^ 2 ≤ (18 - e) * (30004 / 100000 + 3335 / 100000 * e) := by
    have : (18 - e) * (30004 / 100000 + 3335 / 100000 * e) = 540072 / 100000 + 11 / 100000 * e + 3335 / 100000 * (e * (9 - e)) := by ring
    rw [this]
    linarith
  have e3 := mul_le_mul_of_nonneg_right e2 (sq_nonneg v)
  have e4 := sq_nonneg ((18 - e) * w - 6 * (13417 / 10000) * v)
  refine le_of_mul_le_mul_left ?_ hP
  rw [e1, ← mul_assoc]
  linarith

/-- If the model does not brake at 6 m/s² or more, the gap is large enough for the next state. -/
theorem threshold {dt v w d c : ℝ} (h0 : 0 < dt) (h1 : dt ≤ 1 / 10) (hv : 0 ≤ v) (hv' : v ≤ 30) (hw : 0 ≤ w) (hc : -6 ≤ c) (hc' : c ≤ 3)
    (hd : 5 < d) (h : 3 * gap v w ^ 2 ≤ (3 - c) * d ^ 2) :
    5 + v * dt + ((v + c * dt) ^ 2 / 12 + (v + c * dt) * dt) - (w ^ 2 / 12 + w * dt / 2) < d := by
  obtain ⟨s1, s2⟩ := sqrt3
  obtain ⟨q, hq, q1, q2⟩ := ratio
  have key : 6 * √3 * gap v w ≤ (12 - c) * d := by
    rcases le_or_gt (gap v w) 0 with hg | hg
    · have : 6 * √3 * gap v w ≤ 0 := mul_nonpos_of_nonneg_of_nonpos (by positivity) hg
      have : 0 ≤ (12 - c) * d := mul_nonneg (by linarith) (by linarith)
      linarith
    · have h3 := Real.sq_sqrt (show (0 : ℝ) ≤ 3 by norm_num)
      have e : (6 * √3 * gap v w) ^ 2 ≤ ((12 - c) * d) ^ 2 := by
        have : (6 * √3 * gap v w) ^ 2 = 108 * gap v w ^ 2 := by
          rw [mul_pow, mul_pow, h3]; ring
        rw [this]
        nlinarith [mul_nonneg (sq_nonneg (c + 6)) (sq_nonneg d)]
      exact (abs_le_of_sq_le_sq' e (mul_nonneg (by linarith) (by linarith))).2
  have hk : 6 * √3 * gap v w = 60 * √3 + 9 * √3 * v + q * (v * (v - w)) := by
    unfold gap; rw [← hq]; ring
  rw [hk] at key
  by_contra hcon
  push Not at hcon
  set e := c + 6 with he
  have hce : c = e - 6 := by rw [he]; ring
  have he0 : 0 ≤ e := by linarith
  have he9 : e ≤ 9 := by linarith
  -- the bound on the next state
  have hR : 5 + v * dt + ((v + c * dt) ^ 2 / 12 + (v + c * dt) * dt) - (w ^ 2 / 12 + w * dt / 2) ≤
      506 / 100 + v ^ 2 / 12 + v * e / 60 + v / 10 - w ^ 2 / 12 := by
    have a1 : v * e * dt ≤ v * e * (1 / 10) := mul_le_mul_of_nonneg_left h1 (mul_nonneg hv he0)
    have a2 : v * dt ≤ v * (1 / 10) := mul_le_mul_of_nonneg_left h1 hv
    have a3 : c ^ 2 * dt ^ 2 ≤ 36 * (1 / 100) := by
      have : c ^ 2 ≤ 36 := by nlinarith
      have : dt ^ 2 ≤ 1 / 100 := by nlinarith
      exact mul_le_mul ‹c ^ 2 ≤ 36› this (by positivity) (by norm_num)
    have a4 : c * dt ^ 2 ≤ 3 * (1 / 100) := by
      have : dt ^ 2 ≤ 1 / 100 := by nlinarith
      nlinarith [sq_nonneg dt]
    have a5 : 0 ≤ w * dt := mul_nonneg hw h0.le
    have id : (v + c * dt) ^ 2 / 12 = v ^ 2 / 12 + v * c * dt / 6 + c ^ 2 * dt ^ 2 / 12 := by ring
    have id2 : v * c * dt / 6 = v * e * dt / 6 - v * dt := by rw [hce]; ring
    rw [id, id2]
    linarith
  have hPd : (12 - c) * d ≤ (18 - e) * (506 / 100 + v ^ 2 / 12 + v * e / 60 + v / 10 - w ^ 2 / 12) := by
    have : 12 - c = 18 - e := by rw [hce]; ring
    rw [this]
    exact mul_le_mul_of_nonneg_left (hcon.trans hR) (by linarith)
  have low : 1039 / 10 + 1558 / 100 * v + 13416 / 10000 * v ^ 2 - 13417 / 10000 * (v * w) ≤ 60 * √3 + 9 * √3 * v + q * (v * (v - w)) := by
    have b1 : 9 * (17320 / 10000) * v ≤ 9 * √3 * v := mul_le_mul_of_nonneg_right (by linarith) hv
    have b2 : 13416 / 10000 * v ^ 2 ≤ q * v ^ 2 := mul_le_mul_of_nonneg_right q1 (sq_nonneg v)
    have b3 : q * (v * w) ≤ 13417 / 10000 * (v * w) := mul_le_mul_of_nonneg_right q2 (mul_nonneg hv hw)
    linarith
  have tot := low.trans (key.trans hPd)
  -- minimise over w
  have hwmin := leader_min hv hw he0 he9
  have hve : 0 ≤ v * e ^ 2 := mul_nonneg hv (sq_nonneg e)
  have hvv := mul_nonneg hv (sub_nonneg.2 hv')
  have hB : 0 ≤ e * (506 / 100 - 1 / 5 * v + (1 / 12 - 3335 / 100000) * v ^ 2) :=
    mul_nonneg he0 (by nlinarith only [sq_nonneg (v - 2)])
  linarith

/-- One step of a vehicle that follows the model behind a vehicle that neither reverses nor brakes more than 6 m/s². -/
theorem keeps_distance {dt v w d a w' : ℝ} (h0 : 0 < dt) (h1 : dt ≤ 1 / 10) (hv' : v ≤ 30) (hw : 0 ≤ w) (hw' : 0 ≤ w') (hb : w - 6 * dt ≤ w')
    (hd : safeDistance dt v w < d) (ha : a ≤ 3 * (1 - (gap v w / d) ^ 2)) :
    safeDistance dt (v + npClip a (-6) 6 * dt) w' < d - (v - w) * dt := by
  set c := npClip a (-6) 6 with hc
  have hc6 : -6 ≤ c := by rw [hc]; unfold npClip; exact le_min (le_max_right _ _) (by norm_num)
  have hca : c = -6 ∨ c ≤ a := by
    rw [hc]; unfold npClip
    rcases le_total a (-6) with h | h
    · left; rw [max_eq_right h]; norm_num
    · right; rw [max_eq_left h]; exact min_le_left _ _
  unfold safeDistance at hd ⊢
  have hd5 : 5 < d := lt_of_le_of_lt (le_add_of_nonneg_right (le_max_left _ _)) hd
  have hd2 : 5 + (max v 0 ^ 2 / 12 + max v 0 * dt - (w ^ 2 / 12 + w * dt / 2)) < d :=
    lt_of_le_of_lt (add_le_add_right (le_max_right _ _) _) hd
  -- what the leader can do
  have hlead : w ^ 2 / 12 + w * dt / 2 - w * dt ≤ w' ^ 2 / 12 + w' * dt / 2 := by
    rcases le_total (w - 6 * dt) 0 with h | h
    · have : w ^ 2 / 12 - w * dt / 2 ≤ 0 := by nlinarith
      have : 0 ≤ w' ^ 2 / 12 + w' * dt / 2 := by positivity
      linarith
    · have e1 : (w - 6 * dt) ^ 2 ≤ w' ^ 2 := pow_le_pow_left₀ h hb 2
      have e2 : (w - 6 * dt) * dt ≤ w' * dt := mul_le_mul_of_nonneg_right hb h0.le
      nlinarith
  have hx : 5 < d - (v - w) * dt := by
    rcases le_total v w with h | h
    · have := mul_nonneg (sub_nonneg.2 h) h0.le
      linarith
    · have hv : 0 ≤ v := hw.trans h
      rw [max_eq_left hv] at hd2
      have e1 : w ^ 2 ≤ v ^ 2 := pow_le_pow_left₀ hw h 2
      have e2 := mul_nonneg hw h0.le
      linarith
  -- the model
  have hg : c ≠ -6 → c ≤ 3 ∧ 3 * gap v w ^ 2 ≤ (3 - c) * d ^ 2 := by
    intro hne
    have h := (hca.resolve_left hne).trans ha
    have hq := sq_nonneg (gap v w / d)
    refine ⟨by linarith, ?_⟩
    have hdd : (gap v w / d) ^ 2 * d ^ 2 = gap v w ^ 2 := by
      rw [div_pow, div_mul_cancel₀]; positivity
    nlinarith [mul_le_mul_of_nonneg_right h (sq_nonneg d)]
  suffices hs : 5 + (max (v + c * dt) 0 ^ 2 / 12 + max (v + c * dt) 0 * dt - (w' ^ 2 / 12 + w' * dt / 2)) < d - (v - w) * dt by
    rcases le_total 0 (max (v + c * dt) 0 ^ 2 / 12 + max (v + c * dt) 0 * dt - (w' ^ 2 / 12 + w' * dt / 2)) with h | h
    · rw [max_eq_right h]; exact hs
    · rw [max_eq_left h]; linarith
  rcases le_total (v + c * dt) 0 with hu | hu
  · rw [max_eq_right hu]
    have : 0 ≤ w' ^ 2 / 12 + w' * dt / 2 := by positivity
    linarith
  rw [max_eq_left hu]
  rcases le_or_gt 0 v with hv | hv
  · rw [max_eq_left hv] at hd2
    by_cases hne : c = -6
    · rw [hne]
      have : (v + -6 * dt) ^ 2 / 12 + (v + -6 * dt) * dt = v ^ 2 / 12 - 3 * dt ^ 2 := by ring
      rw [this]
      have := sq_nonneg dt
      linarith
    · obtain ⟨c1, c2⟩ := hg hne
      have := threshold h0 h1 hv hv' hw hc6 c1 hd5 c2
      linarith
  · -- the vehicle was driving backwards
    have hc0 : 0 < c := by
      by_contra hcon
      push Not at hcon
      nlinarith
    obtain ⟨c1, c2⟩ := hg (by intro h; rw [h] at hc0; norm_num at hc0)
    have hv3 : -(3 * dt) ≤ v := by nlinarith
    have hgap : 10 - 9 / 2 * dt ≤ gap v w := by
      unfold gap
      have : 0 ≤ v * (v - w) / (2 * √15) := div_nonneg (mul_nonneg_of_nonpos_of_nonpos hv.le (by linarith)) (by positivity)
      linarith
    have hdg : gap v w ≤ d := by
      have h1 : 0 ≤ gap v w := by linarith
      have : gap v w ^ 2 ≤ d ^ 2 := by nlinarith [mul_nonneg hc0.le (sq_nonneg d)]
      exact (abs_le_of_sq_le_sq' this (by linarith)).2
    have hu3 : v + c * dt ≤ 3 / 10 := by nlinarith
    have e1 : (v + c * dt) ^ 2 ≤ (3 / 10) ^ 2 := pow_le_pow_left₀ hu hu3 2
    have e2 : (v + c * dt) * dt ≤ 3 / 10 * (1 / 10) := mul_le_mul hu3 h1 h0.le (by norm_num)
    have : 0 ≤ w' ^ 2 / 12 + w' * dt / 2 := by positivity
    have : 0 ≤ (w - v) * dt := mul_nonneg (by linarith) h0.le
    linarith

end HighwayEnv.Idm
