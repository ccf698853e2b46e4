import Verif.Model.Controller
import Mathlib.Analysis.SpecialFunctions.Trigonometric.Bounds
import Mathlib.Analysis.SpecialFunctions.Trigonometric.Arctan
import Mathlib.Analysis.Real.Pi.Bounds
import Mathlib.Tactic.Linarith
import Mathlib.Tactic.NormNum
import Mathlib.Tactic.Ring

/-! One step of the closed lateral loop decreases a quadratic form of lateral offset and heading. -/

noncomputable section
open Real

namespace HighwayEnv.Lateral

/-- The quadratic form: `x` is the lateral offset times 5/3 over the speed, `p` the heading relative to the lane. -/
def form (x p : ℝ) : ℝ := 9 / 5 * x ^ 2 + 6 / 5 * (x * p) + p ^ 2

theorem form_nonneg (x p : ℝ) : 0 ≤ form x p := by
  unfold form
  nlinarith [sq_nonneg (p + 3 / 5 * x), sq_nonneg x]

theorem form_x (x p : ℝ) : 36 / 25 * x ^ 2 ≤ form x p := by
  unfold form
  nlinarith [sq_nonneg (p + 3 / 5 * x)]

theorem form_p (x p : ℝ) : 4 / 5 * p ^ 2 ≤ form x p := by
  unfold form
  nlinarith [sq_nonneg (3 * x + p)]

/-- What must be nonpositive (at `dt = 1/10`) for the form to decrease by the factor `1 - dt`. -/
private def excess (x p u w : ℝ) : ℝ :=
  2 * ((9 / 5 * x + 3 / 5 * p) * u) + 2 * ((3 / 5 * x + p) * w) + 1 / 10 * form u w + form x p

private theorem excess_convex (x p u0 w0 u1 w1 s : ℝ) (h0 : 0 ≤ s) (h1 : s ≤ 1) (e0 : excess x p u0 w0 ≤ 0) (e1 : excess x p u1 w1 ≤ 0) :
    excess x p (u0 + s * (u1 - u0)) (w0 + s * (w1 - w0)) ≤ 0 := by
  have hf := form_nonneg (u1 - u0) (w1 - w0)
  have key : excess x p (u0 + s * (u1 - u0)) (w0 + s * (w1 - w0)) =
      (1 - s) * excess x p u0 w0 + s * excess x p u1 w1 - 1 / 10 * (s * (1 - s)) * form (u1 - u0) (w1 - w0) := by
    unfold excess form
    ring
  rw [key]
  have a : (1 - s) * excess x p u0 w0 ≤ 0 := mul_nonpos_of_nonneg_of_nonpos (by linarith) e0
  have b : s * excess x p u1 w1 ≤ 0 := mul_nonpos_of_nonneg_of_nonpos h0 e1
  have c : 0 ≤ 1 / 10 * (s * (1 - s)) * form (u1 - u0) (w1 - w0) :=
    mul_nonneg (mul_nonneg (by norm_num) (mul_nonneg h0 (by linarith))) hf
  linarith

/-- The rates at given gains: `g` of the heading reference, `k` of the yaw rate, `t` of the slip angle, `q` of the sine. -/
private def U (x p g t q : ℝ) : ℝ := 5 / 3 * q * (p + t * (-(g * x) - p))
private def W (x p g k : ℝ) : ℝ := 5 * k * (-(g * x) - p)

private theorem param {lo hi z : ℝ} (h0 : lo < hi) (h1 : lo ≤ z) (h2 : z ≤ hi) : ∃ s, 0 ≤ s ∧ s ≤ 1 ∧ z = lo + s * (hi - lo) := by
  refine ⟨(z - lo) / (hi - lo), div_nonneg (by linarith) (by linarith), ?_, ?_⟩
  · rw [div_le_one (by linarith)]; linarith
  · rw [div_mul_cancel₀ _ (by linarith)]; ring

private theorem corner (x p g k t q : ℝ) (hg : g = 1 ∨ g = 27 / 25) (hk : k = 1 / 2 ∨ k = 71 / 100) (ht : t = 0 ∨ t = 1)
    (hq : q = 22 / 25 ∨ q = 1) : excess x p (U x p g t q) (W x p g k) ≤ 0 := by
  rcases hg with rfl | rfl <;> rcases hk with rfl | rfl <;> rcases ht with rfl | rfl <;> rcases hq with rfl | rfl <;>
  · unfold excess U W form
    nlinarith [sq_nonneg (x + p), sq_nonneg (x - p), sq_nonneg x, sq_nonneg p, sq_nonneg (2 * x + p), sq_nonneg (x + 2 * p)]

private theorem box (x p g k t q : ℝ) (hg : 1 ≤ g) (hg' : g ≤ 27 / 25) (hk : 1 / 2 ≤ k) (hk' : k ≤ 71 / 100) (ht : 0 ≤ t) (ht' : t ≤ 1)
    (hq : 22 / 25 ≤ q) (hq' : q ≤ 1) : excess x p (U x p g t q) (W x p g k) ≤ 0 := by
  have s1 : ∀ g k t, (g = 1 ∨ g = 27 / 25) → (k = 1 / 2 ∨ k = 71 / 100) → (t = 0 ∨ t = 1) → excess x p (U x p g t q) (W x p g k) ≤ 0 := by
    intro g k t hg hk ht
    obtain ⟨s, h0, h1, rfl⟩ := param (by norm_num) hq hq'
    have := excess_convex x p _ _ _ _ s h0 h1 (corner x p g k t (22 / 25) hg hk ht (.inl rfl)) (corner x p g k t 1 hg hk ht (.inr rfl))
    convert this using 1
    unfold U
    ring_nf
  have s2 : ∀ g k, (g = 1 ∨ g = 27 / 25) → (k = 1 / 2 ∨ k = 71 / 100) → excess x p (U x p g t q) (W x p g k) ≤ 0 := by
    intro g k hg hk
    have := excess_convex x p _ _ _ _ t ht ht' (s1 g k 0 hg hk (.inl rfl)) (s1 g k 1 hg hk (.inr rfl))
    convert this using 1
    unfold U
    ring_nf
  have s3 : ∀ g, (g = 1 ∨ g = 27 / 25) → excess x p (U x p g t q) (W x p g k) ≤ 0 := by
    intro g hg
    obtain ⟨s, h0, h1, rfl⟩ := param (by norm_num) hk hk'
    have := excess_convex x p _ _ _ _ s h0 h1 (s2 g (1 / 2) hg (.inl rfl)) (s2 g (71 / 100) hg (.inr rfl))
    convert this using 1
    unfold W
    ring_nf
  obtain ⟨s, h0, h1, rfl⟩ := param (by norm_num) hg hg'
  have := excess_convex x p _ _ _ _ s h0 h1 (s3 1 (.inl rfl)) (s3 (27 / 25) (.inr rfl))
  convert this using 1
  unfold U W
  ring_nf

private theorem linear_decrease (x p g k t q dt : ℝ) (hg : 1 ≤ g) (hg' : g ≤ 27 / 25) (hk : 1 / 2 ≤ k) (hk' : k ≤ 71 / 100) (ht : 0 ≤ t) (ht' : t ≤ 1)
    (hq : 22 / 25 ≤ q) (hq' : q ≤ 1) (h0 : 0 ≤ dt) (h1 : dt ≤ 1 / 10) :
    form (x + dt * U x p g t q) (p + dt * W x p g k) ≤ (1 - dt) * form x p := by
  have hb := box x p g k t q hg hg' hk hk' ht ht' hq hq'
  have hf := form_nonneg (U x p g t q) (W x p g k)
  generalize U x p g t q = u at *
  generalize W x p g k = w at *
  have key : form (x + dt * u) (p + dt * w) - (1 - dt) * form x p = dt * (excess x p u w) - dt * (1 / 10 - dt) * form u w := by
    unfold excess form
    ring
  have a : dt * excess x p u w ≤ 0 := mul_nonpos_of_nonneg_of_nonpos h0 hb
  have b : 0 ≤ dt * (1 / 10 - dt) * form u w := mul_nonneg (mul_nonneg h0 (by linarith)) hf
  linarith

/-! Gains of the nonlinear parts -/

private theorem arcsin_gain_pos {x : ℝ} (h0 : 0 < x) (h1 : x ≤ 1 / 2) : x ≤ arcsin x ∧ arcsin x ≤ 27 / 25 * x := by
  have hpi := pi_gt_three
  constructor
  · rw [le_arcsin_iff_sin_le ⟨by linarith, by linarith⟩ ⟨by linarith, by linarith⟩]
    exact (sin_lt h0).le
  · rw [arcsin_le_iff_le_sin ⟨by linarith, by linarith⟩ ⟨by linarith, by linarith⟩]
    have := sin_gt_sub_cube (x := 27 / 25 * x) (by linarith)
    nlinarith [mul_pos h0 h0, mul_nonneg h0.le (sub_nonneg.2 h1), mul_nonneg (mul_nonneg h0.le h0.le) (sub_nonneg.2 h1)]

private theorem arcsin_gain {x : ℝ} (h : x ^ 2 ≤ 1 / 4) : ∃ g, 1 ≤ g ∧ g ≤ 27 / 25 ∧ arcsin x = g * x := by
  rcases lt_trichotomy x 0 with hx | rfl | hx
  · have hx' : 0 < -x := by linarith
    obtain ⟨h1, h2⟩ := arcsin_gain_pos hx' (by nlinarith)
    rw [arcsin_neg] at h1 h2
    refine ⟨arcsin x / x, ?_, ?_, (div_mul_cancel₀ _ hx.ne).symm⟩
    · rw [le_div_iff_of_neg hx]; linarith
    · rw [div_le_iff_of_neg hx]; linarith
  · exact ⟨1, le_refl _, by norm_num, by simp⟩
  · obtain ⟨h1, h2⟩ := arcsin_gain_pos hx (by nlinarith)
    refine ⟨arcsin x / x, ?_, ?_, (div_mul_cancel₀ _ hx.ne').symm⟩
    · rw [le_div_iff₀ hx]; linarith
    · rw [div_le_iff₀ hx]; linarith

private theorem sin_gain_pos {x : ℝ} (h0 : 0 < x) (h1 : x ^ 2 ≤ 9 / 20) : 22 / 25 * x ≤ sin x ∧ sin x ≤ x := by
  have := sin_gt_sub_cube h0
  refine ⟨?_, (sin_lt h0).le⟩
  nlinarith [mul_nonneg h0.le (sub_nonneg.2 h1)]

private theorem sin_gain {x : ℝ} (h : x ^ 2 ≤ 9 / 20) : ∃ q, 22 / 25 ≤ q ∧ q ≤ 1 ∧ sin x = q * x := by
  rcases lt_trichotomy x 0 with hx | rfl | hx
  · have hx' : 0 < -x := by linarith
    obtain ⟨h1, h2⟩ := sin_gain_pos hx' (by nlinarith)
    rw [sin_neg] at h1 h2
    refine ⟨sin x / x, ?_, ?_, (div_mul_cancel₀ _ hx.ne).symm⟩
    · rw [le_div_iff_of_neg hx]; linarith
    · rw [div_le_iff_of_neg hx]; linarith
  · exact ⟨1, by norm_num, le_refl _, by simp⟩
  · obtain ⟨h1, h2⟩ := sin_gain_pos hx h
    refine ⟨sin x / x, ?_, ?_, (div_mul_cancel₀ _ hx.ne').symm⟩
    · rw [le_div_iff₀ hx]; linarith
    · rw [div_le_iff₀ hx]; linarith

/-- Sine of the slip angle produced by a steering angle whose sine is `z`. -/
private theorem sin_slip {z : ℝ} (h : z ^ 2 ≤ 66 / 100) : ∃ k, 1 / 2 ≤ k ∧ k ≤ 71 / 100 ∧ sin (Vehicle.slip (arcsin z)) = k * z := by
  have hpos : 0 < 4 - 3 * z ^ 2 := by linarith
  have hs : 0 < √(4 - 3 * z ^ 2) := sqrt_pos.2 hpos
  have hss : √(4 - 3 * z ^ 2) ^ 2 = 4 - 3 * z ^ 2 := sq_sqrt hpos.le
  refine ⟨1 / √(4 - 3 * z ^ 2), ?_, ?_, ?_⟩
  · rw [div_le_div_iff₀ (by norm_num) hs]
    nlinarith [sq_nonneg z]
  · rw [div_le_iff₀ hs]
    by_contra hc
    push Not at hc
    nlinarith
  · unfold Vehicle.slip
    have hz1 : -1 ≤ z := by nlinarith
    have hz2 : z ≤ 1 := by nlinarith
    have hc2 : 0 < 1 - z ^ 2 := by linarith
    have hc : 0 < √(1 - z ^ 2) := sqrt_pos.2 hc2
    have hcc : √(1 - z ^ 2) ^ 2 = 1 - z ^ 2 := sq_sqrt hc2.le
    rw [sin_arctan, tan_eq_sin_div_cos, sin_arcsin hz1 hz2, cos_arcsin]
    have : √(1 + (1 / 2 * (z / √(1 - z ^ 2))) ^ 2) = √(4 - 3 * z ^ 2) / (2 * √(1 - z ^ 2)) := by
      rw [show 1 + (1 / 2 * (z / √(1 - z ^ 2))) ^ 2 = (√(4 - 3 * z ^ 2) / (2 * √(1 - z ^ 2))) ^ 2 by
        field_simp
        rw [show (4 - z ^ 2 * 3) = 4 - 3 * z ^ 2 by ring, hss, hcc]; ring]
      exact sqrt_sq (by positivity)
    rw [this]
    field_simp

private theorem slip_gain_pos {e b m : ℝ} (h0 : 0 < e) (h1 : e ^ 2 ≤ 42 / 100) (hm0 : 0 ≤ m) (hm : m ≤ 355 / 400) (hb : |b| < π / 2)
    (hs : sin b = m * e) : 0 ≤ b ∧ b ≤ e := by
  obtain ⟨hb1, hb2⟩ := abs_lt.1 hb
  have hpi := pi_gt_three
  have he : e ≤ 1 := by nlinarith
  constructor
  · by_contra hneg
    push Not at hneg
    have := sin_neg_of_neg_of_neg_pi_lt hneg (by linarith)
    rw [hs] at this
    have := mul_nonneg hm0 h0.le
    linarith
  · rw [← strictMonoOn_sin.le_iff_le ⟨hb1.le, hb2.le⟩ ⟨by linarith, by linarith⟩, hs]
    have := sin_gt_sub_cube h0
    nlinarith [mul_nonneg h0.le (sub_nonneg.2 h1), mul_nonneg h0.le (sub_nonneg.2 hm)]

private theorem slip_gain {e b m : ℝ} (h1 : e ^ 2 ≤ 42 / 100) (hm0 : 0 ≤ m) (hm : m ≤ 355 / 400) (hb : |b| < π / 2) (hs : sin b = m * e) :
    ∃ t, 0 ≤ t ∧ t ≤ 1 ∧ b = t * e := by
  rcases lt_trichotomy e 0 with he | rfl | he
  · obtain ⟨h2, h3⟩ := slip_gain_pos (e := -e) (b := -b) (by linarith) (by nlinarith) hm0 hm (by rwa [abs_neg])
      (by rw [sin_neg, hs]; ring)
    refine ⟨b / e, ?_, ?_, (div_mul_cancel₀ _ he.ne).symm⟩
    · rw [le_div_iff_of_neg he]; linarith
    · rw [div_le_iff_of_neg he]; linarith
  · refine ⟨0, le_refl _, zero_le_one, ?_⟩
    rw [mul_zero] at hs ⊢
    obtain ⟨hb1, hb2⟩ := abs_lt.1 hb
    exact (sin_eq_zero_iff_of_lt_of_lt (by linarith [pi_pos]) (by linarith [pi_pos])).1 hs
  · obtain ⟨h2, h3⟩ := slip_gain_pos he h1 hm0 hm hb hs
    refine ⟨b / e, ?_, ?_, (div_mul_cancel₀ _ he.ne').symm⟩
    · rw [le_div_iff₀ he]; linarith
    · rw [div_le_iff₀ he]; linarith

/-- The closed lateral loop, for a speed of at least 10 m/s, a time step of at most a tenth of a second and a state in the region
`form ≤ 9/25`: no saturation is active, and one step decreases the form by the factor `1 - dt`. -/
theorem closed_loop (x p V dt : ℝ) (hV : 10 ≤ V) (h0 : 0 ≤ dt) (h1 : dt ≤ 1 / 10) (hf : form x p ≤ 9 / 25) :
    x ^ 2 ≤ 1 / 4 ∧ |arcsin (-x)| ≤ π / 4 ∧ (arcsin (-x) - p) ^ 2 ≤ 42 / 100 ∧ (25 / 2 / V * (arcsin (-x) - p)) ^ 2 ≤ 66 / 100 ∧
    form (x + dt * (5 / 3 * sin (p + Vehicle.slip (arcsin (25 / 2 / V * (arcsin (-x) - p))))))
      (p + V * sin (Vehicle.slip (arcsin (25 / 2 / V * (arcsin (-x) - p)))) / (5 / 2) * dt) ≤ (1 - dt) * form x p := by
  have hVp : 0 < V := by linarith
  have hx : x ^ 2 ≤ 1 / 4 := by linarith [form_x x p]
  have hp : p ^ 2 ≤ 9 / 20 := by linarith [form_p x p]
  obtain ⟨g, hg, hg', hr⟩ := arcsin_gain (x := -x) (by nlinarith)
  have hr2 : arcsin (-x) ^ 2 ≤ 3 / 10 := by
    rw [hr]
    nlinarith [mul_nonneg (sub_nonneg.2 hg) (sub_nonneg.2 hg'), mul_self_nonneg (g * x), sq_nonneg x, sq_nonneg g]
  have he : (arcsin (-x) - p) ^ 2 ≤ 42 / 100 := by
    rw [hr]
    have hd : 36 / 25 * x ^ 2 + (p + 3 / 5 * x) ^ 2 ≤ 9 / 25 := by
      refine le_trans (le_of_eq ?_) hf
      unfold form; ring
    have h2 : (g - 3 / 5) ^ 2 ≤ 144 / 625 := by nlinarith
    have h3 : (g * -x - p) ^ 2 ≤ (1 + (g - 3 / 5) ^ 2 * (25 / 36)) * (36 / 25 * x ^ 2 + (p + 3 / 5 * x) ^ 2) := by
      nlinarith [sq_nonneg (6 / 5 * x - (g - 3 / 5) * (5 / 6) * (p + 3 / 5 * x))]
    nlinarith [sq_nonneg (g - 3 / 5)]
  set e := arcsin (-x) - p with hedef
  have hm : 25 / 2 / V ≤ 5 / 4 := by
    rw [div_le_iff₀ hVp]; linarith
  have hm0 : 0 < 25 / 2 / V := by positivity
  have hz : (25 / 2 / V * e) ^ 2 ≤ 66 / 100 := by
    rw [mul_pow]
    have : (25 / 2 / V) ^ 2 ≤ 25 / 16 := by nlinarith
    nlinarith [sq_nonneg e]
  refine ⟨hx, ?_, he, hz, ?_⟩
  · have hpi := pi_gt_three
    rw [abs_le]
    constructor <;> nlinarith
  · obtain ⟨k, hk, hk', hsk⟩ := sin_slip hz
    set b := Vehicle.slip (arcsin (25 / 2 / V * e)) with hbdef
    have hb : |b| < π / 2 := by
      rw [abs_lt]
      exact ⟨neg_pi_div_two_lt_arctan _, arctan_lt_pi_div_two _⟩
    obtain ⟨t, ht, ht', hbt⟩ := slip_gain (e := e) (b := b) (m := k * (25 / 2 / V)) he (by positivity) (by nlinarith) hb (by rw [hsk]; ring)
    have hth : (p + b) ^ 2 ≤ 9 / 20 := by
      have : p + b = (1 - t) * p + t * arcsin (-x) := by rw [hbt, hedef]; ring
      rw [this]
      have h2 : ((1 - t) * p + t * arcsin (-x)) ^ 2 ≤ (1 - t) * p ^ 2 + t * arcsin (-x) ^ 2 := by
        nlinarith [mul_nonneg (mul_nonneg ht (sub_nonneg.2 ht')) (sq_nonneg (p - arcsin (-x)))]
      nlinarith
    obtain ⟨q, hq, hq', hsq⟩ := sin_gain hth
    have := linear_decrease x p g k t q dt hg hg' hk hk' ht ht' hq hq' h0 h1
    have hee : e = -(g * x) - p := by rw [hedef, hr]; ring
    have a1 : dt * (5 / 3 * sin (p + b)) = dt * U x p g t q := by
      unfold U; rw [hsq, hbt, hee]; ring
    have a2 : V * sin b / (5 / 2) * dt = dt * W x p g k := by
      unfold W
      rw [hsk, ← hee]
      field_simp
      ring
    rw [a1, a2]
    exact this

/-- The form when the speed changes by the factor `1 + d` (so that the offset in seconds is divided by it), between a third of `dt`
down and `dt` up. -/
theorem form_rescale (x p d dt : ℝ) (h0 : 0 ≤ dt) (h1 : dt ≤ 1 / 10) (hd : -(dt / 3) ≤ d) (hd' : d ≤ dt) :
    form (x / (1 + d)) p ≤ (1 + 4 / 5 * dt) * form x p := by
  have hpos : 0 < 1 + d := by linarith
  have hf := form_nonneg x p
  obtain ⟨rho, hr⟩ : ∃ rho, rho = 1 / (1 + d) := ⟨_, rfl⟩
  have hrp : 0 < rho := by rw [hr]; positivity
  have hx : x / (1 + d) = rho * x := by rw [hr]; ring
  have hm : rho * (1 + d) = 1 := by rw [hr]; field_simp
  rw [hx]
  rcases le_total 0 d with h | h
  · have r1 : rho ≤ 1 := by nlinarith
    have r2 : 1 - rho ≤ dt := by nlinarith
    have key : form (rho * x) p - form x p = (1 - rho) * (-(9 / 5 * (1 + rho)) * x ^ 2 - 6 / 5 * (x * p)) := by
      unfold form; ring
    have b : -(9 / 5 * (1 + rho)) * x ^ 2 - 6 / 5 * (x * p) ≤ 1 / 3 * form x p := by
      unfold form
      nlinarith [sq_nonneg (p + 12 / 5 * x), sq_nonneg x, mul_nonneg hrp.le (sq_nonneg x)]
    have c := mul_le_mul_of_nonneg_left b (sub_nonneg.2 r1)
    nlinarith
  · have r1 : 1 ≤ rho := by nlinarith
    have r2 : rho ≤ 30 / 29 := by nlinarith
    have r3 : rho - 1 ≤ 10 / 29 * dt := by nlinarith
    have key : form (rho * x) p - form x p = (rho - 1) * (9 / 5 * (rho + 1) * x ^ 2 + 6 / 5 * (x * p)) := by
      unfold form; ring
    have b : 9 / 5 * (rho + 1) * x ^ 2 + 6 / 5 * (x * p) ≤ 22 / 10 * form x p := by
      unfold form
      nlinarith [sq_nonneg (p + 18 / 55 * x), sq_nonneg x, mul_nonneg (sub_nonneg.2 r2) (sq_nonneg x)]
    have c := mul_le_mul_of_nonneg_left b (sub_nonneg.2 r1)
    nlinarith

end HighwayEnv.Lateral
