import Verif.Model.Utils
import Verif.Spec.Geometry
import Verif.Lemmas.Vec2
import Verif.Lemmas.Num

/-! Helper lemmas on the model of `utils.py`. -/

noncomputable section
open Real
namespace HighwayEnv

theorem wrapToPi_eq (x : ℝ) : wrapToPi x = x - 2 * π * (⌊(x + π) / (2 * π)⌋ : ℝ) := by
  unfold wrapToPi pyMod; ring

theorem wrapToPi_ge (x : ℝ) : -π ≤ wrapToPi x := by
  have := pyMod_nonneg (x := x + π) (y := 2 * π) (by positivity)
  unfold wrapToPi; linarith

theorem wrapToPi_lt (x : ℝ) : wrapToPi x < π := by
  have := pyMod_lt (x := x + π) (y := 2 * π) (by positivity)
  unfold wrapToPi; linarith

theorem wrapToPi_unique {x y : ℝ} (h1 : -π ≤ y) (h2 : y < π) (k : ℤ) (hk : y = x + 2 * π * k) :
    y = wrapToPi x := by
  have a1 := wrapToPi_ge x
  have a2 := wrapToPi_lt x
  rw [wrapToPi_eq] at *
  generalize (⌊(x + π) / (2 * π)⌋) = m at *
  have hp := pi_pos
  have : k + m = 0 := by
    have u1 : ((k + m : ℤ) : ℝ) < 1 := by
      push_cast; by_contra hc; push Not at hc; nlinarith
    have u2 : (-1 : ℝ) < ((k + m : ℤ) : ℝ) := by
      push_cast; by_contra hc; push Not at hc; nlinarith
    have u1' : k + m < 1 := by exact_mod_cast u1
    have u2' : -1 < k + m := by exact_mod_cast u2
    omega
  have hm : (m : ℝ) = -k := by
    have : ((k + m : ℤ) : ℝ) = 0 := by rw [this]; simp
    push_cast at this; linarith
  rw [hk, hm]; ring

theorem wrapToPi_of_mem {x : ℝ} (h1 : -π ≤ x) (h2 : x < π) : wrapToPi x = x :=
  (wrapToPi_unique h1 h2 0 (by simp)).symm

theorem cos_wrapToPi (x : ℝ) : cos (wrapToPi x) = cos x := by
  rw [wrapToPi_eq, show x - 2 * π * (⌊(x + π) / (2 * π)⌋ : ℝ) = x - (⌊(x + π) / (2 * π)⌋ : ℝ) * (2 * π) by ring,
    cos_sub_int_mul_two_pi]

theorem sin_wrapToPi (x : ℝ) : sin (wrapToPi x) = sin x := by
  rw [wrapToPi_eq, show x - 2 * π * (⌊(x + π) / (2 * π)⌋ : ℝ) = x - (⌊(x + π) / (2 * π)⌋ : ℝ) * (2 * π) by ring,
    sin_sub_int_mul_two_pi]

theorem wrapToPi_add_int (x : ℝ) (k : ℤ) : wrapToPi (x + 2 * π * k) = wrapToPi x := by
  apply wrapToPi_unique (wrapToPi_ge _) (wrapToPi_lt _) (k - ⌊(x + 2 * π * k + π) / (2 * π)⌋)
  rw [wrapToPi_eq]; push_cast; ring

/-! ### rectangles -/

/-- The code's membership test is membership in the rectangle at the *opposite* angle. -/
theorem pointInRotatedRectangle_iff (p c : Vec2) (l w a : ℝ) :
    pointInRotatedRectangle p c l w a = true ↔ p ∈ Spec.rectSet c l w (-a) := by
  unfold pointInRotatedRectangle pointInRectangle Spec.rectSet Vec2.rot
  simp only [decide_eq_true_eq, Set.mem_ofPred_eq, Vec2.sub_x, Vec2.sub_y, cos_neg, sin_neg]
  have hsc := sin_sq_add_cos_sq a
  constructor
  · rintro ⟨h1, h2, h3, h4⟩
    refine ⟨_, _, abs_le.2 ⟨by linarith, h2⟩, abs_le.2 ⟨by linarith, h4⟩, ?_, ?_⟩
    · linear_combination (c.x - p.x) * hsc
    · linear_combination (c.y - p.y) * hsc
  · rintro ⟨s, t, hs, ht, hx, hy⟩
    rw [abs_le] at hs ht
    have e1 : cos a * (p.x - c.x) - sin a * (p.y - c.y) = s := by
      rw [hx, hy]; linear_combination s * hsc
    have e2 : sin a * (p.x - c.x) + cos a * (p.y - c.y) = t := by
      rw [hx, hy]; linear_combination t * hsc
    rw [e1, e2]
    exact ⟨by linarith, by linarith, by linarith, by linarith⟩

/-- Negating the angle changes nothing when the rectangle is axis-parallel. -/
theorem rectSet_neg_angle {c : Vec2} {l w a : ℝ} (h : sin a * cos a = 0) :
    Spec.rectSet c l w (-a) = Spec.rectSet c l w a := by
  ext p
  unfold Spec.rectSet
  simp only [Set.mem_ofPred_eq, cos_neg, sin_neg]
  rcases mul_eq_zero.1 h with h0 | h0 <;> simp only [h0]
  · simp
  · constructor
    · rintro ⟨s, t, hs, ht, hx, hy⟩
      exact ⟨-s, -t, by rwa [abs_neg], by rwa [abs_neg], by rw [hx]; ring, by rw [hy]; ring⟩
    · rintro ⟨s, t, hs, ht, hx, hy⟩
      exact ⟨-s, -t, by rwa [abs_neg], by rwa [abs_neg], by rw [hx]; ring, by rw [hy]; ring⟩

theorem samplePoints_bound {l w : ℝ} {p : Vec2} (hl : 0 ≤ l) (hw : 0 ≤ w) (h : p ∈ samplePoints l w) :
    |p.x| ≤ l / 2 ∧ |p.y| ≤ w / 2 := by
  unfold samplePoints at h
  simp only [List.mem_cons, List.not_mem_nil, or_false] at h
  have h1 : (0:ℝ) ≤ l / 2 := by positivity
  have h2 : (0:ℝ) ≤ w / 2 := by positivity
  rcases h with h | h | h | h | h | h | h | h | h <;> subst h <;>
    simp [abs_of_nonneg h1, abs_of_nonneg h2, h1, h2]

/-- The sample points of a rectangle belong to it. -/
theorem sample_mem_rectSet {r : Rect} {p : Vec2} (hl : 0 ≤ r.length) (hw : 0 ≤ r.width)
    (h : p ∈ samplePoints r.length r.width) :
    r.center + Vec2.rot r.angle p ∈ Spec.rectSet r.center r.length r.width r.angle := by
  obtain ⟨h1, h2⟩ := samplePoints_bound hl hw h
  exact ⟨p.x, p.y, h1, h2, by simp [Vec2.rot]; ring, by simp [Vec2.rot]; ring⟩

theorem rectSet_norm_le {c p : Vec2} {l w a : ℝ}
    (h : p ∈ Spec.rectSet c l w a) : (p - c).norm ≤ √(l ^ 2 + w ^ 2) / 2 := by
  obtain ⟨s, t, hs, ht, hx, hy⟩ := h
  apply Vec2.norm_le_of_sq (by positivity)
  rw [div_pow, Real.sq_sqrt (by positivity)]
  simp only [Vec2.sub_x, Vec2.sub_y, hx, hy]
  have hsc := sin_sq_add_cos_sq a
  have h1 : s ^ 2 ≤ (l / 2) ^ 2 := sq_le_sq' (by linarith [(abs_le.1 hs).1]) (abs_le.1 hs).2
  have h2 : t ^ 2 ≤ (w / 2) ^ 2 := sq_le_sq' (by linarith [(abs_le.1 ht).1]) (abs_le.1 ht).2
  nlinarith [mul_self_nonneg s]

theorem hasCornerInside_norm {r1 r2 : Rect} (hl1 : 0 ≤ r1.length) (hw1 : 0 ≤ r1.width)
    (h : hasCornerInside r1 r2 = true) :
    (r2.center - r1.center).norm ≤ √(r1.length ^ 2 + r1.width ^ 2) / 2 + √(r2.length ^ 2 + r2.width ^ 2) / 2 := by
  unfold hasCornerInside at h
  obtain ⟨p, hp, hin⟩ := List.any_eq_true.1 h
  rw [pointInRotatedRectangle_iff] at hin
  have b1 := rectSet_norm_le (sample_mem_rectSet hl1 hw1 hp)
  have b2 := rectSet_norm_le hin
  set q := r1.center + Vec2.rot r1.angle p
  have e : r2.center - r1.center = (q - r1.center) + (r2.center - q) := by ext <;> simp
  rw [e]
  have := Vec2.norm_add_le (q - r1.center) (r2.center - q)
  rw [Vec2.norm_sub_comm r2.center q] at this
  linarith

theorem intersect_norm {r1 r2 : Rect} (hl1 : 0 ≤ r1.length) (hw1 : 0 ≤ r1.width)
    (hl2 : 0 ≤ r2.length) (hw2 : 0 ≤ r2.width)
    (h : rotatedRectanglesIntersect r1 r2 = true) :
    (r2.center - r1.center).norm ≤ √(r1.length ^ 2 + r1.width ^ 2) / 2 + √(r2.length ^ 2 + r2.width ^ 2) / 2 := by
  unfold rotatedRectanglesIntersect at h
  rw [Bool.or_eq_true] at h
  rcases h with h | h
  · exact hasCornerInside_norm hl1 hw1 h
  · have := hasCornerInside_norm hl2 hw2 h
    rw [Vec2.norm_sub_comm]; linarith

end HighwayEnv
