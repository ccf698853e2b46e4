import Verif.Lemmas.Utils

/-!
# Properties of the numerical helpers (C01–C07, part on `utils.py`)
-/

noncomputable section
open Real
namespace HighwayEnv.Props

/-! ## C01 — wrap_to_pi -/

/-- `wrap_to_pi(x)` is in `[-π, π)` and equals `x` up to a whole number of turns. -/
theorem wrapToPi_canonical (x : ℝ) :
    -π ≤ wrapToPi x ∧ wrapToPi x < π ∧ ∃ k : ℤ, x = wrapToPi x + k * (2 * π) :=
  ⟨wrapToPi_ge x, wrapToPi_lt x, ⌊(x + π) / (2 * π)⌋, by rw [wrapToPi_eq]; ring⟩

/-- It is the only such number, so every representation of the same angle wraps to the same value. -/
theorem wrapToPi_only (x y : ℝ) (h1 : -π ≤ y) (h2 : y < π) (h : ∃ k : ℤ, x = y + k * (2 * π)) :
    wrapToPi x = y := by
  obtain ⟨k, hk⟩ := h
  exact (wrapToPi_unique h1 h2 (-k) (by rw [hk]; push_cast; ring)).symm

theorem wrapToPi_idempotent (x : ℝ) : wrapToPi (wrapToPi x) = wrapToPi x :=
  wrapToPi_of_mem (wrapToPi_ge x) (wrapToPi_lt x)

/-- Two angles wrap to the same value exactly when they are the same direction. -/
theorem wrapToPi_eq_iff (x y : ℝ) : wrapToPi x = wrapToPi y ↔ ∃ k : ℤ, x = y + k * (2 * π) := by
  constructor
  · intro h
    obtain ⟨_, _, k, hk⟩ := wrapToPi_canonical x
    obtain ⟨_, _, m, hm⟩ := wrapToPi_canonical y
    exact ⟨k - m, by rw [h] at hk; push_cast; linarith⟩
  · rintro ⟨k, rfl⟩
    rw [show y + k * (2 * π) = y + 2 * π * k by ring, wrapToPi_add_int]

example : wrapToPi π = -π := by
  apply wrapToPi_only _ _ le_rfl (by linarith [pi_pos]); exact ⟨1, by push_cast; ring⟩
example : wrapToPi (7 / 2 * π) = -(π / 2) := by
  apply wrapToPi_only _ _ (by linarith [pi_pos]) (by linarith [pi_pos]); exact ⟨2, by push_cast; ring⟩

/-! ## C02 — lmap -/

/-- End points go to end points. -/
theorem lmap_endpoints (x y : ℝ × ℝ) (hx : x.1 ≠ x.2) : lmap x.1 x y = y.1 ∧ lmap x.2 x y = y.2 := by
  have : x.2 - x.1 ≠ 0 := sub_ne_zero.2 (Ne.symm hx)
  unfold lmap; constructor
  · simp
  · field_simp; ring

/-- Affine: convex combinations are preserved (this and the end points determine the map). -/
theorem lmap_affine (x y : ℝ × ℝ) (v w t : ℝ) :
    lmap ((1 - t) * v + t * w) x y = (1 - t) * lmap v x y + t * lmap w x y := by
  unfold lmap; ring

/-- The source range is mapped into the target range. -/
theorem lmap_mem (x y : ℝ × ℝ) (v : ℝ) (hx : x.1 < x.2) (hy : y.1 ≤ y.2) (hv : x.1 ≤ v ∧ v ≤ x.2) :
    y.1 ≤ lmap v x y ∧ lmap v x y ≤ y.2 := by
  have hd : 0 < x.2 - x.1 := sub_pos.2 hx
  unfold lmap
  have h0 : 0 ≤ (v - x.1) * (y.2 - y.1) / (x.2 - x.1) :=
    div_nonneg (mul_nonneg (by linarith) (by linarith)) hd.le
  have h1 : (v - x.1) * (y.2 - y.1) / (x.2 - x.1) ≤ y.2 - y.1 := by
    rw [div_le_iff₀ hd]; nlinarith
  constructor <;> linarith

/-- Order is preserved, strictly when the target range is not a point. -/
theorem lmap_strictMono (x y : ℝ × ℝ) (hx : x.1 < x.2) (hy : y.1 < y.2) (v w : ℝ) :
    lmap v x y < lmap w x y ↔ v < w := by
  have hd : 0 < x.2 - x.1 := sub_pos.2 hx
  unfold lmap
  rw [add_lt_add_iff_left, div_lt_div_iff_of_pos_right hd, mul_lt_mul_iff_left₀ (by linarith)]
  constructor <;> intro <;> linarith

/-- Mapping there and back is the identity. -/
theorem lmap_inverse (x y : ℝ × ℝ) (hx : x.1 ≠ x.2) (hy : y.1 ≠ y.2) (v : ℝ) :
    lmap (lmap v x y) y x = v := by
  have h1 : x.2 - x.1 ≠ 0 := sub_ne_zero.2 (Ne.symm hx)
  have h2 : y.2 - y.1 ≠ 0 := sub_ne_zero.2 (Ne.symm hy)
  unfold lmap; field_simp; ring

example : lmap 25 (20, 30) (0, 1) = 1 / 2 := by norm_num [lmap]
example : (20 : ℝ) ≠ 30 ∧ (0 : ℝ) < 1 := by norm_num

/-! ## C03 — not_zero -/

theorem notZero_spec (x eps : ℝ) (he : 0 < eps) :
    eps ≤ |notZero x eps| ∧ (eps < |x| → notZero x eps = x) ∧
    (0 < x → 0 < notZero x eps) ∧ (x < 0 → notZero x eps < 0) ∧
    (|x| ≤ eps → |notZero x eps| = eps) := by
  unfold notZero
  split_ifs with h1 h2
  · exact ⟨h1.le, fun _ => rfl, id, id, fun h => absurd h (not_le.2 h1)⟩
  · exact ⟨by rw [abs_of_pos he], fun h => absurd h h1, fun _ => he, fun h => by linarith, fun _ => abs_of_pos he⟩
  · refine ⟨by rw [abs_neg, abs_of_pos he], fun h => absurd h h1, fun h => absurd h h2, fun _ => by linarith,
      fun _ => by rw [abs_neg, abs_of_pos he]⟩

/-- Denominators produced with the default tolerance are never zero, and zero itself is mapped to `-0.01`. -/
theorem notZero_default (x : ℝ) : notZero x ≠ 0 ∧ notZero 0 = -(1 / 100) := by
  constructor
  · have := (notZero_spec x (1 / 100) (by norm_num)).1
    intro h; rw [h] at this; norm_num at this
  · norm_num [notZero]

/-! ## C04 — symmetry of the collision test -/

theorem rectanglesIntersect_symm (r1 r2 : Rect) :
    rotatedRectanglesIntersect r1 r2 = rotatedRectanglesIntersect r2 r1 := by
  unfold rotatedRectanglesIntersect; exact Bool.or_comm _ _

/-! ## C05 — exactness for aligned rectangles, C06 — the rotated case -/

/-- The set of points of a rectangle given as the code gives it. -/
def _root_.HighwayEnv.Rect.pts (r : Rect) : Set Vec2 := Spec.rectSet r.center r.length r.width r.angle

/-- What the membership test decides, exactly: the rectangle rotated the *other way*. -/
theorem pointInRotatedRectangle_exact (p c : Vec2) (l w a : ℝ) :
    pointInRotatedRectangle p c l w a = true ↔ p ∈ Spec.rectSet c l w (-a) :=
  pointInRotatedRectangle_iff p c l w a

/-- It is the right answer for rectangles parallel to the axes (angle a multiple of π/2). -/
theorem pointInRotatedRectangle_axis_partial (p c : Vec2) (l w a : ℝ) (h : sin a * cos a = 0) :
    pointInRotatedRectangle p c l w a = true ↔ p ∈ Spec.rectSet c l w a := by
  rw [pointInRotatedRectangle_iff, rectSet_neg_angle h]

/-- Negation of the documented claim: a 4×1 rectangle at angle π/4 does not contain a point on its own long axis
according to the code, and contains one that is 1.06 m off its axis. -/
theorem pointInRotatedRectangle_wrong :
    (∃ p : Vec2, p ∈ Spec.rectSet 0 4 1 (π / 4) ∧ pointInRotatedRectangle p 0 4 1 (π / 4) = false) ∧
    (∃ p : Vec2, p ∉ Spec.rectSet 0 4 1 (π / 4) ∧ pointInRotatedRectangle p 0 4 1 (π / 4) = true) := by
  have hs : 0 < √2 := by positivity
  have hs2 : √2 * √2 = 2 := Real.mul_self_sqrt (by norm_num)
  constructor
  · refine ⟨⟨√2 / 2, √2 / 2⟩, ⟨1, 0, by norm_num, by norm_num, by simp, by simp⟩, ?_⟩
    rw [← Bool.not_eq_true, pointInRotatedRectangle_iff]
    rintro ⟨s, t, _, ht, hx, hy⟩
    simp only [Vec2.zero_x, Vec2.zero_y, cos_neg, sin_neg, cos_pi_div_four, sin_pi_div_four] at hx hy
    have : t = 1 := by nlinarith
    rw [this] at ht; norm_num at ht
  · refine ⟨⟨√2 / 2, -(√2 / 2)⟩, ?_, ?_⟩
    · rintro ⟨s, t, _, ht, hx, hy⟩
      simp only [Vec2.zero_x, Vec2.zero_y, cos_pi_div_four, sin_pi_div_four] at hx hy
      have : t = -1 := by nlinarith
      rw [this] at ht; norm_num at ht
    · rw [pointInRotatedRectangle_iff]
      exact ⟨1, 0, by norm_num, by norm_num, by simp, by simp⟩

/-- Soundness for axis-parallel rectangles of any two sizes: a reported collision is a real overlap. -/
theorem rectanglesIntersect_sound_partial (r1 r2 : Rect)
    (hl1 : 0 ≤ r1.length) (hw1 : 0 ≤ r1.width) (hl2 : 0 ≤ r2.length) (hw2 : 0 ≤ r2.width)
    (ha1 : sin r1.angle * cos r1.angle = 0) (ha2 : sin r2.angle * cos r2.angle = 0)
    (h : rotatedRectanglesIntersect r1 r2 = true) : Spec.Meet r1.pts r2.pts := by
  unfold rotatedRectanglesIntersect at h
  rw [Bool.or_eq_true] at h
  rcases h with h | h
  · obtain ⟨p, hp, hin⟩ := List.any_eq_true.1 h
    rw [pointInRotatedRectangle_axis_partial _ _ _ _ _ ha2] at hin
    exact ⟨_, sample_mem_rectSet hl1 hw1 hp, hin⟩
  · obtain ⟨p, hp, hin⟩ := List.any_eq_true.1 h
    rw [pointInRotatedRectangle_axis_partial _ _ _ _ _ ha1] at hin
    exact ⟨_, hin, sample_mem_rectSet hl2 hw2 hp⟩

/-- Exactness for two rectangles at angle 0 one of which is at least as long and at least as wide as the other
(all pairs of vehicles, and every vehicle/obstacle pair): the test answers `True` iff they have a common point. -/
theorem rectanglesIntersect_aligned_exact (r1 r2 : Rect)
    (hl1 : 0 ≤ r1.length) (hw1 : 0 ≤ r1.width) (hl2 : 0 ≤ r2.length) (hw2 : 0 ≤ r2.width)
    (ha1 : r1.angle = 0) (ha2 : r2.angle = 0)
    (hsize : (r1.length ≤ r2.length ∧ r1.width ≤ r2.width) ∨ (r2.length ≤ r1.length ∧ r2.width ≤ r1.width)) :
    rotatedRectanglesIntersect r1 r2 = true ↔ Spec.Meet r1.pts r2.pts := by
  constructor
  · exact rectanglesIntersect_sound_partial r1 r2 hl1 hw1 hl2 hw2 (by simp [ha1]) (by simp [ha2])
  · -- it suffices to treat the case where the first rectangle is the smaller one
    have key : ∀ r s : Rect, 0 ≤ r.length → 0 ≤ r.width → r.angle = 0 → s.angle = 0 →
        r.length ≤ s.length → r.width ≤ s.width → Spec.Meet r.pts s.pts → hasCornerInside r s = true := by
      intro r s hl hw hr hs h1 h2 ⟨p, hp, hq⟩
      obtain ⟨s1, t1, a1, b1, x1, y1⟩ := hp
      obtain ⟨s2, t2, a2, b2, x2, y2⟩ := hq
      rw [hr] at x1 y1; rw [hs] at x2 y2
      simp only [cos_zero, sin_zero, mul_one, mul_zero, sub_zero, add_zero] at x1 y1 x2 y2
      rw [abs_le] at a1 b1 a2 b2
      unfold hasCornerInside
      rw [List.any_eq_true]
      have hx : r.center.x - r.length / 2 ≤ s.center.x + s.length / 2 := by linarith
      have hx' : s.center.x - s.length / 2 ≤ r.center.x + r.length / 2 := by linarith
      have hy : r.center.y - r.width / 2 ≤ s.center.y + s.width / 2 := by linarith
      have hy' : s.center.y - s.width / 2 ≤ r.center.y + r.width / 2 := by linarith
      simp only [pointInRotatedRectangle, pointInRectangle, Vec2.rot, hr, hs, cos_zero, sin_zero, one_mul, zero_mul,
        sub_zero, zero_add, samplePoints, decide_eq_true_eq]
      rcases le_or_gt r.center.x s.center.x with c1 | c1 <;>
        rcases le_or_gt r.center.y s.center.y with c2 | c2
      · exact ⟨⟨r.length / 2, 0⟩ + ⟨0, r.width / 2⟩, by simp,
          by simp; refine ⟨?_, ?_, ?_, ?_⟩ <;> linarith⟩
      · exact ⟨⟨r.length / 2, 0⟩ - ⟨0, r.width / 2⟩, by simp,
          by simp; refine ⟨?_, ?_, ?_, ?_⟩ <;> linarith⟩
      · exact ⟨-⟨r.length / 2, 0⟩ + ⟨0, r.width / 2⟩, by simp,
          by simp; refine ⟨?_, ?_, ?_, ?_⟩ <;> linarith⟩
      · exact ⟨-⟨r.length / 2, 0⟩ - ⟨0, r.width / 2⟩, by simp,
          by simp; refine ⟨?_, ?_, ?_, ?_⟩ <;> linarith⟩
    intro hm
    unfold rotatedRectanglesIntersect
    rw [Bool.or_eq_true]
    rcases hsize with ⟨a, b⟩ | ⟨a, b⟩
    · exact .inl (key r1 r2 hl1 hw1 ha1 ha2 a b hm)
    · exact .inr (key r2 r1 hl2 hw2 ha2 ha1 a b ⟨hm.choose, hm.choose_spec.2, hm.choose_spec.1⟩)

/-- For aligned equal rectangles the verdict is the familiar pair of gap conditions. -/
theorem rectanglesIntersect_aligned_gap (c d : Vec2) (l w : ℝ) (hl : 0 ≤ l) (hw : 0 ≤ w) :
    rotatedRectanglesIntersect ⟨c, l, w, 0⟩ ⟨d, l, w, 0⟩ = true ↔ |c.x - d.x| ≤ l ∧ |c.y - d.y| ≤ w := by
  rw [rectanglesIntersect_aligned_exact ⟨c, l, w, 0⟩ ⟨d, l, w, 0⟩ hl hw hl hw rfl rfl (.inl ⟨le_rfl, le_rfl⟩)]
  constructor
  · rintro ⟨p, ⟨s1, t1, a1, b1, x1, y1⟩, ⟨s2, t2, a2, b2, x2, y2⟩⟩
    simp only [cos_zero, sin_zero, mul_one, mul_zero, sub_zero, add_zero] at x1 y1 x2 y2 a1 b1 a2 b2
    rw [abs_le] at a1 b1 a2 b2 ⊢
    rw [abs_le]
    constructor <;> constructor <;> linarith
  · rintro ⟨hx, hy⟩
    rw [abs_le] at hx hy
    refine ⟨⟨(c.x + d.x) / 2, (c.y + d.y) / 2⟩, ⟨(d.x - c.x) / 2, (d.y - c.y) / 2, ?_, ?_, ?_, ?_⟩,
      ⟨(c.x - d.x) / 2, (c.y - d.y) / 2, ?_, ?_, ?_, ?_⟩⟩ <;>
      simp only [abs_le, cos_zero, sin_zero] <;> first | (constructor <;> linarith) | ring

example : ∃ r1 r2 : Rect, 0 ≤ r1.length ∧ 0 ≤ r1.width ∧ r1.angle = 0 ∧ r2.angle = 0 ∧
    r2.length ≤ r1.length ∧ r2.width ≤ r1.width ∧ Spec.Meet r1.pts r2.pts :=
  ⟨⟨0, 4.5, 1.8, 0⟩, ⟨⟨3, 1⟩, 1.8, 1.8, 0⟩, by norm_num, by norm_num, rfl, rfl, by norm_num, by norm_num,
    ⟨⟨2.2, 0.5⟩, ⟨2.2, 0.5, by norm_num, by norm_num [abs_le], by simp, by simp⟩,
      ⟨-0.8, -0.5, by norm_num [abs_le], by norm_num [abs_le], by simp; norm_num, by simp; norm_num⟩⟩⟩

/-- C06, negation (false alarm): two 4.5×1.8 vehicles at 45°, the second 2 m to the side (measured across the
vehicle), do not touch, yet the code reports a collision. -/
theorem rectanglesIntersect_false_positive :
    ∃ r1 r2 : Rect, r1.length = 4.5 ∧ r1.width = 1.8 ∧ r2.length = 4.5 ∧ r2.width = 1.8 ∧
      rotatedRectanglesIntersect r1 r2 = true ∧ ¬ Spec.Meet r1.pts r2.pts := by
  have hs : 0 < √2 := by positivity
  have hs2 : √2 * √2 = 2 := Real.mul_self_sqrt (by norm_num)
  refine ⟨⟨0, 4.5, 1.8, π / 4⟩, ⟨⟨-(2 * (√2 / 2)), 2 * (√2 / 2)⟩, 4.5, 1.8, π / 4⟩, rfl, rfl, rfl, rfl, ?_, ?_⟩
  · unfold rotatedRectanglesIntersect hasCornerInside
    rw [Bool.or_eq_true]; left
    rw [List.any_eq_true]
    refine ⟨⟨0, 0⟩, by simp [samplePoints], ?_⟩
    rw [pointInRotatedRectangle_iff]
    refine ⟨2, 0, by norm_num [abs_le], by norm_num, ?_, ?_⟩ <;>
      simp only [Vec2.rot, Vec2.add_x, Vec2.add_y, Vec2.zero_x, Vec2.zero_y, cos_neg, sin_neg, cos_pi_div_four,
        sin_pi_div_four] <;> ring
  · rintro ⟨p, ⟨s1, t1, a1, b1, x1, y1⟩, ⟨s2, t2, a2, b2, x2, y2⟩⟩
    simp only [Vec2.zero_x, Vec2.zero_y, cos_pi_div_four, sin_pi_div_four] at x1 y1 x2 y2
    rw [abs_le] at a1 b1 a2 b2
    have : t1 = t2 + 2 := by nlinarith
    linarith

/-- C06, negation (missed collision): same vehicles, the second 4 m straight ahead: they overlap over half a metre,
yet the code reports no collision. -/
theorem rectanglesIntersect_false_negative :
    ∃ r1 r2 : Rect, r1.length = 4.5 ∧ r1.width = 1.8 ∧ r2.length = 4.5 ∧ r2.width = 1.8 ∧
      rotatedRectanglesIntersect r1 r2 = false ∧ Spec.Meet r1.pts r2.pts := by
  have hs : 0 < √2 := by positivity
  have hs2 : √2 * √2 = 2 := Real.mul_self_sqrt (by norm_num)
  refine ⟨⟨0, 4.5, 1.8, π / 4⟩, ⟨⟨4 * (√2 / 2), 4 * (√2 / 2)⟩, 4.5, 1.8, π / 4⟩, rfl, rfl, rfl, rfl, ?_, ?_⟩
  · have key : ∀ c d : Vec2, (c.x - d.x) = 4 * (√2 / 2) ∧ (c.y - d.y) = 4 * (√2 / 2) ∨
        (c.x - d.x) = -(4 * (√2 / 2)) ∧ (c.y - d.y) = -(4 * (√2 / 2)) →
        hasCornerInside ⟨c, 4.5, 1.8, π / 4⟩ ⟨d, 4.5, 1.8, π / 4⟩ = false := by
      intro c d h
      rw [← Bool.not_eq_true]
      intro hc
      obtain ⟨p, hp, hin⟩ := List.any_eq_true.1 hc
      obtain ⟨h1, h2⟩ := samplePoints_bound (by norm_num) (by norm_num) hp
      rw [pointInRotatedRectangle_iff] at hin
      obtain ⟨s, t, a, b, x, y⟩ := hin
      simp only [Vec2.rot, Vec2.add_x, Vec2.add_y, cos_neg, sin_neg, cos_pi_div_four, sin_pi_div_four] at x y
      rw [abs_le] at h1 h2 a b
      -- the tested point has lateral coordinate (in the mirrored frame) `p.x ± 4`
      have e : t = p.x + 4 ∨ t = p.x - 4 := by
        rcases h with ⟨hx, hy⟩ | ⟨hx, hy⟩
        · left; nlinarith
        · right; nlinarith
      rcases e with e | e <;> norm_num at * <;> linarith
    unfold rotatedRectanglesIntersect
    rw [key, key] <;> simp
  · refine ⟨⟨2 * (√2 / 2), 2 * (√2 / 2)⟩, ⟨2, 0, by norm_num [abs_le], by norm_num, ?_, ?_⟩,
      ⟨-2, 0, by norm_num [abs_le], by norm_num, ?_, ?_⟩⟩ <;>
      simp only [Vec2.zero_x, Vec2.zero_y, cos_pi_div_four, sin_pi_div_four] <;> ring

end HighwayEnv.Props
