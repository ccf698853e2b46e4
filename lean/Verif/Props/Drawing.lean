import Verif.Spec.Drawing
import Verif.Lemmas.Lane
import Verif.Lemmas.Vec2
import Verif.Lemmas.Num

/-!
# C99 — what is drawn where
-/

noncomputable section
open Classical
open Real
namespace HighwayEnv.Props
open HighwayEnv HighwayEnv.Spec

/-! ## Pixels -/

theorem pyInt_bounds (x : ℝ) : |(pyInt x : ℝ) - x| < 1 ∧ |(pyInt x : ℝ)| ≤ |x| := by
  unfold pyInt
  split
  · rename_i h
    have h1 := Int.floor_le x
    have h2 := Int.lt_floor_add_one x
    have h3 : (0 : ℝ) ≤ ⌊x⌋ := by exact_mod_cast Int.floor_nonneg.2 h
    rw [abs_of_nonneg h3, abs_of_nonneg h, abs_lt]
    exact ⟨⟨by linarith, by linarith⟩, h1⟩
  · rename_i h
    push Not at h
    have h1 := Int.le_ceil x
    have h2 := Int.ceil_lt_add_one x
    have h3 : (⌈x⌉ : ℝ) ≤ 0 := by
      have : ⌈x⌉ ≤ 0 := Int.ceil_le.2 (by simpa using h.le)
      exact_mod_cast this
    rw [abs_of_nonpos h3, abs_of_neg h, abs_lt]
    exact ⟨⟨by linarith, by linarith⟩, by linarith⟩

theorem pyInt_mono {x y : ℝ} (h : x ≤ y) : pyInt x ≤ pyInt y := by
  unfold pyInt
  by_cases hx : 0 ≤ x
  · rw [if_pos hx, if_pos (hx.trans h)]; exact Int.floor_le_floor h
  · rw [if_neg hx]
    push Not at hx
    by_cases hy : 0 ≤ y
    · rw [if_pos hy]
      have : ⌈x⌉ ≤ 0 := Int.ceil_le.2 (by simpa using hx.le)
      exact this.trans (Int.floor_nonneg.2 hy)
    · rw [if_neg hy]; exact Int.ceil_le_ceil h

/-- C99: the pixel of a point is less than one pixel away from its exact position, on either axis, and never further from the origin. -/
theorem pixel_close (c : Camera) (p : Vec2) :
    |((c.pos2pix p).1 : ℝ) - (exactPixel c p).x| < 1 ∧ |((c.pos2pix p).2 : ℝ) - (exactPixel c p).y| < 1
    ∧ |((c.pos2pix p).1 : ℝ)| ≤ |(exactPixel c p).x| ∧ |((c.pos2pix p).2 : ℝ)| ≤ |(exactPixel c p).y| :=
  ⟨(pyInt_bounds _).1, (pyInt_bounds _).1, (pyInt_bounds _).2, (pyInt_bounds _).2⟩

/-- C99: the image never swaps two points: what is further right (or further down) in the world is not further left (or further up) on the
surface. -/
theorem pixel_order (c : Camera) (hs : 0 ≤ c.scaling) (p q : Vec2) :
    (p.x ≤ q.x → (c.pos2pix p).1 ≤ (c.pos2pix q).1) ∧ (p.y ≤ q.y → (c.pos2pix p).2 ≤ (c.pos2pix q).2) :=
  ⟨fun h => pyInt_mono (mul_le_mul_of_nonneg_right (by linarith) hs),
   fun h => pyInt_mono (mul_le_mul_of_nonneg_right (by linarith) hs)⟩

/-- C99: after the window has been moved to a point, that point is drawn at the configured fraction of the surface, whatever the zoom — at the
centre with the default `[0.5, 0.5]`. -/
theorem ego_centred (c : Camera) (hs : c.scaling ≠ 0) (p : Vec2) :
    exactPixel (c.moveTo p) p = ⟨c.centering.1 * c.width, c.centering.2 * c.height⟩
    ∧ (c.moveTo p).pos2pix p = (pyInt (c.centering.1 * c.width), pyInt (c.centering.2 * c.height)) := by
  have e1 : (p.x - (c.moveTo p).origin.x) * (c.moveTo p).scaling = c.centering.1 * c.width := by
    simp only [Camera.moveTo, Vec2.sub_x]; field_simp; ring
  have e2 : (p.y - (c.moveTo p).origin.y) * (c.moveTo p).scaling = c.centering.2 * c.height := by
    simp only [Camera.moveTo, Vec2.sub_y]; field_simp; ring
  constructor
  · unfold exactPixel; rw [e1, e2]
  · unfold Camera.pos2pix Camera.pix; rw [e1, e2]

example : (({} : Camera).moveTo ⟨100, 4⟩).pos2pix ⟨100, 4⟩ = (300, 75) := by
  rw [(ego_centred _ (by norm_num) _).2]
  norm_num [pyInt]

/-! ## Zooming and moving the view -/

theorem camera_folds (c : Camera) (evs : List UiEvent) :
    (cameraAfter c evs).scaling
      = c.scaling * (1.3 : ℝ) ^ ((evs.count (.keyDown .o) : ℤ) - evs.count (.keyDown .l))
    ∧ (cameraAfter c evs).centering
      = (c.centering.1 + 0.1 * ((evs.count (.keyDown .k) : ℝ) - evs.count (.keyDown .m)), c.centering.2)
    ∧ (cameraAfter c evs).origin = c.origin ∧ (cameraAfter c evs).width = c.width ∧ (cameraAfter c evs).height = c.height := by
  induction evs generalizing c with
  | nil => simp [cameraAfter]
  | cons e es ih =>
    have h := ih (c.handleEvent e)
    obtain ⟨h1, h2, h3, h4, h5⟩ := h
    have hc : cameraAfter c (e :: es) = cameraAfter (c.handleEvent e) es := rfl
    rw [hc, h1, h2, h3, h4, h5]
    have nz : (1.3 : ℝ) ≠ 0 := by norm_num
    cases e with
    | quit => simp [Camera.handleEvent, List.count_cons]
    | other => simp [Camera.handleEvent, List.count_cons]
    | keyUp k => simp [Camera.handleEvent, List.count_cons]
    | keyDown k =>
      cases k <;> simp [Camera.handleEvent, List.count_cons]
      · rw [show ∀ a b : ℤ, a - (b + 1) = (a - b) - 1 from fun a b => by ring, zpow_sub_one₀ nz]; ring
      · rw [show ∀ a b : ℤ, a + 1 - b = (a - b) + 1 from fun a b => by ring, zpow_add_one₀ nz]; ring
      · ring
      · ring

/-- C99: the zoom depends only on how many times the two zoom keys were pressed — each press of `O` multiplies it by 1.3 and each press of `L`
divides it by 1.3, in any order — the two move keys shift the view by a tenth of the width each, and no event ever makes the zoom vanish or
change sign. -/
theorem zoom_keys (c : Camera) (evs : List UiEvent) :
    (cameraAfter c evs).scaling
      = c.scaling * (1.3 : ℝ) ^ ((evs.count (.keyDown .o) : ℤ) - evs.count (.keyDown .l))
    ∧ (cameraAfter c evs).centering.1
      = c.centering.1 + 0.1 * ((evs.count (.keyDown .k) : ℝ) - evs.count (.keyDown .m))
    ∧ (cameraAfter c evs).centering.2 = c.centering.2
    ∧ (0 < c.scaling → 0 < (cameraAfter c evs).scaling) := by
  obtain ⟨h1, h2, -⟩ := camera_folds c evs
  refine ⟨h1, by rw [h2], by rw [h2], fun h => ?_⟩
  rw [h1]; positivity

/-- C99: zooming in and out the same number of times restores the view. -/
theorem zoom_undone (c : Camera) (evs : List UiEvent) (ho : evs.count (.keyDown .o) = evs.count (.keyDown .l))
    (hk : evs.count (.keyDown .k) = evs.count (.keyDown .m)) : cameraAfter c evs = c := by
  obtain ⟨h1, h2, h3, h4, h5⟩ := camera_folds c evs
  rw [ho] at h1; rw [hk] at h2
  simp at h1 h2
  cases hc : cameraAfter c evs
  rw [hc] at h1 h2 h3 h4 h5
  cases c
  simp_all

example : (cameraAfter {} [.keyDown .o, .keyDown .l, .keyDown .o, .keyUp .o]).scaling = 5.5 * 1.3 := by
  rw [(zoom_keys _ _).1]
  simp [List.count_cons]

/-! ## Which vehicles are drawn -/

/-- C99: a vehicle part of whose body is inside the displayed frame is not skipped as invisible, provided half a diagonal of a vehicle (2.69 m)
spans less than 50 pixels. -/
theorem visible_if_in_frame (c : Camera) (hs : 0 < c.scaling) (hz : c.scaling * √(29 / 4) < 50) (p : Vec2) (h : ℝ) (q : Vec2)
    (hq : OnBody p h q) (hf : InFrame c q) : c.isVisible p = true := by
  obtain ⟨a, b, ha, hb, rfl⟩ := hq
  have key : ∀ u v : ℝ, u ^ 2 + v ^ 2 = 1 → |a * u + b * v| ≤ √(29 / 4) := by
    intro u v huv
    apply Real.abs_le_sqrt
    have h1 : (a * u + b * v) ^ 2 ≤ (a ^ 2 + b ^ 2) * (u ^ 2 + v ^ 2) := by nlinarith [sq_nonneg (a * v - b * u)]
    have h2 : a ^ 2 ≤ (5 / 2) ^ 2 := by rw [← sq_abs]; exact pow_le_pow_left₀ (abs_nonneg _) ha 2
    have h3 : b ^ 2 ≤ 1 ^ 2 := by rw [← sq_abs]; exact pow_le_pow_left₀ (abs_nonneg _) hb 2
    rw [huv] at h1
    nlinarith
  have kx := key (cos h) (-sin h) (by nlinarith [sin_sq_add_cos_sq h])
  have ky := key (sin h) (cos h) (by nlinarith [sin_sq_add_cos_sq h])
  rw [abs_le] at kx ky
  obtain ⟨f1, f2, f3, f4⟩ := hf
  simp only [exactPixel] at f1 f2 f3 f4
  have bound : ∀ t z : ℝ, ∀ w : ℕ, -√(29 / 4) ≤ t → t ≤ √(29 / 4) → 0 ≤ (z + t) * c.scaling → (z + t) * c.scaling ≤ w →
      -50 < pyInt (z * c.scaling) ∧ pyInt (z * c.scaling) < (w : Int) + 50 := by
    intro t z w t1 t2 z1 z2
    have m1 : t * c.scaling ≤ √(29 / 4) * c.scaling := mul_le_mul_of_nonneg_right t2 hs.le
    have m2 : -√(29 / 4) * c.scaling ≤ t * c.scaling := mul_le_mul_of_nonneg_right t1 hs.le
    have lo : -50 < z * c.scaling := by nlinarith
    have hi : z * c.scaling < w + 50 := by nlinarith
    unfold pyInt
    split
    · rename_i hz0
      refine ⟨by have := Int.floor_nonneg.2 hz0; omega, Int.floor_lt.2 (by push_cast; exact hi)⟩
    · rename_i hz0
      push Not at hz0
      refine ⟨Int.lt_ceil.2 (by push_cast; exact lo), ?_⟩
      have : ⌈z * c.scaling⌉ ≤ 0 := Int.ceil_le.2 (by simpa using hz0.le)
      omega
  have bx := bound (a * cos h + b * -sin h) (p.x - c.origin.x) c.width kx.1 kx.2
    (by convert f1 using 1; ring) (by convert f2 using 1; ring)
  have by' := bound (a * sin h + b * cos h) (p.y - c.origin.y) c.height ky.1 ky.2
    (by convert f3 using 1; ring) (by convert f4 using 1; ring)
  unfold Camera.isVisible Camera.pos2pix Camera.pix
  simp only [Bool.and_eq_true, decide_eq_true_eq]
  exact ⟨⟨⟨bx.1, bx.2⟩, by'.1⟩, by'.2⟩

/-- The default zoom satisfies the proviso. -/
example : ({} : Camera).scaling * √(29 / 4) < 50 := by
  have : √(29 / 4 : ℝ) < 3 := by rw [Real.sqrt_lt' (by norm_num)]; norm_num
  show (5.5 : ℝ) * √(29 / 4) < 50
  linarith

/-- C99: past that zoom the proviso matters: a vehicle whose front is in the frame is not drawn. -/
theorem zoomed_in_hides :
    ∃ (c : Camera) (p q : Vec2), c.width = 600 ∧ c.height = 150 ∧ c.scaling = 25 ∧ OnBody p 0 q ∧ InFrame c q ∧ c.isVisible p = false := by
  refine ⟨{ scaling := 25 }, ⟨-(12 / 5), 1⟩, ⟨1 / 10, 1⟩, rfl, rfl, rfl, ⟨5 / 2, 0, by norm_num, by norm_num, ?_⟩, ?_, ?_⟩
  · ext <;> norm_num
  · refine ⟨?_, ?_, ?_, ?_⟩ <;> norm_num [exactPixel]
  · have : pyInt (-60) = -60 := by norm_num [pyInt]
    unfold Camera.isVisible Camera.pos2pix Camera.pix
    norm_num [this]

/-! ## Where a vehicle's body is drawn -/

theorem minOf4 (a b c d : ℝ) : VehicleGraphics.minOf [a, b, c, d] = min a (min b (min c d)) := by
  simp only [VehicleGraphics.minOf, List.foldr, List.headD]
  rw [min_comm d a, ← min_assoc c a d, min_comm c a, min_assoc a c d, ← min_assoc b a, min_comm b a, min_assoc a b, ← min_assoc a a, min_self]

theorem maxOf4 (a b c d : ℝ) : VehicleGraphics.maxOf [a, b, c, d] = max a (max b (max c d)) := by
  simp only [VehicleGraphics.maxOf, List.foldr, List.headD]
  rw [max_comm d a, ← max_assoc c a d, max_comm c a, max_assoc a c d, ← max_assoc b a, max_comm b a, max_assoc a b, ← max_assoc a a, max_self]

/-- C99: an image turned by any angle is put on the surface centred on the requested position. -/
theorem blit_centred (w h angle : ℝ) (pos : Vec2) :
    (VehicleGraphics.blitOrigin w h angle pos).x + (VehicleGraphics.rotatedSize w h angle).x / 2 = pos.x
    ∧ (VehicleGraphics.blitOrigin w h angle pos).y + (VehicleGraphics.rotatedSize w h angle).y / 2 = pos.y := by
  have sym : ∀ u v : ℝ, min 0 (min u (min (u + v) v)) + max 0 (max u (max (u + v) v)) = u + v := by
    intro u v
    rcases le_total 0 u with hu | hu <;> rcases le_total 0 v with hv | hv
    · rw [min_eq_left (le_min hu (le_min (by linarith) hv)), max_eq_right, max_eq_right, max_eq_left] <;>
        first | linarith | (refine le_max_of_le_right (le_max_of_le_left ?_); linarith) | (refine le_max_of_le_left ?_; linarith)
    · rw [min_eq_right (a := u + v) (by linarith), min_eq_right (a := u) (by linarith), min_eq_right hv,
        max_eq_left (a := u + v) (by linarith), max_eq_left (a := u) (by linarith), max_eq_right hu]; ring
    · rw [min_eq_left (a := u + v) (by linarith), min_eq_left (a := u) (by linarith), min_eq_right hu,
        max_eq_right (a := u + v) (by linarith), max_eq_right (a := u) (by linarith), max_eq_right hv]
    · rw [min_eq_left (a := u + v) (by linarith), min_eq_right (a := u) (by linarith), min_eq_right (by linarith),
        max_eq_left (a := 0) (max_le hu (max_le (by linarith) hv))]; ring
  have sx := sym (cos angle * w) (sin angle * h)
  have sy := sym (sin angle * w) (-(cos angle * h))
  simp only [VehicleGraphics.blitOrigin, VehicleGraphics.rotatedSize, VehicleGraphics.bounds, VehicleGraphics.box, List.map,
    VehicleGraphics.rotate, Vec2.rot, minOf4, maxOf4, Vec2.sub_x, Vec2.sub_y]
  simp only [mul_zero, sub_zero, add_zero, zero_add, mul_neg, sub_neg_eq_add, neg_zero, zero_sub, neg_neg] at *
  constructor
  · linarith
  · linarith

/-- C99: the point of the image that lies `a` to the right of and `b` below its centre ends at the requested position moved by `(a, b)` turned by
the vehicle's heading: the drawing has the orientation of the vehicle (its angle is the opposite of the heading, because the vertical axis of the
surface points down). -/
theorem body_orientation (w h heading : ℝ) (pos : Vec2) (a b : ℝ) :
    VehicleGraphics.blitPoint w h (-heading) pos (w / 2 + a) (h / 2 + b)
      = ⟨pos.x + a * cos heading - b * sin heading, pos.y + a * sin heading + b * cos heading⟩ := by
  simp only [VehicleGraphics.blitPoint, VehicleGraphics.blitOrigin, VehicleGraphics.rotate, Vec2.rot, Vec2.sub_x, Vec2.sub_y, cos_neg, sin_neg]
  ext <;> simp only <;> ring

/-- C99: the body drawn on the square image of a vehicle is a rectangle of 5 m by 2 m, up to one pixel, that lies inside the image, and whose centre is less than a pixel and a half away
from the centre of the image, in either direction. -/
theorem body_drawn (c : Camera) (hs : 0 ≤ c.scaling) : ∃ size left top width height : Int, VehicleGraphics.body c = (size, (left, top, width, height)) ∧
    |(width : ℝ) - 5 * c.scaling| < 1 ∧ |(height : ℝ) - 2 * c.scaling| < 1 ∧
    0 ≤ left ∧ 0 ≤ top ∧ left + width ≤ size ∧ top + height ≤ size ∧
    |(left + width / 2 : ℝ) - size / 2| < 3 / 2 ∧ |(top + height / 2 : ℝ) - size / 2| < 3 / 2 := by
  have hp : ∀ x : ℝ, 0 ≤ x → 0 ≤ c.pix x ∧ (c.pix x : ℝ) ≤ x * c.scaling ∧ x * c.scaling < c.pix x + 1 := by
    intro x hx
    have h : 0 ≤ x * c.scaling := mul_nonneg hx hs
    unfold Camera.pix pyInt
    rw [if_pos h]
    exact ⟨Int.floor_nonneg.2 h, Int.floor_le _, Int.lt_floor_add_one _⟩
  have hL : Vehicle.LENGTH = 5 := rfl
  have hW : Vehicle.WIDTH = 2 := rfl
  obtain ⟨s0, s1, s2⟩ := hp 7 (by norm_num)
  obtain ⟨l0, l1, l2⟩ := hp 1 (by norm_num)
  obtain ⟨t0, t1, t2⟩ := hp (5 / 2) (by norm_num)
  obtain ⟨w0, w1, w2⟩ := hp 5 (by norm_num)
  obtain ⟨h0, h1, h2⟩ := hp 2 (by norm_num)
  refine ⟨c.pix 7, c.pix 1, c.pix (5 / 2), c.pix 5, c.pix 2, ?_, ?_, ?_, l0, t0, ?_, ?_, ?_, ?_⟩
  · unfold VehicleGraphics.body
    rw [hL, hW]
    norm_num
  · rw [abs_lt]; constructor <;> linarith
  · rw [abs_lt]; constructor <;> linarith
  · have : ((c.pix 1 + c.pix 5 : Int) : ℝ) < c.pix 7 + 1 := by push_cast; linarith
    have : c.pix 1 + c.pix 5 < c.pix 7 + 1 := by exact_mod_cast this
    omega
  · have : ((c.pix (5 / 2) + c.pix 2 : Int) : ℝ) < c.pix 7 + 1 := by push_cast; linarith
    have : c.pix (5 / 2) + c.pix 2 < c.pix 7 + 1 := by exact_mod_cast this
    omega
  · rw [abs_lt]; constructor <;> linarith
  · rw [abs_lt]; constructor <;> linarith

/-- At the default zoom, the image of a vehicle has 38 × 38 pixels and the body on it 27 × 11. -/
example : VehicleGraphics.body {} = (38, (5, 13, 27, 11)) := by
  have hL : Vehicle.LENGTH = 5 := rfl
  have hW : Vehicle.WIDTH = 2 := rfl
  unfold VehicleGraphics.body Camera.pix pyInt
  rw [hL, hW]
  norm_num

/-- C99: the angle a vehicle is drawn with differs from its heading by at most two degrees: it is the heading, or zero for headings that small. -/
theorem heading_drawn (h : ℝ) : |VehicleGraphics.shownHeading h - h| ≤ 2 * Real.pi / 180 ∧
    (2 * Real.pi / 180 < |h| → VehicleGraphics.shownHeading h = h) ∧ (|h| ≤ 2 * Real.pi / 180 → VehicleGraphics.shownHeading h = 0) := by
  have hpi : 0 ≤ 2 * Real.pi / 180 := by positivity
  unfold VehicleGraphics.shownHeading
  by_cases hc : |h| > 2 * Real.pi / 180
  · rw [if_pos hc]
    exact ⟨by simpa using hpi, fun _ => rfl, fun h' => absurd h' (not_le.2 hc)⟩
  · rw [if_neg hc]
    refine ⟨?_, fun h' => absurd h' hc, fun _ => rfl⟩
    rw [zero_sub, abs_neg]
    exact not_lt.1 hc

/-! ## Lane markings -/

/-- C99: a piece of marking is drawn as a line whose ends are less than one pixel away from its ends on the road, at least one pixel wide (so it is never invisible) and otherwise 0.3 m
wide up to one pixel. -/
theorem line_drawn (l : Lane) (c : Camera) (p : Piece) : ∃ a b width, LaneGraphics.linePixels l c p = (a, b, width) ∧
    |(a.1 : ℝ) - (exactPixel c (l.position p.start p.lat)).x| < 1 ∧ |(a.2 : ℝ) - (exactPixel c (l.position p.start p.lat)).y| < 1 ∧
    |(b.1 : ℝ) - (exactPixel c (l.position p.stop p.lat)).x| < 1 ∧ |(b.2 : ℝ) - (exactPixel c (l.position p.stop p.lat)).y| < 1 ∧
    1 ≤ width ∧ (1 ≤ 0.3 * c.scaling → |(width : ℝ) - 0.3 * c.scaling| < 1) ∧ (0.3 * c.scaling < 1 → width = 1) := by
  obtain ⟨a1, a2, _⟩ := pixel_close c (l.position p.start p.lat)
  obtain ⟨b1, b2, _⟩ := pixel_close c (l.position p.stop p.lat)
  refine ⟨_, _, _, rfl, a1, a2, b1, b2, le_max_right _ _, ?_, ?_⟩
  · intro h1
    have hfl : (1 : Int) ≤ c.pix 0.3 := by
      unfold Camera.pix pyInt
      rw [if_pos (by linarith)]
      exact Int.le_floor.2 (by simpa using h1)
    rw [max_eq_left hfl]
    exact (pyInt_bounds _).1
  · intro h1
    apply max_eq_right
    have : c.pix 0.3 ≤ pyInt 1 := pyInt_mono h1.le
    have h' : pyInt 1 = 1 := by norm_num [pyInt]
    rw [h'] at this
    exact this

private theorem count_nonneg (c : Camera) (hs : 0 < c.scaling) : 0 ≤ LaneGraphics.stripesCount c := by
  have h : (0 : ℝ) ≤ 2 * ((c.height : ℝ) + c.width) / (5 * c.scaling) := by positivity
  unfold LaneGraphics.stripesCount pyInt
  rw [if_pos h]; exact Int.floor_nonneg.2 h

/-- C99: every piece of marking drawn lies on the lane, is longer than 1.5 m, goes forward, and lies on the side of the lane it belongs to. -/
theorem markings_on_lane (t : LineType) (l : Lane) (c : Camera) (hs : 0 < c.scaling) (hl : 0 ≤ l.length) (side : ℕ) (p : Piece)
    (hp : p ∈ LaneGraphics.drawn t l c side) :
    0 ≤ p.start ∧ p.start + 3 / 2 < p.stop ∧ p.stop ≤ l.length ∧ p.lat = ((side : ℝ) - 1 / 2) * l.width := by
  have hn := count_nonneg c hs
  have hnr : (0 : ℝ) ≤ LaneGraphics.stripesCount c := by exact_mod_cast hn
  unfold LaneGraphics.drawn at hp
  rw [List.mem_filter, decide_eq_true_eq, List.mem_map] at hp
  obtain ⟨⟨q, hq, rfl⟩, hlong⟩ := hp
  have main : q.start ≤ q.stop ∧ q.lat = ((side : ℝ) - 1 / 2) * l.width := by
    have e : (0.5 : ℝ) = 1 / 2 := by norm_num
    cases t <;> simp only [LaneGraphics.pieces, List.mem_map, List.mem_singleton, List.not_mem_nil] at hq
    · obtain ⟨k, -, rfl⟩ := hq; exact ⟨by simp, by simp only [Lane.widthAt, e]⟩
    · obtain ⟨k, -, rfl⟩ := hq; exact ⟨by simp, by simp only [Lane.widthAt, e]⟩
    · subst hq; exact ⟨by simp only; linarith, by simp only [Lane.widthAt, e]⟩
  have m : npClip q.start 0 l.length ≤ npClip q.stop 0 l.length := npClip_mono main.1
  simp only [LaneGraphics.clipPiece] at hlong ⊢
  rw [abs_of_nonpos (by linarith)] at hlong
  exact ⟨le_npClip hl, by norm_num at hlong; linarith, npClip_le, main.2⟩

/-- Every piece of a striped or continuous marking begins at a multiple of 5 m from the start of the lane. -/
private theorem piece_fixed (gap : ℝ) (hg : 0 ≤ gap) (hg5 : gap ≤ 5) (l : Lane) (hl : 0 ≤ l.length) (m : Int)
    (h : 0.5 * 3 < |npClip (5 * (m : ℝ)) 0 l.length - npClip (5 * (m : ℝ) + gap) 0 l.length|) :
    ∃ n : ℕ, (n : Int) = m ∧ 5 * (n : ℝ) < l.length ∧ npClip (5 * (m : ℝ)) 0 l.length = 5 * n
      ∧ npClip (5 * (m : ℝ) + gap) 0 l.length = min (5 * n + gap) l.length := by
  have hm : 0 ≤ m := by
    by_contra hc
    have h1 : m ≤ -1 := by omega
    have h2 : (m : ℝ) ≤ -1 := by exact_mod_cast h1
    rw [npClip_of_le (by linarith) hl, npClip_of_le (by linarith) hl] at h
    norm_num at h
  obtain ⟨n, rfl⟩ := Int.eq_ofNat_of_zero_le hm
  have hn : (0 : ℝ) ≤ n := Nat.cast_nonneg n
  push_cast at h ⊢
  have hlt : 5 * (n : ℝ) < l.length := by
    by_contra hc
    push Not at hc
    rw [npClip_of_ge hc, npClip_of_ge (by linarith)] at h
    norm_num at h
  refine ⟨n, rfl, hlt, npClip_of_mem (by linarith) hlt.le, ?_⟩
  unfold npClip
  rw [max_eq_left (by linarith)]

/-- C99: stripes are fixed on the road: whatever the position of the camera and the zoom, the stripes drawn are the intervals from `5 n` to
`5 n + 3` metres along the lane (cut at the end of the lane). -/
theorem stripes_fixed (l : Lane) (c : Camera) (hl : 0 ≤ l.length) (side : ℕ) (p : Piece)
    (hp : p ∈ LaneGraphics.drawn .striped l c side) :
    ∃ n : ℕ, p.start = 5 * (n : ℝ) ∧ p.stop = min (5 * (n : ℝ) + 3) l.length := by
  unfold LaneGraphics.drawn at hp
  rw [List.mem_filter, decide_eq_true_eq, List.mem_map] at hp
  obtain ⟨⟨q, hq, rfl⟩, hlong⟩ := hp
  simp only [LaneGraphics.pieces, List.mem_map] at hq
  obtain ⟨k, -, rfl⟩ := hq
  simp only [LaneGraphics.clipPiece] at hlong ⊢
  have e : ((LaneGraphics.firstStripe l c : Int) : ℝ) + (k : ℝ) * 5
      = 5 * (((pyInt (l.localCoordinates c.origin).1 / 5 - LaneGraphics.stripesCount c / 2 + k : Int)) : ℝ) := by
    unfold LaneGraphics.firstStripe; push_cast; ring
  rw [e] at hlong ⊢
  obtain ⟨n, -, -, h1, h2⟩ := piece_fixed 3 (by norm_num) (by norm_num) l hl _ hlong
  exact ⟨n, h1, h2⟩

private theorem straight_gap {a b : Vec2} (hab : a ≠ b) (o p : Vec2) :
    ((Lane.straightLocal a b p).1 - (Lane.straightLocal a b o).1) ^ 2 ≤ (p.x - o.x) ^ 2 + (p.y - o.y) ^ 2 := by
  have hd := Lane.straightDir_sq hab
  unfold Lane.straightLocal Vec2.dot
  simp only [Vec2.sub_x, Vec2.sub_y]
  set d := Lane.straightDir a b
  have : ((p.x - o.x) * d.x + (p.y - o.y) * d.y) ^ 2 ≤ ((p.x - o.x) ^ 2 + (p.y - o.y) ^ 2) * (d.x ^ 2 + d.y ^ 2) := by
    nlinarith [sq_nonneg ((p.x - o.x) * d.y - (p.y - o.y) * d.x)]
  rw [hd] at this
  nlinarith

/-- On a straight or sine lane, a point of the lane inside the frame is at most the diagonal of the frame away from the projection of the origin. -/
private theorem along_gap (l : Lane) (hl : Rectilinear l) (c : Camera) (hs : 0 < c.scaling) (s r : ℝ) (hf : InFrame c (l.position s r)) :
    |(s - (l.localCoordinates c.origin).1) * c.scaling| ≤ √((c.width : ℝ) ^ 2 + (c.height : ℝ) ^ 2) := by
  obtain ⟨a, b, hab, hsh⟩ := hl
  obtain ⟨r', hpos, hloc⟩ : ∃ r', l.position s r = Lane.straightPosition a b s r' ∧
      (l.localCoordinates c.origin).1 = (Lane.straightLocal a b c.origin).1 := by
    rcases hsh with h | ⟨amp, w, ph, h⟩
    · exact ⟨r, by simp only [Lane.position, h], by simp only [Lane.localCoordinates, h]⟩
    · exact ⟨r + amp * sin (w * s + ph), by simp only [Lane.position, h], by simp only [Lane.localCoordinates, h]⟩
  rw [hloc]
  have g := straight_gap hab c.origin (l.position s r)
  rw [hpos, Lane.straight_local_pos hab] at g
  rw [← hpos] at g
  apply Real.abs_le_sqrt
  obtain ⟨f1, f2, f3, f4⟩ := hf
  simp only [exactPixel] at f1 f2 f3 f4
  simp only at g
  have h1 : ((l.position s r).x - c.origin.x) ^ 2 * c.scaling ^ 2 ≤ (c.width : ℝ) ^ 2 := by
    rw [← mul_pow]; exact pow_le_pow_left₀ f1 f2 2
  have h2 : ((l.position s r).y - c.origin.y) ^ 2 * c.scaling ^ 2 ≤ (c.height : ℝ) ^ 2 := by
    rw [← mul_pow]; exact pow_le_pow_left₀ f3 f4 2
  rw [mul_pow]
  have := mul_le_mul_of_nonneg_right g (sq_nonneg c.scaling)
  linarith

private theorem window (l : Lane) (hl : Rectilinear l) (c : Camera) (hs : 0 < c.scaling) (hv : WideView c) (s r : ℝ)
    (hf : InFrame c (l.position s r)) :
    (LaneGraphics.firstStripe l c : ℝ) ≤ s ∧ s < LaneGraphics.firstStripe l c + 5 * LaneGraphics.stripesCount c := by
  have g := along_gap l hl c hs s r hf
  unfold LaneGraphics.firstStripe
  have hA : LaneGraphics.stripesCount c = ⌊2 * ((c.height : ℝ) + c.width) / (5 * c.scaling)⌋ := by
    unfold LaneGraphics.stripesCount pyInt
    rw [if_pos (by positivity)]
  have n1 := Int.lt_floor_add_one (2 * ((c.height : ℝ) + c.width) / (5 * c.scaling))
  rw [← hA] at n1
  set n := LaneGraphics.stripesCount c
  set so := (l.localCoordinates c.origin).1
  have t := (pyInt_bounds so).1
  set T := pyInt so
  rw [abs_lt] at t
  rw [abs_le] at g
  unfold WideView at hv
  set D := √((c.width : ℝ) ^ 2 + (c.height : ℝ) ^ 2)
  have d1 : 5 * (T / 5) ≤ T := by omega
  have d2 : T ≤ 5 * (T / 5) + 4 := by omega
  have e1 : 2 * (n / 2) ≤ n := by omega
  have e2 : n ≤ 2 * (n / 2) + 1 := by omega
  have d1' : 5 * ((T / 5 : Int) : ℝ) ≤ T := by exact_mod_cast d1
  have d2' : (T : ℝ) ≤ 5 * ((T / 5 : Int) : ℝ) + 4 := by exact_mod_cast d2
  have e1' : 2 * ((n / 2 : Int) : ℝ) ≤ n := by exact_mod_cast e1
  have e2' : (n : ℝ) ≤ 2 * ((n / 2 : Int) : ℝ) + 1 := by exact_mod_cast e2
  have hn : 2 * ((c.height : ℝ) + c.width) < (n + 1) * (5 * c.scaling) := by
    rwa [div_lt_iff₀ (by positivity)] at n1
  have key : D < (5 / 2 * (n : ℝ) - 5) * c.scaling := by nlinarith
  have up : s - so < 5 / 2 * (n : ℝ) - 5 := by
    have : (s - so) * c.scaling < (5 / 2 * (n : ℝ) - 5) * c.scaling := lt_of_le_of_lt g.2 key
    exact lt_of_mul_lt_mul_right this hs.le
  have lo : -(5 / 2 * (n : ℝ) - 5) < s - so := by
    have : -(5 / 2 * (n : ℝ) - 5) * c.scaling < (s - so) * c.scaling := by linarith [g.1]
    exact lt_of_mul_lt_mul_right this hs.le
  push_cast
  constructor
  · linarith [t.2]
  · linarith [t.1]

private theorem floor_piece (l : Lane) (c : Camera) (s : ℝ) (h1 : (LaneGraphics.firstStripe l c : ℝ) ≤ s)
    (h2 : s < LaneGraphics.firstStripe l c + 5 * LaneGraphics.stripesCount c) :
    ∃ k ∈ LaneGraphics.stripes c, (LaneGraphics.firstStripe l c : ℝ) + (k : ℝ) * 5 = 5 * (⌊s / 5⌋ : ℝ) := by
  obtain ⟨m, hm⟩ : ∃ m : Int, LaneGraphics.firstStripe l c = 5 * m := ⟨pyInt (l.localCoordinates c.origin).1 / 5 - LaneGraphics.stripesCount c / 2, by unfold LaneGraphics.firstStripe; ring⟩
  rw [hm] at h1 h2 ⊢
  push_cast at h1 h2 ⊢
  have a1 : m ≤ ⌊s / 5⌋ := Int.le_floor.2 (by linarith)
  have a2 : ⌊s / 5⌋ < m + LaneGraphics.stripesCount c := Int.floor_lt.2 (by push_cast; linarith)
  refine ⟨(⌊s / 5⌋ - m).toNat, ?_, ?_⟩
  · unfold LaneGraphics.stripes
    rw [List.mem_range]
    omega
  · have : (((⌊s / 5⌋ - m).toNat : ℕ) : ℝ) = (⌊s / 5⌋ : ℝ) - m := by
      have : (((⌊s / 5⌋ - m).toNat : ℕ) : Int) = ⌊s / 5⌋ - m := Int.toNat_of_nonneg (by omega)
      exact_mod_cast this
    rw [this]; ring

private theorem floor_five (s : ℝ) : 5 * (⌊s / 5⌋ : ℝ) ≤ s ∧ s < 5 * (⌊s / 5⌋ : ℝ) + 5 := by
  have h1 := Int.floor_le (s / 5)
  have h2 := Int.lt_floor_add_one (s / 5)
  constructor <;> linarith

/-- A piece handed to `draw_stripes` that is long enough once clipped and reaches `s` is drawn. -/
private theorem drawn_of {t : LineType} {l : Lane} {c : Camera} {side : ℕ} {s : ℝ} (q : Piece) (hq : q ∈ LaneGraphics.pieces t l c side)
    (h1 : npClip q.start 0 l.length ≤ s) (h2 : s ≤ npClip q.stop 0 l.length)
    (h3 : npClip q.start 0 l.length + 3 / 2 < npClip q.stop 0 l.length) : ∃ p ∈ LaneGraphics.drawn t l c side, Covers p s := by
  refine ⟨LaneGraphics.clipPiece l q, ?_, h1, h2⟩
  unfold LaneGraphics.drawn
  rw [List.mem_filter]
  refine ⟨List.mem_map_of_mem hq, ?_⟩
  rw [decide_eq_true_eq]
  simp only [LaneGraphics.clipPiece]
  rw [abs_of_neg (by linarith)]
  norm_num; linarith

/-- C99: on a straight or sine lane, every point of a continuous marking inside the frame is drawn — at its place, on the side of the lane — except
possibly in the last 1.5 m of the lane. -/
theorem continuous_drawn (l : Lane) (hl : Rectilinear l) (c : Camera) (hs : 0 < c.scaling) (hv : WideView c) (side : ℕ) (s r : ℝ)
    (h0 : 0 ≤ s) (h1 : s + 3 / 2 < l.length) (hf : InFrame c (l.position s r)) :
    (∃ p ∈ LaneGraphics.drawn .continuous l c side, Covers p s) ∧ (∃ p ∈ LaneGraphics.drawn .continuousLine l c side, Covers p s) := by
  obtain ⟨w1, w2⟩ := window l hl c hs hv s r hf
  obtain ⟨f1, f2⟩ := floor_five s
  have fn : (0 : ℝ) ≤ ⌊s / 5⌋ := by exact_mod_cast Int.floor_nonneg.2 (by positivity)
  constructor
  · obtain ⟨k, hk, e⟩ := floor_piece l c s w1 w2
    refine drawn_of ⟨_, _, _⟩ (List.mem_map_of_mem hk) ?_ ?_ ?_ <;> dsimp only <;> rw [e]
    · rw [npClip_of_mem (by linarith) (by linarith)]; exact f1
    · unfold npClip
      rw [max_eq_left (by linarith)]
      exact le_min (by linarith) (by linarith)
    · rw [npClip_of_mem (by linarith) (by linarith)]
      unfold npClip
      rw [max_eq_left (by linarith)]
      exact lt_min (by linarith) (by linarith)
  · have cov1 : npClip ((LaneGraphics.firstStripe l c : ℝ) + 0 * 5) 0 l.length ≤ s := by
      unfold npClip
      exact (min_le_left _ _).trans (max_le (by linarith) h0)
    have cov2 : s + 3 / 2 < npClip ((LaneGraphics.firstStripe l c : ℝ) + LaneGraphics.stripesCount c * 5 + 3) 0 l.length := by
      unfold npClip
      exact lt_min (lt_max_of_lt_left (by linarith)) h1
    exact drawn_of ⟨_, _, _⟩ (List.mem_singleton.2 rfl) cov1 (le_trans (by linarith) cov2.le)
      (lt_of_le_of_lt (by gcongr) cov2)

/-- C99: the same for a striped marking: of the points inside the frame, exactly those in the first three metres of each 5 m interval are drawn
(except possibly in the last 1.5 m of the lane). -/
theorem striped_drawn (l : Lane) (hl : Rectilinear l) (c : Camera) (hs : 0 < c.scaling) (hv : WideView c) (side : ℕ) (s r : ℝ)
    (h0 : 0 ≤ s) (h1 : s + 3 / 2 < l.length) (hf : InFrame c (l.position s r)) :
    (∃ p ∈ LaneGraphics.drawn .striped l c side, Covers p s) ↔ s - 5 * (⌊s / 5⌋ : ℝ) ≤ 3 := by
  obtain ⟨w1, w2⟩ := window l hl c hs hv s r hf
  obtain ⟨f1, f2⟩ := floor_five s
  have fn : (0 : ℝ) ≤ ⌊s / 5⌋ := by exact_mod_cast Int.floor_nonneg.2 (by positivity)
  constructor
  · rintro ⟨p, hp, c1, c2⟩
    obtain ⟨n, e1, e2⟩ := stripes_fixed l c (by linarith) side p hp
    rw [e1] at c1
    rw [e2] at c2
    have c3 := c2.trans (min_le_left _ _)
    have : (⌊s / 5⌋ : Int) = n := by
      rw [Int.floor_eq_iff]
      push_cast
      constructor <;> linarith
    rw [this]; push_cast; linarith
  · intro hm
    obtain ⟨k, hk, e⟩ := floor_piece l c s w1 w2
    refine drawn_of ⟨_, _, _⟩ (List.mem_map_of_mem hk) ?_ ?_ ?_ <;> dsimp only <;> rw [e]
    · rw [npClip_of_mem (by linarith) (by linarith)]; exact f1
    · unfold npClip
      rw [max_eq_left (by linarith)]
      exact le_min (by linarith) (by linarith)
    · rw [npClip_of_mem (by linarith) (by linarith)]
      unfold npClip
      rw [max_eq_left (by linarith)]
      exact lt_min (by linarith) (by linarith)

/-- The default view satisfies the hypothesis on the frame, and so does every wider one. -/
example : WideView {} := by
  unfold WideView
  have : √(((600 : ℕ) : ℝ) ^ 2 + ((150 : ℕ) : ℝ) ^ 2) ≤ 700 := by
    rw [Real.sqrt_le_left (by norm_num)]; norm_num
  show √(((600 : ℕ) : ℝ) ^ 2 + ((150 : ℕ) : ℝ) ^ 2) + 15 / 2 * 5.5 ≤ ((600 : ℕ) : ℝ) + ((150 : ℕ) : ℝ)
  norm_num at this ⊢
  linarith

/-- A marking 20 m ahead of a camera at the start of a 1000 m lane meets the hypotheses of `continuous_drawn` and `striped_drawn`. -/
example : let l : Lane := { shape := .straight ⟨0, 0⟩ ⟨1000, 0⟩ }
    Rectilinear l ∧ 0 < ({} : Camera).scaling ∧ (20 : ℝ) + 3 / 2 < l.length ∧ InFrame {} (l.position 20 2) := by
  have hn : (⟨1000, 0⟩ - ⟨0, 0⟩ : Vec2).norm = 1000 := by
    unfold Vec2.norm
    simp only [Vec2.sub_x, Vec2.sub_y]
    rw [show ((1000 : ℝ) - 0) ^ 2 + (0 - 0) ^ 2 = 1000 ^ 2 by norm_num]
    exact Real.sqrt_sq (by norm_num)
  refine ⟨⟨_, _, ?_, Or.inl rfl⟩, by norm_num, ?_, ?_⟩
  · intro h; have := congrArg Vec2.x h; norm_num at this
  · simp only [Lane.length, hn]; norm_num
  · have hd : Lane.straightDir ⟨0, 0⟩ ⟨1000, 0⟩ = ⟨1, 0⟩ := by
      unfold Lane.straightDir; rw [hn]; norm_num
    simp only [Lane.position, Lane.straightPosition, hd]
    refine ⟨?_, ?_, ?_, ?_⟩ <;> norm_num [exactPixel]

/-- C99: the exception matters: the last metre of a 101 m lane is never drawn, in any view. -/
theorem last_metre_missing (c : Camera) (side : ℕ) (l : Lane) (hl : l.length = 101) :
    ¬ ∃ p ∈ LaneGraphics.drawn .continuous l c side, Covers p (201 / 2) := by
  rintro ⟨p, hp, c1, c2⟩
  unfold LaneGraphics.drawn at hp
  rw [List.mem_filter, decide_eq_true_eq, List.mem_map] at hp
  obtain ⟨⟨q, hq, rfl⟩, hlong⟩ := hp
  simp only [LaneGraphics.pieces, List.mem_map] at hq
  obtain ⟨k, -, rfl⟩ := hq
  simp only [LaneGraphics.clipPiece] at hlong c1 c2
  have e : ((LaneGraphics.firstStripe l c : Int) : ℝ) + (k : ℝ) * 5
      = 5 * (((pyInt (l.localCoordinates c.origin).1 / 5 - LaneGraphics.stripesCount c / 2 + k : Int)) : ℝ) := by
    unfold LaneGraphics.firstStripe; push_cast; ring
  rw [e] at hlong c1 c2
  obtain ⟨n, -, h0, h1, h2⟩ := piece_fixed 5 (by norm_num) (by norm_num) l (by rw [hl]; norm_num) _ hlong
  rw [h1, h2] at hlong
  rw [h1] at c1
  rw [h2] at c2
  rw [hl] at h0 c2 hlong
  have c3 := c2.trans (min_le_left _ _)
  have n1 : (19 : ℝ) < n := by linarith
  have n2 : 20 ≤ n := by exact_mod_cast n1
  have n2' : (20 : ℝ) ≤ n := by exact_mod_cast n2
  rw [min_eq_right (by linarith), abs_of_neg (by linarith)] at hlong
  norm_num at hlong
  linarith

/-! ## Colours and history -/

/-- C99: with no colour of its own, a vehicle is drawn red exactly when it has crashed; a vehicle with a colour of its own keeps it even then. -/
theorem crashed_red (v : Vehicle) :
    (VehicleGraphics.colour none v = .red ↔ v.crashed = true) ∧ ∀ k, VehicleGraphics.colour (some k) v = k := by
  refine ⟨?_, fun _ => rfl⟩
  unfold VehicleGraphics.colour
  cases h : v.crashed <;> simp
  repeat' split
  all_goals simp

/-- C99: an obstacle is drawn red exactly when it was hit, a landmark green exactly when it was. -/
theorem object_colour (o : RoadObject) :
    (o.colour = .red ↔ o.kind = .obstacle ∧ o.hit = true) ∧ (o.colour = .green ↔ o.kind = .landmark ∧ o.hit = true) := by
  unfold RoadObject.colour
  cases o.kind <;> cases o.hit <;> simp

private theorem slice_at {α : Type} (d : ℕ) (hd : 0 < d) (l : List α) (off i : ℕ) :
    ((l.zipIdx off).filterMap fun (x : α × ℕ) => if x.2 % d = 0 then some x.1 else none)[i]? = l[i * d + (d - off % d) % d]? := by
  induction l generalizing off i with
  | nil => simp
  | cons x xs ih =>
    rw [List.zipIdx_cons, List.filterMap_cons]
    dsimp only
    have hlt := Nat.mod_lt off hd
    by_cases h : off % d = 0
    · rw [if_pos h]
      dsimp only
      rw [h, Nat.sub_zero, Nat.mod_self, Nat.add_zero]
      cases i with
      | zero => simp
      | succ i =>
        rw [List.getElem?_cons_succ, ih]
        have e : (off + 1) % d = 1 % d := by rw [Nat.add_mod, h]; simp
        rw [e, show (i + 1) * d = (i * d + (d - 1)) + 1 by rw [Nat.succ_mul]; omega, List.getElem?_cons_succ]
        congr 2
        rcases Nat.lt_or_ge 1 d with h1 | h1
        · rw [Nat.mod_eq_of_lt h1, Nat.mod_eq_of_lt (by omega)]
        · have : d = 1 := by omega
          subst this; rfl
    · rw [if_neg h]
      dsimp only
      rw [ih]
      have hne : 0 < off % d := Nat.pos_of_ne_zero h
      have e2 : (d - off % d) % d = d - off % d := Nat.mod_eq_of_lt (by omega)
      rw [e2]
      rcases Nat.lt_or_ge (off % d + 1) d with h1 | h1
      · have e : (off + 1) % d = off % d + 1 := by
          rw [Nat.add_mod, Nat.mod_eq_of_lt (a := 1) (by omega), Nat.mod_eq_of_lt h1]
        rw [e, Nat.mod_eq_of_lt (by omega), show i * d + (d - off % d) = (i * d + (d - (off % d + 1))) + 1 by omega,
          List.getElem?_cons_succ]
      · have e3 : off % d + 1 = d := by omega
        have e : (off + 1) % d = 0 := by
          rw [Nat.add_mod]
          rcases Nat.lt_or_ge 1 d with h5 | h5
          · rw [Nat.mod_eq_of_lt (a := 1) h5, e3, Nat.mod_self]
          · omega
        rw [e, Nat.sub_zero, Nat.mod_self, show i * d + (d - off % d) = (i * d + 0) + 1 by omega, List.getElem?_cons_succ]
        rfl

/-- C99: the trail of a vehicle shows the state recorded at every `⌊f / 3⌋`-th of the last `⌊2 f⌋` frames, `f` being the simulation frequency, and
drawing it raises exactly when `f < 3`. -/
theorem trail {α : Type} (history : List α) (f : ℝ) (hf : 0 ≤ f) :
    (f < 3 → VehicleGraphics.shownHistory history f = .error .valueError)
    ∧ (3 ≤ f → ∃ shown, VehicleGraphics.shownHistory history f = .ok shown
        ∧ ∀ i : ℕ, shown[i]? = if i * ⌊f / 3⌋₊ < ⌊2 * f⌋₊ then history[i * ⌊f / 3⌋₊]? else none) := by
  have hi1 : pyInt (f / 3) = ⌊f / 3⌋ := by unfold pyInt; rw [if_pos (by positivity)]
  have hi2 : pyInt (f * 2) = ⌊2 * f⌋ := by unfold pyInt; rw [if_pos (by positivity), mul_comm]
  unfold VehicleGraphics.shownHistory VehicleGraphics.slice
  rw [hi1, hi2]
  constructor
  · intro h
    rw [if_pos]
    left
    have : ⌊f / 3⌋ < 1 := Int.floor_lt.2 (by push_cast; linarith)
    omega
  · intro h
    have p1 : 1 ≤ ⌊f / 3⌋ := Int.le_floor.2 (by push_cast; linarith)
    have p2 : 0 ≤ ⌊2 * f⌋ := Int.floor_nonneg.2 (by positivity)
    rw [if_neg (by omega)]
    refine ⟨_, rfl, fun i => ?_⟩
    have t1 : (⌊f / 3⌋).toNat = ⌊f / 3⌋₊ := rfl
    have t2 : (⌊2 * f⌋).toNat = ⌊2 * f⌋₊ := rfl
    have hd : 0 < ⌊f / 3⌋₊ := by omega
    rw [t1, t2]
    rw [slice_at _ hd]
    simp only [Nat.zero_mod, Nat.sub_zero, Nat.mod_self, Nat.add_zero]
    rw [List.getElem?_take]

example : VehicleGraphics.shownHistory [1, 2, 3, 4, 5, 6, 7] 9 = .ok [1, 4, 7] := by
  have a : pyInt (9 * 2) = 18 := by norm_num [pyInt]
  have b : pyInt (9 / 3) = 3 := by norm_num [pyInt]
  unfold VehicleGraphics.shownHistory VehicleGraphics.slice
  rw [a, b]
  rfl

end HighwayEnv.Props
