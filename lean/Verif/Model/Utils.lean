import Verif.Model.Py

/-!
# Model of `highway_env/utils.py`
-/

noncomputable section
open Classical

namespace HighwayEnv

/-- `do_every` — utils.py:11-12. -/
def doEvery (duration timer : ℝ) : Bool := decide (duration < timer)

/-- `lmap` — utils.py:15-17.  (Division by a zero-width range is outside the modelled domain: floats give inf/nan.) -/
def lmap (v : ℝ) (x y : ℝ × ℝ) : ℝ := y.1 + (v - x.1) * (y.2 - y.1) / (x.2 - x.1)

/-- `not_zero` — utils.py:30-36. -/
def notZero (x : ℝ) (eps : ℝ := 1 / 100) : ℝ :=
  if |x| > eps then x else if x > 0 then eps else -eps

/-- `wrap_to_pi` — utils.py:39-40. -/
def wrapToPi (x : ℝ) : ℝ := pyMod (x + Real.pi) (2 * Real.pi) - Real.pi

/-- `point_in_rectangle` — utils.py:43-51. -/
def pointInRectangle (p rmin rmax : Vec2) : Bool :=
  decide (rmin.x ≤ p.x ∧ p.x ≤ rmax.x ∧ rmin.y ≤ p.y ∧ p.y ≤ rmax.y)

/-- `point_in_rotated_rectangle` — utils.py:54-69.  The code multiplies by the rotation of `+angle`. -/
def pointInRotatedRectangle (p center : Vec2) (length width angle : ℝ) : Bool :=
  let ru := Vec2.rot angle (p - center)
  pointInRectangle ru ⟨-length / 2, -width / 2⟩ ⟨length / 2, width / 2⟩

/-- `point_in_ellipse` — utils.py:72-86. -/
def pointInEllipse (p center : Vec2) (angle length width : ℝ) : Bool :=
  let ru := Vec2.rot angle (p - center)
  decide ((ru.x / length) ^ 2 + (ru.y / width) ^ 2 < 1)

/-- A rectangle `(center, length, width, angle)` as passed to `rotated_rectangles_intersect` — utils.py:89-90. -/
structure Rect where
  center : Vec2
  length : ℝ
  width : ℝ
  angle : ℝ

/-- `r1_points` before rotation — utils.py:109-113: centre, edge middles, corners. -/
def samplePoints (l w : ℝ) : List Vec2 :=
  let lv : Vec2 := ⟨l / 2, 0⟩
  let wv : Vec2 := ⟨0, w / 2⟩
  [⟨0, 0⟩, -lv, lv, -wv, wv, -lv - wv, -lv + wv, lv - wv, lv + wv]

/-- `has_corner_inside` — utils.py:100-117. -/
def hasCornerInside (r1 r2 : Rect) : Bool :=
  (samplePoints r1.length r1.width).any fun p =>
    pointInRotatedRectangle (r1.center + Vec2.rot r1.angle p) r2.center r2.length r2.width r2.angle

/-- `rotated_rectangles_intersect` — utils.py:89-97. -/
def rotatedRectanglesIntersect (r1 r2 : Rect) : Bool :=
  hasCornerInside r1 r2 || hasCornerInside r2 r1

end HighwayEnv
