import Verif.Model.Py

/-!
# Specification: rectangles as point sets

Independent of the model of `utils.py`: a rectangle is a set of points of the plane.
-/

noncomputable section

namespace HighwayEnv.Spec

/-- The closed rectangle of given centre, length (along direction `a`), width (across), as a set of points:
`center + s·(cos a, sin a) + t·(-sin a, cos a)` with `|s| ≤ length/2`, `|t| ≤ width/2`. -/
def rectSet (center : Vec2) (length width a : ℝ) : Set Vec2 :=
  {p | ∃ s t : ℝ, |s| ≤ length / 2 ∧ |t| ≤ width / 2 ∧
      p.x = center.x + s * Real.cos a - t * Real.sin a ∧
      p.y = center.y + s * Real.sin a + t * Real.cos a}

/-- Two point sets have a common point. -/
def Meet (A B : Set Vec2) : Prop := ∃ p, p ∈ A ∧ p ∈ B

end HighwayEnv.Spec
