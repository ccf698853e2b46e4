import Verif.Model.Py
import Mathlib.Analysis.Calculus.Deriv.Basic

/-! # Specification: tangent direction of a parametrised curve -/

namespace HighwayEnv.Spec

/-- The curve `c` is differentiable at `s` and its velocity there is a *positive* multiple `k` of the unit vector of
heading `h`. -/
def HeadingOfCurve (c : ℝ → Vec2) (s h : ℝ) (k : ℝ) : Prop :=
  0 < k ∧ HasDerivAt (fun u => (c u).x) (k * Real.cos h) s ∧ HasDerivAt (fun u => (c u).y) (k * Real.sin h) s

end HighwayEnv.Spec
