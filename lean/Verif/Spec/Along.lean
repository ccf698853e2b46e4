import Verif.Model.Controller
import Verif.Spec.Geometry

/-!
# Specification vocabulary: positions along a route, straight roads at an angle, ellipses
-/

noncomputable section
namespace HighwayEnv.Spec
open HighwayEnv

/-- Total length of the first `j` lanes. -/
def covered (lanes : List Lane) (j : ℕ) : ℝ := ((lanes.take j).map Lane.length).sum

/-- Being `lon` metres along a chain of lanes means being on the `j`-th one: all the previous ones are behind, and its own end is not passed unless it is the last one. -/
def AlongAt (lanes : List Lane) (lon : ℝ) (j : ℕ) : Prop :=
  j < lanes.length ∧ (∀ i < j, covered lanes (i + 1) < lon) ∧ (j + 1 = lanes.length ∨ lon ≤ covered lanes (j + 1))

/-- Every lane starts where the previous one ends (on the centre lines). -/
def Linked (lanes : List Lane) : Prop :=
  ∀ (j : ℕ) (a b : Lane), lanes[j]? = some a → lanes[j + 1]? = some b → a.position a.length 0 = b.position 0 0

/-- How many metres the centre line advances, at most, per metre of longitudinal coordinate: 1 on straight and circular lanes, more on sine lanes. -/
def stretch (l : Lane) : ℝ :=
  match l.shape with
  | .straight _ _ => 1
  | .sine _ _ amp w _ => 1 + |amp * w|
  | .circular _ _ _ _ _ => 1

/-- The lane is not degenerate: its end differs from its start, or its radius is positive. -/
def ProperLane (l : Lane) : Prop :=
  match l.shape with
  | .straight a b => a ≠ b
  | .sine a b _ _ _ => a ≠ b
  | .circular _ r _ _ _ => 0 < r

/-- The inside of the ellipse of centre `c` with semi-axes `l` (in direction `a`) and `w`. -/
def ellipseSet (c : Vec2) (l w a : ℝ) : Set Vec2 :=
  { p | ∃ s t, (s / l) ^ 2 + (t / w) ^ 2 < 1 ∧ p = c + s • Vec2.dir a + t • (⟨-Real.sin a, Real.cos a⟩ : Vec2) }

end HighwayEnv.Spec
