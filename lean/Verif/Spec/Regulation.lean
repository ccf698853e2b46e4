import Verif.Model.Step

/-!
# Specification vocabulary: priority rules
-/

noncomputable section
namespace HighwayEnv.Spec
open HighwayEnv

/-- The signed distance at which `w` is seen ahead of `v`, along the heading of `v`. -/
def seenAhead (v w : Vehicle) : ℝ :=
  Real.cos v.heading * (w.pos.x - v.pos.x) + Real.sin v.heading * (w.pos.y - v.pos.y)

/-- Of two vehicles considered in this order, the first must give way: its lane has strictly lower priority, or the priorities are
equal and it sees the other one further ahead than conversely. -/
def GivesWay (v w : Vehicle) : Prop :=
  v.lane.priority < w.lane.priority ∨ (v.lane.priority = w.lane.priority ∧ seenAhead w v < seenAhead v w)

/-- The predicted trajectories of the two vehicles at constant speed come into conflict at one of the instants 1/4, 2/4, …, 11/4 s:
centres at most 5 m apart and rectangles 7.5 m × 1.8 m meeting (as tested by `rotated_rectangles_intersect`). -/
def InConflict (g : Graph) (v w : Vehicle) : Prop :=
  ∃ (p q : List (Vec2 × ℝ)) (k : ℕ) (a b : Vec2 × ℝ),
    v.predictConstantSpeed g ((List.range 11).map fun k : ℕ => ((k : ℝ) + 1) / 4) = .ok p ∧
    w.predictConstantSpeed g ((List.range 11).map fun k : ℕ => ((k : ℝ) + 1) / 4) = .ok q ∧
    p[k]? = some a ∧ q[k]? = some b ∧ (b.1 - a.1).norm ≤ 5 ∧
    rotatedRectanglesIntersect ⟨a.1, 7.5, 1.8, a.2⟩ ⟨b.1, 7.5, 1.8, b.2⟩ = true

/-- Vehicle number `i` of the road has to yield to some other vehicle (the pairs are considered in list order). -/
def MustYield (r : Road) (i : ℕ) : Prop :=
  ∃ (j : ℕ) (v w : Vehicle), r.vehicles[i]? = some v ∧ r.vehicles[j]? = some w ∧
    ((i < j ∧ InConflict r.network v w ∧ GivesWay v w) ∨ (j < i ∧ InConflict r.network w v ∧ ¬ GivesWay w v))

/-- A vehicle that the rules may slow down: it has a speed target and is not a discrete-action ego vehicle. -/
def Regulable (v : Vehicle) : Prop := v.kind.isControlled = true ∧ v.kind ≠ .mdp

end HighwayEnv.Spec
