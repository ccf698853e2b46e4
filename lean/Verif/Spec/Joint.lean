import Verif.Spec.Chance

/-!
# Specification vocabulary: joint actions
-/

noncomputable section
namespace HighwayEnv.Spec
open HighwayEnv

/-- The route tells the vehicle which road to take at the end of its target lane: it starts there, possibly after the road of the target lane itself. -/
def RouteContinues (v : Vehicle) : Prop :=
  ∃ first next rest, next.src = v.targetLane.dst ∧ next.dst ≠ "" ∧
    ((v.route = some (first :: next :: rest) ∧ first.src = v.targetLane.src ∧ first.dst = v.targetLane.dst) ∨
     (v.route = some (next :: rest) ∧ ¬ (next.src = v.targetLane.src ∧ next.dst = v.targetLane.dst)))

/-- A vehicle that has nothing to draw at random when it is given a command: it is driven by steering and acceleration, or it is not past the end of its target lane, or at most one
road leaves the end of that lane, or its route says which road to take. -/
def KnowsWay (g : Graph) (v : Vehicle) : Prop :=
  v.kind = .plain ∨ v.kind = .bicycle ∨
    ((v.kind = .controlled ∨ v.kind = .mdp) ∧
      ((∀ l, g.getLane v.targetLane = .ok l → l.afterEnd v.pos = false) ∨
       (∀ roads, Dict.get? g v.targetLane.dst = some roads → roads.length ≤ 1) ∨
       RouteContinues v))

end HighwayEnv.Spec
