import Verif.Spec.Mirror
import Verif.Spec.Quarter
import Verif.Spec.Episode
import Verif.Model.Env

/-!
# Specification vocabulary: an environment in a mirror
-/

noncomputable section
namespace HighwayEnv

/-- An environment whose world is reflected; clocks, agents and flags are the same. -/
def Env.mirror (e : Env) : Env := { e with road := e.road.mirror }

/-- The same action, steering to the other side: with two axes the steering is the second number of the vector, with steering alone the first one. Meta
actions keep their index: lanes keep their numbers, so that "left" goes on meaning the lane numbered one less. -/
def AgentType.mirrorAct : AgentType → AgentAction → AgentAction
  | .continuous c, .vector xs => .vector (if c.longitudinal then if c.lateral then xs.modify 1 (fun x => -x) else xs else xs.modify 0 (fun x => -x))
  | _, a => a

/-- The same for all agents of an environment. -/
def ActionType.mirrorAct : ActionType → AgentAction → AgentAction
  | .single t, a => t.mirrorAct a
  | .multi t, .tuple as => .tuple (as.map t.mirrorAct)
  | .multi _, a => a

/-- The agents' type. -/
def ActionType.each : ActionType → AgentType
  | .single t => t
  | .multi t => t

namespace Spec

/-- As much steering to the right as to the left: the range of the steering is centred on 0. -/
def EvenSteering : AgentType → Prop
  | .continuous c => c.steeringRange.1 = -c.steeringRange.2
  | .discrete _ _ => True

/-- All lanes of the road, and those recorded by its vehicles, are straight or sinusoidal and point within `e` of the direction `H`; its vehicles are
neither dynamic bicycles nor linear-model vehicles, and those with a lane controller head within `π/4 + e` of `H`. -/
structure OneWay (H e : ℝ) (r : Road) : Prop where
  keys : IsPyGraph r.network
  lanes : ∀ l, LaneOf r l → (∃ a b : Vec2, a ≠ b ∧ (l.shape = .straight a b ∨ ∃ amp w ph, l.shape = .sine a b amp w ph)) ∧ ∀ s, |l.headingAt s - H| ≤ e
  kinds : ∀ v ∈ r.vehicles, v.kind ≠ .bicycle ∧ v.kind.isLinear = false
  headings : ∀ v ∈ r.vehicles, v.kind.isControlled = true → |v.heading - H| ≤ Real.pi / 4 + e

/-- The methods of an environment class with agents of type `ty` do not tell left from right: when everything on the road has an image along all lanes,
they return the same termination, reward and cost in the mirrored world, for the mirrored action, or raise the same exception; and nothing else is done at
the end of a step. -/
structure SideFree (ty : ActionType) (cls : EnvClass) : Prop where
  terminal : ∀ e : Env, (∀ l p, LaneOf e.road l → Occupied e.road p → HasImage l p) → cls.terminal e.mirror = cls.terminal e
  reward : ∀ (e : Env) (a : Option AgentAction), (∀ l p, LaneOf e.road l → Occupied e.road p → HasImage l p) →
    cls.reward e.mirror (a.map ty.mirrorAct) = cls.reward e a
  cost : ∀ e : Env, (∀ l p, LaneOf e.road l → Occupied e.road p → HasImage l p) → cls.cost e.mirror = cls.cost e
  after : ∀ e : Env, cls.after e = .ok e

end Spec
end HighwayEnv
