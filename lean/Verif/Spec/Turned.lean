import Verif.Spec.Quarter
import Verif.Spec.Episode
import Verif.Model.Observation

/-!
# Specification vocabulary: an environment in a world turned by a quarter turn
-/

noncomputable section
namespace HighwayEnv

/-- An environment whose world is turned by 90°; clocks, agents and flags are the same. -/
def Env.quarter (e : Env) : Env := { e with road := e.road.quarter }

namespace Spec

/-- All lanes of the road, and those recorded by the vehicles, are straight or sinusoidal, from one point to another one. -/
def WithoutCircles (r : Road) : Prop :=
  ∀ l, LaneOf r l → ∃ a b : Vec2, a ≠ b ∧ (l.shape = .straight a b ∨ ∃ amp w ph, l.shape = .sine a b amp w ph)

/-- The methods of an environment class depend on no absolute direction: when everything on the road has a place along all lanes, they return the same
termination, reward and cost in the turned world, or raise the same exception, and what the class does at the end of a step is done in the turned world
likewise. -/
structure DirectionFree (cls : EnvClass) : Prop where
  terminal : ∀ e : Env, Placeable e.road → cls.terminal e.quarter = cls.terminal e
  reward : ∀ (e : Env) (a : Option AgentAction), Placeable e.road → cls.reward e.quarter a = cls.reward e a
  cost : ∀ e : Env, Placeable e.road → cls.cost e.quarter = cls.cost e
  after : ∀ e : Env, Placeable e.road → cls.after e.quarter = (cls.after e).map Env.quarter
  keeps : ∀ e e' : Env, WithoutCircles e.road → cls.after e = .ok e' → WithoutCircles e'.road

/-- All along the decision `a` from `e`, after each of its frames until it stops, everything on the road has a place along the lanes. -/
def PlacedAlong (G : Globals) (c : SimConfig) (cls : EnvClass) (e : Env) (a : Option AgentAction) : Prop :=
  ∀ k, Env.framesPerStep c = .ok k → ∀ n ≤ k.toNat, ∀ s, Env.simulateLoop G c cls k a n { e with steps := e.steps + 1 } = .ok s →
    ∀ l p, LaneOf e.road l → Occupied s.road p → HasPlace l p

/-- What the description `d` of a vehicle (feature by feature) becomes in the turned world: positions, velocities and directions turn, the heading is
90° further, and all other features are the same. -/
def turnFeatures (d : Dict String ℝ) : Dict String ℝ :=
  let get := fun f : String => (Dict.get? d f).getD 0
  d.map fun fx => (fx.1,
    if fx.1 = "x" then -get "y" else if fx.1 = "y" then get "x"
    else if fx.1 = "vx" then -get "vy" else if fx.1 = "vy" then get "vx"
    else if fx.1 = "cos_h" then -get "sin_h" else if fx.1 = "sin_h" then get "cos_h"
    else if fx.1 = "cos_d" then -get "sin_d" else if fx.1 = "sin_d" then get "cos_d"
    else if fx.1 = "heading" then fx.2 + Real.pi / 2 else fx.2)

/-- A row `presence, x, y, vx, vy` of the kinematics observation in the turned world. -/
def turnRow : List ℝ → List ℝ
  | [p, x, y, vx, vy] => [p, -y, x, -vy, vx]
  | row => row

end Spec
end HighwayEnv
