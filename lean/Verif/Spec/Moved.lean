import Verif.Spec.Translate
import Verif.Spec.Episode
import Verif.Spec.Full
import Verif.Model.Envs.LaneKeeping

/-!
# Specification vocabulary: an environment in a displaced world
-/

noncomputable section
namespace HighwayEnv

/-- An environment whose world is displaced by `t`; clocks, agents and flags are the same. -/
def Env.translate (t : Vec2) (e : Env) : Env := { e with road := e.road.translate t }

/-- A scene whose road, if any, is displaced by `t`; everything else observers read is the same. -/
def Scene.translate (t : Vec2) (s : Scene) : Scene := { s with road := s.road.map (Road.translate t) }

/-- An environment and its observer in a displaced world. -/
def Full.translate (t : Vec2) (f : Full) : Full := { f with env := f.env.translate t }

namespace Spec

/-- Observers that show no absolute position: every kind but goals and occupancy grids (absolute when the observing vehicle is
not on the road), the kinematics ones being relative and without the features `x` and `y` (which the
code gives in absolute coordinates for the observing vehicle), and several of these. -/
inductive Relative : ObsType → Prop
  | ttc (h : ℝ) (v : Option ℕ) : Relative (.ttc h v)
  | kinematics (cfg : KinematicsConfig) (v : Option ℕ) (habs : cfg.absolute = false) (hx : "x" ∉ cfg.features) (hy : "y" ∉ cfg.features) :
      Relative (.kinematics cfg v)
  | image (w : Option (ℝ × ℝ × ℝ)) (n m : ℕ) (planes : List (List ℝ)) : Relative (.image w n m planes)
  | attributes (names : List String) : Relative (.attributes names)
  | multi (l : List ObsType) (h : ∀ o ∈ l, Relative o) : Relative (.multi l)

/-- The picture, the goal and the attributes shown to observers are the same in a displaced world (the camera follows the agent). -/
structure PositionFreeView (view : View) : Prop where
  goal : ∀ (t : Vec2) (e : Env), view.goal (e.translate t) = view.goal e
  picture : ∀ (t : Vec2) (e : Env), view.picture (e.translate t) = view.picture e
  attributes : ∀ (t : Vec2) (e : Env), view.attributes (e.translate t) = view.attributes e

/-- The methods of an environment class read no absolute position: in a displaced world they return the same termination, reward and cost,
or raise the same exception, and what the class does at the end of a step is done in the displaced world likewise. -/
structure PositionFree (cls : EnvClass) : Prop where
  terminal : ∀ (t : Vec2) (e : Env), cls.terminal (e.translate t) = cls.terminal e
  reward : ∀ (t : Vec2) (e : Env) (a : Option AgentAction), cls.reward (e.translate t) a = cls.reward e a
  cost : ∀ (t : Vec2) (e : Env), cls.cost (e.translate t) = cls.cost e
  after : ∀ (t : Vec2) (e : Env), cls.after (e.translate t) = (cls.after e).map (Env.translate t)

/-- The same for the displacement `t` only. -/
structure PositionFreeAt (t : Vec2) (cls : EnvClass) : Prop where
  terminal : ∀ e : Env, cls.terminal (e.translate t) = cls.terminal e
  reward : ∀ (e : Env) (a : Option AgentAction), cls.reward (e.translate t) a = cls.reward e a
  cost : ∀ e : Env, cls.cost (e.translate t) = cls.cost e
  after : ∀ e : Env, cls.after (e.translate t) = (cls.after e).map (Env.translate t)

/-- A displacement that does not change the fractional part of `π (x + y)`, from which the code seeds the lane-change clock of the traffic
vehicles it creates; for instance any displacement along a diagonal `x + y = 0`. -/
def KeepsClock (t : Vec2) : Prop := ∃ k : ℤ, (t.x + t.y) * Real.pi = k

/-- A number displayed for the feature `f` in a world displaced by `t`: only the features `x` and `y` are absolute. -/
def shiftFeature (t : Vec2) (f : String) (x : ℝ) : ℝ := if f = "x" then x + t.x else if f = "y" then x + t.y else x

/-- A list of numbers whose first one is increased by `d`. -/
def shiftFirst (d : ℝ) : List ℝ → List ℝ
  | [] => []
  | x :: xs => (x + d) :: xs

/-- A recorded state of a bicycle vehicle, whose first two entries are its position, displaced by `t`. -/
def shiftState (t : Vec2) : List ℝ → List ℝ
  | x :: y :: xs => (x + t.x) :: (y + t.y) :: xs
  | l => l

end Spec

namespace LaneKeeping

/-- The lane-keeping environment in a world displaced by `t`: the lanes to follow and the recorded trajectory too. -/
def State.translate (t : Vec2) (s : State) : State where
  env := s.env.translate t
  lane := s.lane.map (Lane.translate t)
  lanes := s.lanes.map (Lane.translate t)
  trajectory := s.trajectory.map (Spec.shiftState t)

/-- An observation whose ordinates (the first entries of the state and of the reference state) are increased by `d`. -/
def Obs.shift (d : ℝ) (o : Obs) : Obs := ⟨Spec.shiftFirst d o.state, o.derivative, Spec.shiftFirst d o.reference⟩

end LaneKeeping
end HighwayEnv
