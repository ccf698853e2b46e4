import Verif.Model.Full
import Verif.Model.Envs.Summon

/-!
# Model of `ParkingEnv.step` (parking_env.py:55-62) for the environments with a goal, observation included
-/

noncomputable section
open Classical

namespace HighwayEnv
namespace GoalEnv

/-- `env.goal`, as observers read it. -/
def view : View where
  goal e := match Parking.goal e with
    | .ok o => some o
    | .error _ => none

/-- The components of a one-dimensional array. -/
def components : Obs → List ℝ
  | .array a => match a.shape with
    | [n] => (List.range n).map fun i => a.entry [i]
    | _ => []
  | _ => []

/-- `self._is_success(agent_obs['achieved_goal'], agent_obs['desired_goal'])` — parking_env.py:58, 60, 127-128; `f` is `compute_reward`. -/
def success (f : List ℝ → List ℝ → Py ℝ) : Obs → Py Bool
  | .dict l => do
    let a ← Dict.getItem l "achieved_goal"
    let d ← Dict.getItem l "desired_goal"
    Parking.isSuccessWith f (components a) (components d)
  | _ => .error .typeError

/-- `info["is_success"]` — parking_env.py:57-60: one boolean per agent when the observer is a `MultiAgentObservation`, else one boolean (a list
of one element in the model). -/
def successes (f : List ℝ → List ℝ → Py ℝ) (o : ObsType) (x : Obs) : Py (List Bool) :=
  match o with
  | .multi _ => match x with
    | .tuple xs => xs.mapM (success f)
    | _ => .error .typeError
  | _ => do
    let b ← success f x
    return [b]

/-- `step` — parking_env.py:55-62: the step of the base class, then the successes of the observation it returned; `f` is `compute_reward`, which
may read the state of the environment (summon_env.py:112-125). -/
def step (G : Globals) (c : SimConfig) (cls : EnvClass) (f : Env → List ℝ → List ℝ → Py ℝ) (s : Full) (a : Option AgentAction) :
    Py (Obs × StepResult × List Bool × Full) := do
  let (x, res, s) ← s.step G c cls view a
  let ok ← successes (f s.env) s.observer x
  return (x, res, ok, s)

end GoalEnv
end HighwayEnv
