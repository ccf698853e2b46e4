import Verif.Model.Factory

/-!
# Model of `AbstractEnv.reset` and `AbstractEnv.step` together with the observation (abstract.py:156-207)

`Env.step` leaves the observation out.  Here the observer is part of the state, and what it does to it — its own attributes, the random
generator it shares with the road — is kept.
-/

noncomputable section
open Classical

namespace HighwayEnv

/-- What observers read of an environment and that is not part of its state in the model: the attribute `goal` (parking environments), the
picture that `render` gives, the array attributes of the environment; and the attributes of the class `MDPVehicle` where they are not those with
which the agents drive (`classes`; the agents of the intersection have their own, intersection_env.py:189-191). -/
structure View where
  classes : Globals → Globals := id
  goal : Env → Option RoadObject := fun _ => none
  picture : Env → List (ℝ × ℝ × ℝ) := fun _ => []
  attributes : Env → Dict String NdArray := fun _ => []

namespace Env

/-- What observers read of an environment whose road exists — observation.py. -/
def scene (view : View) (c : SimConfig) (e : Env) : Scene where
  road := some e.road
  controlled := e.controlled
  goal := view.goal e
  policyFrequency := c.policyFrequency
  picture := view.picture e
  attributes := view.attributes e

/-- The environment once observed: the generator of the road is also the one of the environment (`Road(np_random=self.np_random)`), which
observers may use. -/
def observed (e : Env) (s : Scene) : Env :=
  match s.road with
  | some r => { e with road := r }
  | none => e

end Env

/-- An environment and its `observation_type`. -/
structure Full where
  env : Env
  observer : ObsType

namespace Full

/-- `obs = self.observation_type.observe()` — abstract.py:167, 191. -/
def observe (G : Globals) (c : SimConfig) (view : View) (f : Full) : Py (Obs × Full) := do
  let (x, o, s) ← f.observer.observe (view.classes G) (f.env.scene view c)
  return (x, ⟨f.env.observed s, o⟩)

/-- The part of `step` after the observation — abstract.py:192-207, and the additions of the concrete class. -/
def conclude (cls : EnvClass) (e : Env) (a : Option AgentAction) : Py (Env × StepResult) := do
  let reward ← cls.reward e a
  let terminal ← cls.terminal e
  let v ← e.vehicle
  let cost ← e.tryCost cls
  let e ← cls.after e
  return (e, { reward := reward, terminal := terminal, speed := v.speed, crashed := v.crashed, cost := cost })

/-- `step(action)` — abstract.py:177-207 (and intersection_env.py:88-94): simulate, observe, then reward, terminal, speed, crash, cost. -/
def step (G : Globals) (c : SimConfig) (cls : EnvClass) (view : View) (f : Full) (a : Option AgentAction) : Py (Obs × StepResult × Full) :=
  if f.env.controlled = [] then .error .notImplementedError
  else do
    let e ← Env.simulate G c cls a { f.env with steps := f.env.steps + 1 }
    let (x, f) ← Full.observe G c view ⟨e, f.observer⟩
    let (e, res) ← conclude cls f.env a
    return (x, res, ⟨e, f.observer⟩)

/-- `reset()` — abstract.py:156-167: `define_spaces` on the old scene, `_reset` (given the action type), `define_spaces` on the new scene,
observation. -/
def reset (G : Globals) (od : ObsDict) (ad : ActDict) (c : SimConfig) (view : View) (make : Factory.Built → Py Env) (old : Scene) :
    Py (Obs × Factory.Spaces × Full) := do
  let first ← Factory.defineSpaces (view.classes G) od ad old
  let e ← make first.action
  let sp ← Factory.defineSpaces (view.classes G) od ad (e.scene view c)
  let (x, f) ← Full.observe G c view ⟨e, sp.observer⟩
  return (x, { sp with observer := f.observer }, f)

/-- `reset()` of the classes whose `_reset` rewrites class attributes (roundabout_env.py:141-143, intersection_env.py:163-166): the spaces of the old scene
are defined with the old attributes, the rest with the new ones. -/
def resetIn (G : Globals) (od : ObsDict) (ad : ActDict) (c : SimConfig) (view : View) (make : Factory.Built → Py (Globals × Env)) (old : Scene) :
    Py (Obs × Factory.Spaces × Globals × Full) := do
  let first ← Factory.defineSpaces G od ad old
  let (G, e) ← make first.action
  let sp ← Factory.defineSpaces (view.classes G) od ad (e.scene view c)
  let (x, f) ← Full.observe G c view ⟨e, sp.observer⟩
  return (x, { sp with observer := f.observer }, G, f)

end Full
end HighwayEnv
