import Verif.Model.Full
import Verif.Model.Envs.Intersection

/-!
# Model of the information returned by `step`, of `IntersectionEnv.step` with it, and of `MultiAgentWrapper`
-/

noncomputable section
open Classical

namespace HighwayEnv

/-- `info` — abstract.py:195-203, intersection_env.py:92-93: the entries `cost`, and `agents_rewards` and `agents_dones`, may be missing. -/
structure Info where
  speed : ℝ
  crashed : Bool
  action : Option AgentAction
  cost : Option ℝ
  agentsRewards : Option (List ℝ) := none
  agentsDones : Option (List Bool) := none

/-- What `step` returns: observation, reward, done, information; and the new state. -/
abbrev Stepped (ρ δ : Type) := Obs × ρ × δ × Info × Full

/-- `AbstractEnv.step`, as it is returned — abstract.py:177-207. -/
def Full.returned (G : Globals) (c : SimConfig) (cls : EnvClass) (view : View) (f : Full) (a : Option AgentAction) : Py (Stepped ℝ Bool) := do
  let (x, res, f) ← f.step G c cls view a
  return (x, res.reward, res.terminal, { speed := res.speed, crashed := res.crashed, action := a, cost := res.cost }, f)

/-- `IntersectionEnv.step` — intersection_env.py:88-94: the information of the agents is added once the traffic has been updated (the update is the
`after` of the class). -/
def Intersection.step (G : Globals) (cfg : IntersectionConfig) (ord : Graph.SetOrder) (view : View) (f : Full) (a : Option AgentAction) :
    Py (Stepped ℝ Bool) := do
  let (x, r, d, info, f) ← f.returned (egoLadder G) cfg.sim (cls G cfg ord) view a
  let (rs, ds) ← agentsInfo (egoLadder G) cfg f.env
  return (x, r, d, { info with agentsRewards := some rs, agentsDones := some ds }, f)

/-- `MultiAgentWrapper.step` — abstract.py:398-403: the rewards and ends of the agents take the place of those of the environment.  `base` is the `step`
of the wrapped environment. -/
def MultiAgentWrapper.step (base : Full → Option AgentAction → Py (Stepped ℝ Bool)) (f : Full) (a : Option AgentAction) : Py (Stepped (List ℝ) (List Bool)) := do
  let (x, _, _, info, f) ← base f a
  let rs ← Factory.keyed info.agentsRewards
  let ds ← Factory.keyed info.agentsDones
  return (x, rs, ds, info, f)

end HighwayEnv
