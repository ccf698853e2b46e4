import Verif.Model.Env
import Verif.Spec.Traffic
import Verif.Spec.Healthy

/-!
# Specification vocabulary: an agent driving an environment
-/

noncomputable section
namespace HighwayEnv.Spec
open HighwayEnv

/-- The vehicle of identity `uid` is the `i`-th of the road. -/
def At (r : Road) (uid i : ℕ) : Prop := ∃ v, r.vehicles[i]? = some v ∧ v.uid = uid

/-- The vehicles of the road are distinct objects, there is at least one controlled vehicle, and the controlled vehicles are on the
road. -/
structure Manned (e : Env) : Prop where
  distinct : (e.road.vehicles.map (·.uid)).Nodup
  onRoad : ∀ uid ∈ e.controlled, ∃ v ∈ e.road.vehicles, v.uid = uid
  someone : e.controlled ≠ []

/-- What an agent of type `t` driving vehicle `uid` orders with action `a`: a command for the position of that vehicle. -/
def Sends (r : Road) (t : AgentType) (uid : ℕ) (a : AgentAction) (o : ℕ × VAction) : Prop :=
  At r uid o.1 ∧ t.command a = .ok o.2

/-- The commands an action of the environment stands for: one for the first controlled vehicle; with several agents, one for each
controlled vehicle, in order. -/
def Orders (t : ActionType) (controlled : List ℕ) (r : Road) (a : AgentAction) (cmds : List (ℕ × VAction)) : Prop :=
  match t, a with
  | .single t, a => ∃ o uid, controlled.head? = some uid ∧ Sends r t uid a o ∧ cmds = [o]
  | .multi t, .tuple as => Pointwise (fun (au : AgentAction × ℕ) o => Sends r t au.2 au.1 o) (as.zip controlled) cmds
  | .multi _, _ => False

/-- The number of simulation frames of one decision: simulation frequency over policy frequency, rounded down. -/
def period (c : SimConfig) : ℕ := ⌊c.simulationFrequency / c.policyFrequency⌋₊

/-- Frequencies for which a decision lasts at least one frame. -/
structure GoodRates (c : SimConfig) : Prop where
  policy : 0 < c.policyFrequency
  simulation : c.policyFrequency ≤ c.simulationFrequency
  auto : c.manualControl = false

/-- The results of a sequence of decisions taken one after the other, each by `step`. -/
inductive Episode (G : Globals) (c : SimConfig) (cls : EnvClass) (e : Env) : List AgentAction → List StepResult → Env → Prop
  | start : Episode G c cls e [] [] e
  | step {as : List AgentAction} {rs : List StepResult} {e1 e2 : Env} {a : AgentAction} {res : StepResult} :
      Episode G c cls e as rs e1 → e1.step G c cls (some a) = .ok (e2, res) → Episode G c cls e (as ++ [a]) (rs ++ [res]) e2

/-- Actions of the space of one agent: an index below the size of the table, or an array of the right dimension (any numbers). -/
def InSpace (t : AgentType) (a : AgentAction) : Prop :=
  match t, a with
  | .discrete _ _, .index i => 0 ≤ i ∧ i < t.spaceSize
  | .continuous _, .vector xs => xs.length = t.spaceSize
  | _, _ => False

/-- Actions of the space of the environment. -/
def InEnvSpace (t : ActionType) (a : AgentAction) : Prop :=
  match t, a with
  | .single t, a => InSpace t a
  | .multi t, .tuple as => ∀ x ∈ as, InSpace t x
  | .multi _, _ => False

/-- The type of the agents of an environment. -/
def agentOf : ActionType → AgentType
  | .single t => t
  | .multi t => t

/-- An environment ready to be stepped without raising: a healthy road, controlled vehicles of the class that the action type
prescribes, an action type that could be constructed, and a frame duration the road accepts. -/
structure Ready (c : SimConfig) (e : Env) : Prop where
  healthy : Healthy e.road
  manned : Manned e
  fitted : ∀ v ∈ e.road.vehicles, v.uid ∈ e.controlled → v.kind = (agentOf c.action).vehicleClass
  constructed : ∃ t, (agentOf c.action).init = .ok t
  dt : AcceptsDt e.road (1 / c.simulationFrequency)

/-- A property of environment states that the passing of time preserves. -/
def Lasting (G : Globals) (I : Env → Prop) : Prop :=
  ∀ (e : Env) (r : Road) (t s : ℕ), I e → RoadRun G e.road r → I { e with road := r, time := t, steps := s }

/-- The methods of a concrete environment raise nothing during the first `N` frames: `I` is preserved by each of these frames, and on ready
states satisfying `I` at these times the methods succeed. -/
structure ReliableUntil (G : Globals) (c : SimConfig) (cls : EnvClass) (N : ℕ) (I : Env → Prop) : Prop where
  frame : ∀ (e e' : Env) (k : ℕ) (a : Option AgentAction), Ready c e → I e → e.time < N → (∀ x, a = some x → InEnvSpace c.action x) →
    e.frame G c k a = .ok e' → I e'
  counter : ∀ (e : Env) (s : ℕ), I e → I { e with steps := s }
  terminal : ∀ e, Ready c e → I e → e.time ≤ N → ∃ b, cls.terminal e = .ok b
  reward : ∀ e a, Ready c e → I e → e.time ≤ N → InEnvSpace c.action a → ∃ x, cls.reward e (some a) = .ok x
  cost : ∀ e, Ready c e → I e → e.time ≤ N → (∃ x, cls.cost e = .ok x) ∨ cls.cost e = .error .notImplementedError
  after : ∀ e, Ready c e → I e → e.time ≤ N → ∃ e', cls.after e = .ok e' ∧ Ready c e' ∧ I e' ∧ e'.time = e.time

/-- The methods of a concrete environment raise nothing on ready states satisfying `I` (a cost that is not implemented is allowed),
and what it does after the common part of `step` preserves these conditions. -/
structure Reliable (G : Globals) (c : SimConfig) (cls : EnvClass) (I : Env → Prop) : Prop where
  lasting : Lasting G I
  terminal : ∀ e, Ready c e → I e → ∃ b, cls.terminal e = .ok b
  reward : ∀ e a, Ready c e → I e → InEnvSpace c.action a → ∃ x, cls.reward e (some a) = .ok x
  cost : ∀ e, Ready c e → I e → (∃ x, cls.cost e = .ok x) ∨ cls.cost e = .error .notImplementedError
  after : ∀ e, Ready c e → I e → ∃ e', cls.after e = .ok e' ∧ Ready c e' ∧ I e'

end HighwayEnv.Spec

namespace HighwayEnv.Spec
open HighwayEnv

/-- The meta-actions that make sense for the discrete-action vehicle `v`: staying idle; changing to a neighbouring lane of its current
lane that it can enter from where it is; raising or lowering its speed level within the ladder. -/
def MakesSense (G : Globals) (g : Graph) (v : Vehicle) (longitudinal lateral : Bool) (n : VAction) : Prop :=
  match n with
  | .idle => True
  | .laneLeft => lateral = true ∧ CanEnter g v.laneIndex.src v.laneIndex.dst (v.laneIndex.id - 1) v.pos
  | .laneRight => lateral = true ∧ CanEnter g v.laneIndex.src v.laneIndex.dst (v.laneIndex.id + 1) v.pos
  | .faster => longitudinal = true ∧ v.speedIndex + 1 < G.speedCount
  | .slower => longitudinal = true ∧ 0 < v.speedIndex
  | _ => False

end HighwayEnv.Spec
