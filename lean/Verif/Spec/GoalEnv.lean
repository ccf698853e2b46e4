import Verif.Model.GoalEnv
import Verif.Spec.Full
import Verif.Spec.Parking

/-!
# Specification vocabulary: environments with a goal
-/

noncomputable section
open Classical
namespace HighwayEnv.Spec
open HighwayEnv

/-- What one agent observes: its features, the goal achieved, the goal desired. -/
structure GoalView where
  observation : List ℝ
  achieved : List ℝ
  desired : List ℝ

/-- The dictionary shown to the agent. -/
def GoalView.shown (g : GoalView) : Obs :=
  .dict [("observation", .array (ObsType.ofList g.observation)), ("achieved_goal", .array (ObsType.ofList g.achieved)),
    ("desired_goal", .array (ObsType.ofList g.desired))]

/-- The observation `x` shows the views `gs` of the agents: a tuple of dictionaries with one observation per agent, else one dictionary. -/
def Shows (several : Bool) (gs : List GoalView) (x : Obs) : Prop :=
  if several then x = .tuple (gs.map (·.shown)) else ∃ g, gs = [g] ∧ x = g.shown

/-- The observer of the configuration: a goal observer, or one per controlled vehicle. -/
def GoalObserver (cfg : ParkingConfig) (s : Full) : Prop :=
  s.observer = if cfg.severalObservers then .multi (s.env.controlled.map fun u => .goal cfg.features cfg.scales (some u))
    else .goal cfg.features cfg.scales none

/-- A class whose reward and end of episode are computed from the observation by `compute_reward`. -/
structure GoalClass (cfg : ParkingConfig) (cls : EnvClass) (f : Env → List ℝ → List ℝ → Py ℝ) : Prop where
  reward : ∀ e a, cls.reward e a = Parking.rewardWith (f e) cfg e
  terminal : ∀ e, cls.terminal e = Parking.terminalWith (f e) cfg e
  after : ∀ e, cls.after e = .ok e

/-- The results of a step agree with what the agents were shown: with `ys` the rewards that `compute_reward` gives for the goals shown, the
reward is their sum; an agent succeeds if its reward is above -0.12; the episode ends when all succeed, the time is over or an agent crashed. -/
def Agrees (cfg : ParkingConfig) (f : Env → List ℝ → List ℝ → Py ℝ) (e : Env) (gs : List GoalView) (res : StepResult) (ok : List Bool) : Prop :=
  ∃ ys : List ℝ, List.Forall₂ (fun g y => f e g.achieved g.desired = .ok y) gs ys ∧ res.reward = ys.sum ∧
    List.Forall₂ (fun y b => b = true ↔ -(12 / 100) < y) ys ok ∧
    (res.terminal = true ↔ cfg.duration ≤ e.steps ∨ (∃ u ∈ e.controlled, ∃ v, e.road.vehicle? u = some v ∧ v.crashed = true) ∨ ∀ b ∈ ok, b = true)

/-- What successive calls of `step` return. -/
inductive GoalPlay (G : Globals) (c : SimConfig) (cls : EnvClass) (f : Env → List ℝ → List ℝ → Py ℝ) (s : Full) :
    List AgentAction → List (Obs × StepResult × List Bool) → Full → Prop
  | start : GoalPlay G c cls f s [] [] s
  | step {as : List AgentAction} {rs : List (Obs × StepResult × List Bool)} {s1 s2 : Full} {a : AgentAction} {x : Obs} {res : StepResult} {ok : List Bool} :
      GoalPlay G c cls f s as rs s1 → GoalEnv.step G c cls f s1 (some a) = .ok (x, res, ok, s2) →
      GoalPlay G c cls f s (as ++ [a]) (rs ++ [(x, res, ok)]) s2

/-- Scenes with a goal, on the road of which the given agents drive vehicles that follow no route (continuous actions). -/
def GoalScene (us : List ℕ) (s : Scene) : Prop :=
  us ≠ [] ∧ s.controlled = us ∧ ∃ r o, s.road = some r ∧ s.goal = some o ∧ (∀ uid ∈ us, ∃ v ∈ r.vehicles, v.uid = uid) ∧
    ∀ v ∈ r.vehicles, v.uid ∈ us → v.kind.isControlled = false

/-- The observation configuration `od` is the one that `cfg` describes: goals with its features and scales, for one agent or for several. -/
def GoalConfig (cfg : ParkingConfig) (od : ObsDict) : Prop :=
  ∃ q : ObsParams, q.type = some "KinematicsGoal" ∧ (Factory.kinematics q).features = cfg.features ∧ q.scales = some cfg.scales ∧
    if cfg.severalObservers then ∃ p, p.type = some "MultiAgentObservation" ∧ od = .nested p (.flat q) else od = .flat q

end HighwayEnv.Spec
