import Verif.Model.Full
import Verif.Spec.Spaces
import Verif.Spec.Episode
import Verif.Spec.Observation

/-!
# Specification vocabulary: playing an environment and looking at it
-/

noncomputable section
open Classical
namespace HighwayEnv.Spec
open HighwayEnv

/-- Observers that draw no random number: all but kinematics observers with `order: "shuffled"`. -/
inductive Quiet : ObsType → Prop where
  | ttc (h : ℝ) (v : Option ℕ) : Quiet (.ttc h v)
  | kinematics (cfg : KinematicsConfig) (v : Option ℕ) (h : cfg.shuffled = false) : Quiet (.kinematics cfg v)
  | occupancy (o : Occupancy) (v : Option ℕ) : Quiet (.occupancy o v)
  | goal (fs : List String) (sc : List ℝ) (v : Option ℕ) : Quiet (.goal fs sc v)
  | image (w : Option (ℝ × ℝ × ℝ)) (n m : ℕ) (planes : List (List ℝ)) : Quiet (.image w n m planes)
  | attributes (names : List String) : Quiet (.attributes names)
  | multi (l : List ObsType) (h : ∀ o ∈ l, Quiet o) : Quiet (.multi l)

/-- Observers without memory of the pictures seen. -/
inductive NoImage : ObsType → Prop where
  | ttc (h : ℝ) (v : Option ℕ) : NoImage (.ttc h v)
  | kinematics (cfg : KinematicsConfig) (v : Option ℕ) : NoImage (.kinematics cfg v)
  | occupancy (o : Occupancy) (v : Option ℕ) : NoImage (.occupancy o v)
  | goal (fs : List String) (sc : List ℝ) (v : Option ℕ) : NoImage (.goal fs sc v)
  | attributes (names : List String) : NoImage (.attributes names)
  | multi (l : List ObsType) (h : ∀ o ∈ l, NoImage o) : NoImage (.multi l)

/-- What successive calls of `step` return. -/
inductive Play (G : Globals) (c : SimConfig) (cls : EnvClass) (view : View) (f : Full) : List AgentAction → List (Obs × StepResult) → Full → Prop
  | start : Play G c cls view f [] [] f
  | step {as : List AgentAction} {rs : List (Obs × StepResult)} {f1 f2 : Full} {a : AgentAction} {x : Obs} {res : StepResult} :
      Play G c cls view f as rs f1 → f1.step G c cls view (some a) = .ok (x, res, f2) →
      Play G c cls view f (as ++ [a]) (rs ++ [(x, res)]) f2

/-- Two environments that differ at most by the state of the random generator. -/
def SameButRandom (e e' : Env) : Prop := e' = { e with road := { e.road with rng := e'.road.rng } }

/-- The results of a class do not depend on the state of the random generator. -/
structure Deterministic (cls : EnvClass) : Prop where
  reward : ∀ e e' a, SameButRandom e e' → cls.reward e' a = cls.reward e a
  terminal : ∀ e e', SameButRandom e e' → cls.terminal e' = cls.terminal e
  cost : ∀ e e', SameButRandom e e' → cls.cost e' = cls.cost e

/-- The documented default ranges of the kinematic features on a road with `n` lanes. -/
def defaultRanges (G : Globals) (n : ℕ) : Dict String (ℝ × ℝ) :=
  [("x", (-5 * G.speedMax, 5 * G.speedMax)), ("y", (-4 * n, 4 * n)), ("vx", (-2 * G.speedMax, 2 * G.speedMax)),
   ("vy", (-2 * G.speedMax, 2 * G.speedMax))]

/-- The observer can be relied upon in the scenes satisfying `Ok`, for ever: it never raises and what it returns belongs to the space.  (`S`
is any set of states of the observer that it does not leave.) -/
def Serves (G : Globals) (Ok : Scene → Prop) (o : ObsType) (sp : Space) : Prop :=
  ∃ S : ObsType → Prop, S o ∧ ∀ o s, S o → Ok s → ∃ x o' s', o.observe G s = .ok (x, o', s') ∧ Member sp x ∧ S o'

/-- Scenes with a road that can be observed and on which the given vehicles drive. -/
def Seen (us : List ℕ) (s : Scene) : Prop :=
  us ≠ [] ∧ s.controlled = us ∧ ∃ r, s.road = some r ∧ Observable r ∧ ∀ uid ∈ us, ∃ v ∈ r.vehicles, v.uid = uid

/-- The result of a `step` is the judgement of the environment on one and the same ready state satisfying `I` and one of the actions played. -/
def Judged (c : SimConfig) (cls : EnvClass) (I : Env → Prop) (as : List AgentAction) (res : StepResult) : Prop :=
  ∃ e a, Ready c e ∧ I e ∧ a ∈ as ∧ cls.reward e (some a) = .ok res.reward ∧ cls.terminal e = .ok res.terminal ∧
    ∃ v, e.vehicle = .ok v ∧ res.speed = v.speed ∧ res.crashed = v.crashed

end HighwayEnv.Spec
