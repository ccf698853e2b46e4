import Verif.Model.Wrapper
import Verif.Spec.Contract
import Verif.Spec.Intersection

/-!
# Specification vocabulary: playing with one reward per agent
-/

noncomputable section
open Classical
namespace HighwayEnv.Spec
open HighwayEnv

/-- What successive calls of `step` return, whatever the environment or wrapper whose `step` is `base`. -/
inductive Turns {ρ δ : Type} (base : Full → Option AgentAction → Py (Stepped ρ δ)) (f : Full) : List AgentAction → List (Obs × ρ × δ × Info) → Full → Prop
  | start : Turns base f [] [] f
  | step {as : List AgentAction} {rs : List (Obs × ρ × δ × Info)} {f1 f2 : Full} {a : AgentAction} {x : Obs} {r : ρ} {d : δ} {i : Info} :
      Turns base f as rs f1 → base f1 (some a) = .ok (x, r, d, i, f2) → Turns base f (as ++ [a]) (rs ++ [(x, r, d, i)]) f2

/-- Fair shares: one reward and one end per agent, in the order of the agents `vs`: each agent gets its own score and is done when it has crashed, has
arrived or the time is over; the reward of all is the mean, and the episode of all is over only if some agent is done, and is over if all are. -/
structure Shared (cfg : IntersectionConfig) (steps : ℕ) (vs : List Vehicle) (rs : List ℝ) (ds : List Bool) (reward : ℝ) (done : Bool) : Prop where
  someone : vs ≠ []
  rewards : rs = vs.map (agentScore cfg)
  ends : List.Forall₂ (fun v d => (d : Bool) = true ↔ v.crashed = true ∨ OnExit v 25 ∨ TimeOver cfg steps) vs ds
  mean : reward = mean rs
  done : done = true ↔ (∃ v ∈ vs, v.crashed = true) ∨ (∀ v ∈ vs, OnExit v 25) ∨ TimeOver cfg steps

end HighwayEnv.Spec
