import Verif.Spec.Run

/-!
# Specification vocabulary: traffic laws
-/

noncomputable section
namespace HighwayEnv.Spec
open HighwayEnv

/-- The Intelligent Driver Model acceleration on a free road: `a (1 - (v / v0)^4)`. -/
def idmFree (a v v0 : ℝ) : ℝ := a * (1 - (v / v0) ^ 4)

/-- The desired gap `s0 + v T + v Δv / (2 √(a b))`. -/
def idmGap (s0 T a b v dv : ℝ) : ℝ := s0 + v * T + v * dv / (2 * √(a * b))

/-- One frame of the simulation loop: some vehicles receive commands from outside (pairs of vehicle position in the list and action),
then `road.act()`, then `road.step(dt)`. -/
def frame (G : Globals) (dt : ℝ) (r : Road) (cmds : List (ℕ × VAction)) : Py Road := do
  let r ← cmds.foldlM (fun r c => r.actAt G c.2 c.1) r
  let r ← r.act G
  r.step dt

/-- Any number of frames, with any commands. -/
def frames (G : Globals) (dt : ℝ) (r : Road) (cmds : List (List (ℕ × VAction))) : Py Road := cmds.foldlM (frame G dt) r

/-- A history of a road together with the total simulated time. -/
inductive TimedRun (G : Globals) : ℝ → Road → Road → Prop
  | refl (r : Road) : TimedRun G 0 r r
  | actAt {T : ℝ} {r s t : Road} (i : ℕ) (a : VAction) : TimedRun G T r s → s.actAt G a i = .ok t → TimedRun G T r t
  | act {T : ℝ} {r s t : Road} : TimedRun G T r s → s.act G = .ok t → TimedRun G T r t
  | step {T : ℝ} {r s t : Road} (dt : ℝ) : TimedRun G T r s → 0 ≤ dt → s.step dt = .ok t → TimedRun G (T + dt) r t

/-- In the decision that turned `v` into `v'` the traffic vehicle, which was following its lane, chose another lane: following the
road gave its current lane as target, and the decision ends with a different one. -/
def DecidesToChangeLane (r : Road) (v v' : Vehicle) : Prop :=
  ∃ w rng, v.followRoad r.network r.rng = .ok (w, rng) ∧ w.targetLane = v.laneIndex ∧ v'.targetLane ≠ v.laneIndex

end HighwayEnv.Spec
