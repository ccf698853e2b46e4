import Verif.Model.Envs.Highway

/-!
# Specification vocabulary: the straight highway
-/

noncomputable section
namespace HighwayEnv.Spec
open HighwayEnv

/-- Lane number `k` of a straight road of the given length along the x axis: it starts at `(0, 4k)`, ends at `(len, 4k)`, is 4 m
wide. -/
def straightLane (len : ℝ) (k : ℕ) : Lane := { shape := .straight ⟨0, 4 * k⟩ ⟨len, 4 * k⟩ }

/-- A network with a single straight road from node "0" to node "1" with `n` lanes. -/
def straightNet (n : ℕ) (len : ℝ) : Graph := [("0", [("1", (List.range n).map (straightLane len))])]

/-- Configurations of the highway environment with which an episode can be played: at least one lane, at least one controlled vehicle,
an initial lane that exists, positive density; linear traffic models only with discrete actions. -/
structure HighwayOk (cfg : HighwayConfig) : Prop where
  lanes : 0 < cfg.lanesCount
  egos : 0 < cfg.controlledVehicles
  initial : ∀ k, cfg.initialLaneId = some k → 0 ≤ k ∧ k < cfg.lanesCount
  density : 0 < cfg.vehiclesDensity
  spacing : 0 < cfg.egoSpacing
  action : ∃ t, cfg.sim.action.agent.init = .ok t
  linear : cfg.otherVehiclesType.isLinear = true → cfg.sim.action.agent.vehicleClass = .mdp

/-- A vehicle as it is put on the straight road at reset: centred on an existing lane, heading along it, aiming at that lane, without
route, not crashed. -/
structure OnCentre (n : ℕ) (len : ℝ) (v : Vehicle) : Prop where
  lane : ∃ k < n, v.pos.y = 4 * (k : ℕ) ∧ v.laneIndex = ⟨"0", "1", ((k : ℕ) : Int)⟩ ∧ v.targetLane = ⟨"0", "1", ((k : ℕ) : Int)⟩ ∧
    v.lane = straightLane len k
  heading : v.heading = 0
  route : v.route = none
  crashed : v.crashed = false
  yielding : v.isYielding = false

/-- The mean distance left before a new vehicle of the given speed: `spacing · 1.5 s · speed`, shrunk by `e^(-lanes/6)`. -/
def meanGap (spacing speed : ℝ) (lanes : ℕ) : ℝ := spacing * 1.5 * speed * Real.exp (-lanes / 6)

open Classical in
/-- The score of a state of the ego vehicle on a road with `n` lanes: the weights are `collision` for a crash, 0.1 for the lane number
relative to the last lane, 0.4 for the speed relative to the given range (cut to [0, 1]); the sum is mapped affinely so that
`collision` gives 0 and 0.5 gives 1. -/
def highwayScore (collision : ℝ) (range : ℝ × ℝ) (n : ℕ) (lane : Int) (speed : ℝ) (crashed : Bool) : ℝ :=
  ((if crashed then collision else 0) + 0.1 * (lane / max ((n : ℝ) - 1) 1) +
    0.4 * max 0 (min 1 ((speed - range.1) / (range.2 - range.1))) - collision) / (0.5 - collision)

/-- The lane an ego vehicle is credited for: the one it aims at if it is driven by meta-actions, else the one it is on. -/
def creditedLane (v : Vehicle) : Int := if v.kind = .mdp then v.targetLane.id else v.laneIndex.id

end HighwayEnv.Spec
