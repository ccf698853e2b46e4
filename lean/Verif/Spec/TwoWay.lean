import Verif.Model.Envs.TwoWay
import Verif.Spec.Merge

/-!
# Specification vocabulary: the two-way environment
-/

noncomputable section
namespace HighwayEnv.Spec
open HighwayEnv

/-- A lane of 4 m along the x axis in the direction of decreasing x, from `x1` to `x0`. -/
def backLane (x0 x1 y : ℝ) : Lane := { shape := .straight ⟨x1, y⟩ ⟨x0, y⟩ }

/-- The map of the two-way environment: a road `a → b` with two lanes, the first of which (`y = 0`) is shared with the road `b → a`. -/
def twoWayNet (len : ℝ) : Graph :=
  [("a", [("b", [levelLane 0 len 0, levelLane 0 len 4])]), ("b", [("a", [backLane 0 len 0])])]

/-- The score: 0.8 for the speed level (relative to the highest one) and 0.2 for aiming at the left lane (number 0). -/
def twoWayScore (share : ℝ) (target : Int) : ℝ := 0.8 * share + 0.2 * (1 - target)

/-- The cost: 1 for a crash plus 1/15 on the left lane. -/
def twoWayCost (crashed : Bool) (lane : Int) : ℝ := (if crashed then 1 else 0) + (if lane = 0 then 1 / 15 else 0)

/-- Configurations of the two-way environment with which an episode can be played. -/
structure TwoWayOk (G : Globals) (cfg : TwoWayConfig) : Prop where
  action : ∃ lo la, cfg.sim.action = .single (.discrete lo la) ∧ (lo = true ∨ la = true)
  count : 2 ≤ G.speedCount
  traffic : cfg.otherVehiclesType.isIDM = true

/-- One vehicle of an initial scene: its class, place, heading and speed, and the lane it is on and aims at. -/
structure Placed (v : Vehicle) (c : VKind) (x y h s : ℝ) (i : LaneIndex) : Prop where
  kind : v.kind = c
  pos : v.pos = ⟨x, y⟩
  heading : v.heading = h
  speed : v.speed = s
  lane : v.laneIndex = i
  target : v.targetLane = i
  crashed : v.crashed = false

end HighwayEnv.Spec
