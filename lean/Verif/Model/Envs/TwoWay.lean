import Verif.Model.Envs.Highway

/-!
# Model of `highway_env/envs/two_way_env.py`
-/

noncomputable section
open Classical

namespace HighwayEnv

/-- The configuration entries read by `TwoWayEnv` — abstract.py:84-110 and two_way_env.py:27-39 (its own entries are the observation and the
default action type). -/
structure TwoWayConfig where
  sim : SimConfig := {}
  otherVehiclesType : VKind := .idm
  showTrajectories : Bool := false

namespace TwoWay

/-- `LEFT_LANE_REWARD` — two_way_env.py:24. -/
def LEFT_LANE_REWARD : ℝ := 2 / 10
/-- `HIGH_SPEED_REWARD` — two_way_env.py:25. -/
def HIGH_SPEED_REWARD : ℝ := 8 / 10

/-- The first term of the reward — two_way_env.py:49: only `MDPVehicle`s have `speed_index` and `SPEED_COUNT`. -/
def speedTerm (G : Globals) (v : Vehicle) : Py ℝ :=
  if v.kind ≠ .mdp then .error .attributeError
  else if G.speedCount = 1 then .error .zeroDivisionError
  else .ok (HIGH_SPEED_REWARD * (v.speedIndex : ℝ) / ((G.speedCount : ℝ) - 1))

/-- The second term of the reward — two_way_env.py:50, `n` being the number of lanes of the road of the ego vehicle. -/
def laneTerm (n : ℕ) (v : Vehicle) : Py ℝ :=
  if n = 1 then .error .zeroDivisionError
  else .ok (LEFT_LANE_REWARD * ((n : ℝ) - 1 - (v.targetLane.id : ℝ)) / ((n : ℝ) - 1))

/-- `_reward` — two_way_env.py:41-51. -/
def reward (G : Globals) (e : Env) : Py ℝ := do
  let v ← e.vehicle
  let neighbours ← e.road.network.allSideLanes v.laneIndex
  let s ← speedTerm G v
  let l ← laneTerm neighbours.length v
  return s + l

/-- `_is_terminal` — two_way_env.py:53-55. -/
def terminal (e : Env) : Py Bool := do
  let v ← e.vehicle
  return v.crashed

/-- `_cost` — two_way_env.py:57-59. -/
def cost (e : Env) : Py ℝ := do
  let v ← e.vehicle
  return Highway.ofBool v.crashed + Highway.ofBool (decide (v.laneIndex.id = 0)) / 15

/-- The network of `_make_road` — two_way_env.py:71-79. -/
def network (length : ℝ) : Graph :=
  let g : Graph := Graph.addLane [] "a" "b" { shape := .straight ⟨0, 0⟩ ⟨length, 0⟩ }
  let g := g.addLane "a" "b" { shape := .straight ⟨0, Lane.DEFAULT_WIDTH⟩ ⟨length, Lane.DEFAULT_WIDTH⟩ }
  g.addLane "b" "a" { shape := .straight ⟨length, 0⟩ ⟨0, 0⟩ }

/-- `_make_road` — two_way_env.py:65-82. -/
def makeRoad (cfg : TwoWayConfig) (rng : Rng) : Road where
  network := network 800
  rng := rng
  recordHistory := cfg.showTrajectories

/-- `vehicles_type(road, position, heading, speed, enable_lane_change=False)` — two_way_env.py:99-106, 108-113: the last argument exists only
in the `IDMVehicle` classes. -/
def noLaneChange (G : Globals) (g : Graph) (uid : ℕ) (kind : VKind) (pos : Vec2) (heading speed : ℝ) : Py Vehicle :=
  if kind.isIDM then Vehicle.mk' G g uid kind pos heading speed (enableLaneChange := false) else .error .typeError

/-- One vehicle going the same way — two_way_env.py:99-106. -/
def addAhead (G : Globals) (kind : VKind) (r : Road) (i : ℕ) : Py Road := do
  let l ← r.network.getLane ⟨"a", "b", 1⟩
  let x := r.rng.normal
  let y := x.2.normal
  let v ← noLaneChange G r.network (1 + i) kind (l.position (70 + 40 * i + 10 * x.1) 0) (l.headingAt (70 + 40 * i)) (24 + 2 * y.1)
  return { r with vehicles := r.vehicles ++ [v], rng := y.2 }

/-- One oncoming vehicle — two_way_env.py:107-115. -/
def addOncoming (G : Globals) (kind : VKind) (r : Road) (i : ℕ) : Py Road := do
  let l ← r.network.getLane ⟨"b", "a", 0⟩
  let x := r.rng.normal
  let y := x.2.normal
  let v ← noLaneChange G r.network (4 + i) kind (l.position (200 + 100 * i + 10 * x.1) 0) (l.headingAt (200 + 100 * i)) (20 + 5 * y.1)
  return { r with vehicles := r.vehicles ++ [{ v with targetLane := ⟨"b", "a", 0⟩ }], rng := y.2 }

/-- `_make_vehicles` — two_way_env.py:84-115. -/
def makeVehicles (G : Globals) (cfg : TwoWayConfig) (r : Road) : Py Road := do
  let l ← r.network.getLane ⟨"a", "b", 1⟩
  let ego ← Vehicle.mk' G r.network 0 cfg.sim.action.agent.vehicleClass (l.position 30 0) 0 30
  let r ← (List.range 3).foldlM (addAhead G cfg.otherVehiclesType) { r with vehicles := r.vehicles ++ [ego] }
  (List.range 2).foldlM (addOncoming G cfg.otherVehiclesType) r

/-- `reset` — abstract.py:157-168 with two_way_env.py:61-63. -/
def reset (G : Globals) (cfg : TwoWayConfig) (rng : Rng) : Py Env := do
  let _ ← cfg.sim.action.agent.init
  let r ← makeVehicles G cfg (makeRoad cfg rng)
  return { road := r, controlled := [0], nextUid := 6 }

/-- `TwoWayEnv` as an environment class. -/
def cls (G : Globals) : EnvClass where
  terminal := terminal
  reward e _ := reward G e
  cost := cost

end TwoWay
end HighwayEnv
