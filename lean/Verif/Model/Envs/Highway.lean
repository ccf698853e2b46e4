import Verif.Model.Create

/-!
# Model of `highway_env/envs/highway_env.py`
-/

noncomputable section
open Classical

namespace HighwayEnv

/-- The configuration entries read by `HighwayEnv` — highway_env.py:30-50. -/
structure HighwayConfig where
  sim : SimConfig := {}
  lanesCount : ℕ := 4
  vehiclesCount : ℕ := 50
  controlledVehicles : ℕ := 1
  initialLaneId : Option Int := none
  duration : ℝ := 40
  egoSpacing : ℝ := 2
  vehiclesDensity : ℝ := 1
  collisionReward : ℝ := -1
  rewardSpeedRange : ℝ × ℝ := (20, 30)
  offroadTerminal : Bool := false
  /-- `other_vehicles_type` — abstract.py:93. -/
  otherVehiclesType : VKind := .idm
  /-- `show_trajectories` — abstract.py:100. -/
  showTrajectories : Bool := false

/-- `agent.vehicle_class` of the action type: for several agents the class given by their configuration — action.py:207-209. -/
def ActionType.agent : ActionType → AgentType
  | .single t => t
  | .multi t => t

namespace Highway

/-- `RIGHT_LANE_REWARD` — highway_env.py:20. -/
def RIGHT_LANE_REWARD : ℝ := 1 / 10
/-- `HIGH_SPEED_REWARD` — highway_env.py:23. -/
def HIGH_SPEED_REWARD : ℝ := 4 / 10

/-- `_create_road` — highway_env.py:56-59. -/
def createRoad (cfg : HighwayConfig) (rng : Rng) : Road where
  network := Graph.straightRoadNetwork cfg.lanesCount
  rng := rng
  recordHistory := cfg.showTrajectories

/-- `_create_vehicles` — highway_env.py:61-74: the controlled vehicles, then the traffic.  `1 / vehicles_density` raises
`ZeroDivisionError` for density 0 (evaluated only if there is traffic). -/
def createVehicles (G : Globals) (cfg : HighwayConfig) (r : Road) : Py Road := do
  let r ← r.addRandom G cfg.sim.action.agent.vehicleClass (some 25) cfg.initialLaneId cfg.egoSpacing cfg.controlledVehicles 0
  if cfg.vehiclesDensity = 0 ∧ cfg.vehiclesCount ≠ 0 then .error .zeroDivisionError
  else r.addRandom G cfg.otherVehiclesType none none (1 / cfg.vehiclesDensity) cfg.vehiclesCount cfg.controlledVehicles

/-- `reset` — abstract.py:157-168 with highway_env.py:52-54.  `define_spaces` raises `ValueError` when the action type has no axis.  (The observation it returns is modelled separately.) -/
def reset (G : Globals) (cfg : HighwayConfig) (rng : Rng) : Py Env := do
  let _ ← cfg.sim.action.agent.init
  let r ← createVehicles G cfg (createRoad cfg rng)
  return { road := r, controlled := List.range cfg.controlledVehicles
           nextUid := cfg.controlledVehicles + cfg.vehiclesCount }

/-- `lane` in `_reward` — highway_env.py:83-84. -/
def rewardLane (v : Vehicle) : Int := if v.kind.isControlled then v.targetLane.id else v.laneIndex.id

/-- `bool` as a number. -/
def ofBool (b : Bool) : ℝ := if b then 1 else 0

/-- The reward of the ego vehicle before the off-road test — highway_env.py:85-92, `n` being the number of lanes of its road. -/
def rawReward (cfg : HighwayConfig) (n : ℕ) (v : Vehicle) : ℝ :=
  let scaled := lmap v.speed cfg.rewardSpeedRange (0, 1)
  let reward := cfg.collisionReward * ofBool v.crashed +
    RIGHT_LANE_REWARD * (rewardLane v : ℝ) / (max ((n : Int) - 1) 1 : Int) + HIGH_SPEED_REWARD * npClip scaled 0 1
  lmap reward (cfg.collisionReward, HIGH_SPEED_REWARD + RIGHT_LANE_REWARD) (0, 1)

/-- `_reward` — highway_env.py:76-95. -/
def reward (cfg : HighwayConfig) (e : Env) : Py ℝ := do
  let v ← e.vehicle
  let neighbours ← e.road.network.allSideLanes v.laneIndex
  return if !v.onRoad then 0 else rawReward cfg neighbours.length v

/-- `_is_terminal` — highway_env.py:97-101. -/
def terminal (cfg : HighwayConfig) (e : Env) : Py Bool := do
  let v ← e.vehicle
  return v.crashed || decide (cfg.duration ≤ e.steps) || (cfg.offroadTerminal && !v.onRoad)

/-- `_cost` — highway_env.py:103-105. -/
def cost (e : Env) : Py ℝ := do
  let v ← e.vehicle
  return ofBool v.crashed

/-- `HighwayEnv` as an environment class. -/
def cls (cfg : HighwayConfig) : EnvClass where
  terminal := terminal cfg
  reward e _ := reward cfg e
  cost := cost

end Highway
end HighwayEnv
