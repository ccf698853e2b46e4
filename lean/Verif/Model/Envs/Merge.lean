import Verif.Model.Envs.Highway

/-!
# Model of `highway_env/envs/merge_env.py`
-/

noncomputable section
open Classical

namespace HighwayEnv

/-- The configuration entries read by `MergeEnv` — abstract.py:84-110 (it defines none of its own). -/
structure MergeConfig where
  sim : SimConfig := {}
  otherVehiclesType : VKind := .idm
  showTrajectories : Bool := false

namespace Merge

/-- `COLLISION_REWARD` — merge_env.py:22. -/
def COLLISION_REWARD : ℝ := -1
/-- `RIGHT_LANE_REWARD` — merge_env.py:23. -/
def RIGHT_LANE_REWARD : ℝ := 1 / 10
/-- `HIGH_SPEED_REWARD` — merge_env.py:24. -/
def HIGH_SPEED_REWARD : ℝ := 2 / 10
/-- `MERGING_SPEED_REWARD` — merge_env.py:25. -/
def MERGING_SPEED_REWARD : ℝ := -5 / 10
/-- `LANE_CHANGE_REWARD` — merge_env.py:26. -/
def LANE_CHANGE_REWARD : ℝ := -5 / 100

/-- `action_reward[action]` — merge_env.py:37-41, 54: a dictionary with keys 0 to 4; arrays are unhashable. -/
def actionReward (a : Option AgentAction) : Py ℝ :=
  match a with
  | some (.index k) => Dict.getItem [(0, LANE_CHANGE_REWARD), (1, 0), (2, LANE_CHANGE_REWARD), (3, 0), (4, 0)] k
  | some (.vector _) => .error .typeError
  | some (.tuple _) => .error .keyError
  | none => .error .keyError

/-- `self.vehicle.speed_index / (self.vehicle.SPEED_COUNT - 1)` — merge_env.py:44: only `MDPVehicle`s have these attributes. -/
def speedShare (G : Globals) (v : Vehicle) : Py ℝ :=
  if v.kind ≠ .mdp then .error .attributeError
  else if G.speedCount = 1 then .error .zeroDivisionError
  else .ok ((v.speedIndex : ℝ) / ((G.speedCount : ℝ) - 1))

/-- One iteration of the altruistic penalty — merge_env.py:47-50. -/
def penalty (acc : ℝ) (v : Vehicle) : Py ℝ :=
  if v.laneIndex = ⟨"b", "c", 2⟩ ∧ v.kind.isControlled = true then
    if v.targetSpeed = 0 then .error .zeroDivisionError
    else .ok (acc + MERGING_SPEED_REWARD * (v.targetSpeed - v.speed) / v.targetSpeed)
  else .ok acc

/-- `_reward` — merge_env.py:28-56. -/
def reward (G : Globals) (e : Env) (a : Option AgentAction) : Py ℝ := do
  let v ← e.vehicle
  let share ← speedShare G v
  let reward := COLLISION_REWARD * Highway.ofBool v.crashed + RIGHT_LANE_REWARD * (v.laneIndex.id : ℝ) / 1 + HIGH_SPEED_REWARD * share
  let reward ← e.road.vehicles.foldlM penalty reward
  let act ← actionReward a
  return lmap (act + reward) (COLLISION_REWARD + MERGING_SPEED_REWARD, HIGH_SPEED_REWARD + RIGHT_LANE_REWARD) (0, 1)

/-- `_is_terminal` — merge_env.py:58-60. -/
def terminal (e : Env) : Py Bool := do
  let v ← e.vehicle
  return v.crashed || decide (v.pos.x > 370)

/-- The two lanes of the highway — merge_env.py:76-82. -/
def highwayLanes (g : Graph) (i : ℕ) : Graph :=
  let y : ℝ := if i = 0 then 0 else Lane.DEFAULT_WIDTH
  let g := g.addLane "a" "b" { shape := .straight ⟨0, y⟩ ⟨150 + 80, y⟩ }
  let g := g.addLane "b" "c" { shape := .straight ⟨150 + 80, y⟩ ⟨150 + 80 + 80, y⟩ }
  g.addLane "c" "d" { shape := .straight ⟨150 + 80 + 80, y⟩ ⟨150 + 80 + 80 + 150, y⟩ }

/-- `ljk` — merge_env.py:86. -/
def ljk : Lane := { shape := .straight ⟨0, 6.5 + 4 + 4⟩ ⟨150, 6.5 + 4 + 4⟩, forbidden := true }

/-- `lkb` — merge_env.py:85, 87-88. -/
def lkb : Lane :=
  { shape := .sine (ljk.position 150 (-3.25)) (ljk.position (150 + 80) (-3.25)) 3.25 (2 * Real.pi / (2 * 80)) (Real.pi / 2), forbidden := true }

/-- `lbc` — merge_env.py:89-90. -/
def lbc : Lane := { shape := .straight (lkb.position 80 0) (lkb.position 80 0 + ⟨80, 0⟩), forbidden := true }

/-- The network of `_make_road` — merge_env.py:66-93. -/
def network : Graph :=
  let g := highwayLanes (highwayLanes [] 0) 1
  let g := g.addLane "j" "k" ljk
  let g := g.addLane "k" "b" lkb
  g.addLane "b" "c" lbc

/-- `_make_road` — merge_env.py:66-96: an obstacle closes the access lane.  (Identity 5: the vehicles are 0 to 4.) -/
def makeRoad (cfg : MergeConfig) (rng : Rng) : Road where
  network := network
  objects := [{ uid := 5, kind := .obstacle, pos := lbc.position 80 0 }]
  rng := rng
  recordHistory := cfg.showTrajectories

/-- `vehicle_type(road, road.network.get_lane(i).position(s, 0), speed=speed)` — merge_env.py:104-117 (heading 0). -/
def place (G : Globals) (g : Graph) (uid : ℕ) (kind : VKind) (i : LaneIndex) (s speed : ℝ) : Py Vehicle := do
  let l ← g.getLane i
  Vehicle.mk' G g uid kind (l.position s 0) 0 speed

/-- `_make_vehicles` — merge_env.py:98-119. -/
def makeVehicles (G : Globals) (cfg : MergeConfig) (r : Road) : Py Road := do
  let ego ← place G r.network 0 cfg.sim.action.agent.vehicleClass ⟨"a", "b", 1⟩ 30 30
  let v1 ← place G r.network 1 cfg.otherVehiclesType ⟨"a", "b", 0⟩ 90 29
  let v2 ← place G r.network 2 cfg.otherVehiclesType ⟨"a", "b", 1⟩ 70 31
  let v3 ← place G r.network 3 cfg.otherVehiclesType ⟨"a", "b", 0⟩ 5 31.5
  let v4 ← place G r.network 4 cfg.otherVehiclesType ⟨"j", "k", 0⟩ 110 20
  return { r with vehicles := [ego, v1, v2, v3, { v4 with targetSpeed := 30 }] }

/-- `reset` — abstract.py:157-168 with merge_env.py:62-64. -/
def reset (G : Globals) (cfg : MergeConfig) (rng : Rng) : Py Env := do
  let _ ← cfg.sim.action.agent.init
  let r ← makeVehicles G cfg (makeRoad cfg rng)
  return { road := r, controlled := [0], nextUid := 6 }

/-- `MergeEnv` as an environment class. -/
def cls (G : Globals) : EnvClass where
  terminal := terminal
  reward := reward G

end Merge
end HighwayEnv
