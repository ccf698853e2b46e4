import Verif.Model.Envs.Parking
import Verif.Model.Envs.Intersection

/-!
# Model of `highway_env/envs/summon_env.py`
-/

noncomputable section
open Classical

namespace HighwayEnv

/-- The configuration entries read by `SummonEnv` — summon_env.py:27-34, besides those of `ParkingEnv` (`controlled_vehicles` is ignored). -/
structure SummonConfig where
  base : ParkingConfig := {}
  vehiclesCount : ℕ := 10
  otherVehiclesType : VKind := .idm

namespace Summon

/-- `COLLISION_REWARD` — summon_env.py:25. -/
def COLLISION_REWARD : ℝ := -5

/-- `compute_reward` — summon_env.py:112-125: the vehicle is `self.vehicle`, whatever the goals. -/
def computeReward (e : Env) (achieved desired : List ℝ) (p : ℝ := 1 / 2) : Py ℝ := do
  let x ← Parking.computeReward achieved desired p
  let v ← e.vehicle
  return x + COLLISION_REWARD * Highway.ofBool v.crashed

/-- `self.x_range` — summon_env.py:61. -/
def xRange (spots : ℕ) : ℝ := ((spots / 2 : ℕ) + 1) * 4

/-- `np.arange(-y_offset + width, y_offset, width)` with the offset 12 and the width 4 — summon_env.py:64: five ordinates. -/
def middles : List ℝ := (List.range 5).map fun k => -12 + 4 + k * 4

/-- One iteration of the loop creating the middle lanes — summon_env.py:64-69. -/
def addMiddle (spots : ℕ) (g : Graph) (y : ℝ) : Graph :=
  g.addLane "d" "e" { shape := .straight ⟨-xRange spots, y⟩ ⟨xRange spots, y⟩, width := 4, speedLimit := 5 }

/-- The network of `_create_road` — summon_env.py:36-70. -/
def network (spots : ℕ) : Graph := middles.foldl (addMiddle spots) ((List.range spots).foldl (Parking.addSpots 12 8 5 spots) [])

/-- `_create_road` with its default of 15 spots — summon_env.py:36-74. -/
def makeRoad (cfg : SummonConfig) (rng : Rng) : Road where
  network := network 15
  rng := rng
  recordHistory := cfg.base.showTrajectories

/-- `self.vehicle_starting` with 15 spots: the abscissa of the last spot — summon_env.py:52, 59. -/
def start : Vec2 := ⟨((14 : ℕ) - ((15 / 2 : ℕ) : ℝ)) * (4 + 0) - 4 / 2, 12 + 8 / 2⟩

/-- A vehicle that is not parked — summon_env.py:97-102. -/
def addMoving (G : Globals) (cfg : SummonConfig) (i : ℕ) (r : Road) (rng : Rng) : Py Road := do
  let (k, rng) ← rng.randint 5
  let (j, rng) ← rng.randint 2
  let s : ℝ := (i : ℝ) * 5 - xRange 15 / 8 * (((j : Int) - 1 : Int) : ℝ)
  let v ← Vehicle.makeOnLane G r.network (i + 1) cfg.otherVehiclesType ⟨"d", "e", (k : Int)⟩ s (some 2)
  return { r with vehicles := r.vehicles ++ [v], rng := rng }

/-- A parked vehicle — summon_env.py:103-105. -/
def addParked (G : Globals) (i : ℕ) (r : Road) (rng : Rng) : Py Road := do
  let u := rng.uniform01
  let lane : LaneIndex := if 1 / 2 ≤ u.1 then ⟨"a", "b", (i : Int)⟩ else ⟨"b", "c", (i : Int)⟩
  let v ← Vehicle.makeOnLane G r.network (i + 1) .plain lane 4 (some 0)
  return { r with vehicles := r.vehicles ++ [v], rng := u.2 }

/-- One iteration of the loop creating the other vehicles — summon_env.py:94-105. -/
def addOther (G : Globals) (cfg : SummonConfig) (r : Road) (i : ℕ) : Py Road :=
  let u := r.rng.uniform01
  if u.1 ≤ 75 / 100 then addParked G i r u.2 else addMoving G cfg i r u.2

/-- `_create_vehicles` — summon_env.py:76-110. -/
def makeVehicles (G : Globals) (cfg : SummonConfig) (r : Road) : Py Road := do
  let u := r.rng.uniform01
  let ego ← Vehicle.mk' G r.network 0 cfg.base.sim.action.agent.vehicleClass start (2 * Real.pi * u.1) 0
  let (x, rng) ← u.2.choice [(-2 * 15 - 10 : ℝ), 2 * 15 + 10]
  let o : RoadObject := { uid := cfg.vehiclesCount + 1, kind := .landmark, pos := ⟨x, 0⟩, heading := 0 }
  let r ← (List.range cfg.vehiclesCount).foldlM (addOther G cfg) { r with vehicles := r.vehicles ++ [ego], objects := r.objects ++ [o], rng := rng }
  return { r with vehicles := Intersection.removeWhileIterating (fun w => decide (w.uid ≠ 0) && decide ((w.pos - ego.pos).norm < 20)) r.vehicles }

/-- `reset` — abstract.py:157-168 with parking_env.py:64-66. -/
def reset (G : Globals) (cfg : SummonConfig) (rng : Rng) : Py Env := do
  let _ ← cfg.base.sim.action.agent.init
  let r ← makeVehicles G cfg (makeRoad cfg rng)
  return { road := r, controlled := [0], goal := cfg.vehiclesCount + 1, nextUid := cfg.vehiclesCount + 2 }

/-- `SummonEnv` as an environment class. -/
def cls (cfg : SummonConfig) : EnvClass where
  terminal e := Parking.terminalWith (fun a d => computeReward e a d) cfg.base e
  reward e _ := Parking.rewardWith (fun a d => computeReward e a d) cfg.base e

end Summon
end HighwayEnv
