import Verif.Model.Envs.Highway
import Verif.Model.Observation
import Mathlib.Analysis.SpecialFunctions.Pow.Real

/-!
# Model of `highway_env/envs/parking_env.py`
-/

noncomputable section
open Classical

namespace HighwayEnv

/-- The configuration entries read by `ParkingEnv` — abstract.py:84-110 and parking_env.py:30-53.  `severalObservers` tells whether the observation
type is `MultiAgentObservation` (of goal observers). -/
structure ParkingConfig where
  sim : SimConfig := { action := .single (.continuous {}), policyFrequency := 5 }
  features : List String := ["x", "y", "vx", "vy", "cos_h", "sin_h"]
  scales : List ℝ := [100, 100, 5, 5, 1, 1]
  severalObservers : Bool := false
  duration : ℝ := 100
  controlledVehicles : ℕ := 1
  showTrajectories : Bool := false

namespace Parking

/-- `REWARD_WEIGHTS` — parking_env.py:25. -/
def REWARD_WEIGHTS : List ℝ := [1, 3 / 10, 0, 0, 2 / 100, 2 / 100]
/-- `SUCCESS_GOAL_REWARD` — parking_env.py:26. -/
def SUCCESS_GOAL_REWARD : ℝ := 12 / 100

/-- `np.dot(np.abs(a - d), w)` for arrays of the same length. -/
def weightedGap (a d w : List ℝ) : ℝ := (List.zipWith (fun x y => |x| * y) (List.zipWith (· - ·) a d) w).sum

/-- `compute_reward` — parking_env.py:106-119, for one pair of goals.  Arrays of different lengths raise `ValueError` (numpy would broadcast arrays of
length 1: not modelled). -/
def computeReward (achieved desired : List ℝ) (p : ℝ := 1 / 2) : Py ℝ :=
  if achieved.length = desired.length ∧ achieved.length = REWARD_WEIGHTS.length then .ok (-(weightedGap achieved desired REWARD_WEIGHTS) ^ p)
  else .error .valueError

/-- `self.goal`, looked up among the objects of the road. -/
def goal (e : Env) : Py RoadObject :=
  match e.road.objects.find? fun o => decide (o.uid = e.goal) with
  | none => .error .attributeError
  | some o => .ok o

/-- The observation of one observer — observation.py:306-321. -/
def observeOne (cfg : ParkingConfig) (e : Env) (uid : ℕ) : Py (List ℝ × List ℝ × List ℝ) :=
  match e.road.vehicle? uid with
  | none => .error .attributeError
  | some v => do
    let o ← goal e
    goalObservation e.road.network cfg.features cfg.scales v o

/-- `obs = self.observation_type.observe(); obs = obs if isinstance(obs, tuple) else (obs,)` — parking_env.py:122-123, 134-135: one observation of the
first controlled vehicle (zeros without one — observation.py:307-312), or one observation per controlled vehicle. -/
def observations (cfg : ParkingConfig) (e : Env) : Py (List (List ℝ × List ℝ × List ℝ)) :=
  if cfg.severalObservers then e.controlled.mapM (observeOne cfg e)
  else match e.controlled with
    | [] => let z := List.replicate cfg.features.length 0
            .ok [(z, z, z)]
    | uid :: _ => do
      let o ← observeOne cfg e uid
      return [o]

/-- `_reward` — parking_env.py:121-125, for a given `compute_reward`. -/
def rewardWith (f : List ℝ → List ℝ → Py ℝ) (cfg : ParkingConfig) (e : Env) : Py ℝ := do
  let obs ← observations cfg e
  let xs ← obs.mapM fun o => f o.2.1 o.2.2
  return xs.sum

/-- `_is_success` — parking_env.py:127-128, for a given `compute_reward`. -/
def isSuccessWith (f : List ℝ → List ℝ → Py ℝ) (achieved desired : List ℝ) : Py Bool := do
  let x ← f achieved desired
  return decide (-SUCCESS_GOAL_REWARD < x)

/-- `all(self._is_success(...) for agent_obs in obs)`: stops at the first failure — parking_env.py:136. -/
def allSuccessWith (f : List ℝ → List ℝ → Py ℝ) : List (List ℝ × List ℝ × List ℝ) → Py Bool
  | [] => .ok true
  | o :: os => do
    let b ← isSuccessWith f o.2.1 o.2.2
    if b then allSuccessWith f os else .ok false

/-- `self.controlled_vehicles`, looked up on the road — abstract.py:50.  Simplification: the code keeps references, so that a controlled
vehicle that was removed from the road is still read (unmoving); the lookup raises instead. -/
def egos (e : Env) : Py (List Vehicle) :=
  e.controlled.mapM fun uid => match e.road.vehicle? uid with
    | none => .error .attributeError
    | some v => .ok v

/-- `_is_terminal` — parking_env.py:130-137. -/
def terminalWith (f : List ℝ → List ℝ → Py ℝ) (cfg : ParkingConfig) (e : Env) : Py Bool := do
  let vs ← egos e
  let obs ← observations cfg e
  let success ← allSuccessWith f obs
  return decide (cfg.duration ≤ e.steps) || vs.any (·.crashed) || success

/-- `info["is_success"]` — parking_env.py:55-62: one value, or one per observer. -/
def infoSuccessWith (f : List ℝ → List ℝ → Py ℝ) (cfg : ParkingConfig) (e : Env) : Py (List Bool) := do
  let obs ← observations cfg e
  obs.mapM fun o => isSuccessWith f o.2.1 o.2.2

/-! ### The scene -/

/-- One iteration of the loop of `_create_road` — parking_env.py:80-83: the two opposite spots number `k` out of `spots`, at abscissa
`(k - spots // 2) * width - width / 2`. -/
def addSpots (yOffset length limit : ℝ) (spots : ℕ) (g : Graph) (k : ℕ) : Graph :=
  let x : ℝ := ((k : ℝ) - ((spots / 2 : ℕ) : ℝ)) * (4 + 0) - 4 / 2
  let g := g.addLane "a" "b" { shape := .straight ⟨x, yOffset⟩ ⟨x, yOffset + length⟩, width := 4, speedLimit := limit }
  g.addLane "b" "c" { shape := .straight ⟨x, -yOffset⟩ ⟨x, -yOffset - length⟩, width := 4, speedLimit := limit }

/-- The network of `_create_road` — parking_env.py:68-83; the default speed limit of a lane is 20 m/s (lane.py:131). -/
def network (spots : ℕ) : Graph := (List.range spots).foldl (addSpots 10 8 20 spots) []

/-- `_create_road` with its default of 15 spots — parking_env.py:68-87. -/
def makeRoad (cfg : ParkingConfig) (rng : Rng) : Road where
  network := network 15
  rng := rng
  recordHistory := cfg.showTrajectories

/-- One iteration of the loop creating the controlled vehicles — parking_env.py:92-95. -/
def addEgo (G : Globals) (cfg : ParkingConfig) (r : Road) (i : ℕ) : Py Road := do
  let u := r.rng.uniform01
  let v ← Vehicle.mk' G r.network i cfg.sim.action.agent.vehicleClass ⟨(i : ℝ) * 20, 0⟩ (2 * Real.pi * u.1) 0
  return { r with vehicles := r.vehicles ++ [v], rng := u.2 }

/-- `lane.heading` of a straight lane — lane.py:146. -/
def laneHeading (l : Lane) : ℝ := l.headingAt 0

/-- `_create_vehicles` — parking_env.py:89-99; the goal gets the identity after the vehicles. -/
def makeVehicles (G : Globals) (cfg : ParkingConfig) (r : Road) : Py Road := do
  let r ← (List.range cfg.controlledVehicles).foldlM (addEgo G cfg) r
  let (l, rng) ← r.rng.choice r.network.lanesList
  let o : RoadObject := { uid := cfg.controlledVehicles, kind := .landmark, pos := l.position (l.length / 2) 0, heading := laneHeading l }
  return { r with objects := r.objects ++ [o], rng := rng }

/-- `reset` — abstract.py:157-168 with parking_env.py:64-66. -/
def reset (G : Globals) (cfg : ParkingConfig) (rng : Rng) : Py Env := do
  let _ ← cfg.sim.action.agent.init
  let r ← makeVehicles G cfg (makeRoad cfg rng)
  return { road := r, controlled := List.range cfg.controlledVehicles, goal := cfg.controlledVehicles, nextUid := cfg.controlledVehicles + 1 }

/-- `ParkingEnv` as an environment class. -/
def cls (cfg : ParkingConfig) : EnvClass where
  terminal := terminalWith (fun a d => computeReward a d) cfg
  reward e _ := rewardWith (fun a d => computeReward a d) cfg e

end Parking
end HighwayEnv
