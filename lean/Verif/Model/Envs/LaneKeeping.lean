import Verif.Model.Envs.Highway

/-!
# Model of `highway_env/envs/lane_keeping_env.py`

`self.lpv` stays `None`: nothing in the package sets it, so the branches `if self.lpv` are not modelled.
-/

noncomputable section
open Classical

namespace HighwayEnv

/-- The configuration entries read by `LaneKeepingEnv` — lane_keeping_env.py:28-50.  The observation is the default one, an `AttributesObservation` of
`state`, `derivative` and `reference_state`, in this order. -/
structure LaneKeepingConfig where
  sim : SimConfig := { action := .single (.continuous { steeringRange := (-Real.pi / 3, Real.pi / 3), longitudinal := false, lateral := true, dynamical := true }),
                       simulationFrequency := 10, policyFrequency := 10 }
  stateNoise : ℝ := 5 / 100
  derivativeNoise : ℝ := 5 / 100
  showTrajectories : Bool := false

namespace LaneKeeping

/-- The attributes of the environment — lane_keeping_env.py:20-26 — besides those of `AbstractEnv`. -/
structure State where
  env : Env
  lane : Option Lane := none
  lanes : List Lane := []
  trajectory : List (List ℝ) := []

/-- What `AttributesObservation.observe` returns — observation.py:338-341. -/
structure Obs where
  state : List ℝ
  derivative : List ℝ
  reference : List ℝ

/-- `vehicle.state` — dynamics.py:32-39; only bicycle vehicles have it. -/
def vehicleState (v : Vehicle) : Py (List ℝ) :=
  if v.kind = .bicycle then .ok [v.pos.x, v.pos.y, v.heading, v.speed, v.lateralSpeed, v.yawRate] else .error .attributeError

/-- `vehicle.derivative` — dynamics.py:41-69. -/
def vehicleDerivative (v : Vehicle) : Py (List ℝ) :=
  if v.kind = .bicycle then
    let d := v.bicycleLateral
    let s := Vec2.rot v.heading ⟨v.speed, v.lateralSpeed⟩
    .ok [s.x, s.y, v.yawRate, v.acceleration, d.1, d.2]
  else .error .attributeError

/-- `[[1, 2, 4, 5]]`: the selection of four rows — lane_keeping_env.py:117, 126, 137. -/
def lateralPart (xs : List ℝ) : Py (List ℝ) := [1, 2, 4, 5].mapM fun k => pyIndex xs k

/-- `x + self.np_random.uniform(low=-a, high=a, size=x.shape)` — lane_keeping_env.py:117-120, 126-129. -/
def addNoise (a : ℝ) : List ℝ → Rng → List ℝ × Rng
  | [], rng => ([], rng)
  | x :: xs, rng =>
    let u := rng.uniform (-a) a
    let r := addNoise a xs u.2
    ((x + u.1) :: r.1, r.2)

/-- `np.zeros((4, 1))`. -/
def zeros : List ℝ := [0, 0, 0, 0]

/-- `reference_state` when there is a vehicle — lane_keeping_env.py:131-138. -/
def reference (lane : Option Lane) (v : Vehicle) : Py (List ℝ) :=
  match lane with
  | none => .ok zeros
  | some l => do
    let c := l.localCoordinates v.pos
    let psi := l.headingAt c.1
    let x ← vehicleState v
    let x ← lateralPart x
    let y ← pyIndex x 0
    return [y - c.2, psi, 0, 0]

/-- `observation_type.observe()`: the three attributes in turn, drawing noise for the first two — observation.py:338-341, lane_keeping_env.py:112-138.
Returns the observation and the state of the generator. -/
def observe (cfg : LaneKeepingConfig) (s : State) : Py (Obs × Rng) :=
  match s.env.controlled with
  | [] => .ok (⟨zeros, zeros, zeros⟩, s.env.road.rng)
  | _ => do
    let v ← s.env.vehicle
    let x ← vehicleState v
    let x ← lateralPart x
    let n := addNoise cfg.stateNoise x s.env.road.rng
    let d ← vehicleDerivative v
    let d ← lateralPart d
    let m := addNoise cfg.derivativeNoise d n.2
    let ref ← reference s.lane v
    return (⟨n.1, m.1, ref⟩, m.2)

/-- `observation_type.space()` — observation.py:327-336: observes (so draws noise), and gives up on `AttributeError`, which the first attribute raises
before any draw.  Returns the state of the generator. -/
def space (cfg : LaneKeepingConfig) (s : State) : Py Rng :=
  match observe cfg s with
  | .ok o => .ok o.2
  | .error .attributeError => .ok s.env.road.rng
  | .error err => .error err

/-- The generator is shared by the environment and its road. -/
def withRng (s : State) (rng : Rng) : State := { s with env := { s.env with road := { s.env.road with rng := rng } } }

/-- The sine lane — lane_keeping_env.py:86-87. -/
def sineLane : Lane := { shape := .sine ⟨0, 0⟩ ⟨500, 0⟩ 5 (2 * Real.pi / 100) 0, width := 10 }
/-- `other_lane` — lane_keeping_env.py:89-90. -/
def otherLane : Lane := { shape := .straight ⟨50, 50⟩ ⟨115, 15⟩, width := 10 }
/-- The lane between them — lane_keeping_env.py:94-95. -/
def lastLane : Lane := { shape := .straight ⟨115, 15⟩ ⟨115 + 20, 15 + 20 * (15 - 50) / (115 - 50)⟩, width := 10 }

/-- The network of `_make_road` — lane_keeping_env.py:85-95. -/
def network : Graph := Graph.addLane (Graph.addLane (Graph.addLane [] "a" "b" sineLane) "c" "d" otherLane) "d" "a" lastLane

/-- `_make_road` — lane_keeping_env.py:84-98. -/
def makeRoad (cfg : LaneKeepingConfig) (rng : Rng) : Road where
  network := network
  rng := rng
  recordHistory := cfg.showTrajectories

/-- `_make_vehicles` — lane_keeping_env.py:100-107. -/
def makeVehicles (G : Globals) (cfg : LaneKeepingConfig) (r : Road) : Py Road := do
  let l ← r.network.getLane ⟨"c", "d", 0⟩
  let v ← Vehicle.mk' G r.network 0 cfg.sim.action.agent.vehicleClass (l.position 50 (-4)) (l.headingAt 0) (83 / 10)
  return { r with vehicles := r.vehicles ++ [v] }

/-- `reset` — abstract.py:157-168 with lane_keeping_env.py:80-82, 91-92.  The trajectory is kept. -/
def reset (G : Globals) (cfg : LaneKeepingConfig) (s : State) : Py (State × Obs) := do
  let _ ← cfg.sim.action.agent.init
  let rng ← space cfg s
  let r ← makeVehicles G cfg (makeRoad cfg rng)
  let s : State := { s with env := { road := r, controlled := [0], nextUid := 1 }, lane := some otherLane, lanes := [sineLane] }
  let rng ← space cfg s
  let o ← observe cfg (withRng s rng)
  return (withRng s o.2, o.1)

/-- `LaneKeepingEnv(config)` — abstract.py:38-71, lane_keeping_env.py:20-26: a reset, after which the lanes are forgotten.  (Before the first reset there is
neither road nor vehicle: an empty road stands for `None`.) -/
def make (G : Globals) (cfg : LaneKeepingConfig) (rng : Rng) : Py State := do
  let s : State := { env := { road := { network := [], rng := rng }, controlled := [] } }
  let rng ← space cfg s
  let o ← reset G cfg (withRng s rng)
  return { o.1 with lane := none, lanes := [], trajectory := [] }

/-- `if self.lanes and not self.lane.on_lane(self.vehicle.position): self.lane = self.lanes.pop(0)` — lane_keeping_env.py:53-54. -/
def switchLane (s : State) : Py State :=
  match s.lanes with
  | [] => .ok s
  | next :: rest => match s.lane with
    | none => .error .attributeError
    | some l => do
      let v ← s.env.vehicle
      if l.onLane v.pos then return s else return { s with lane := some next, lanes := rest }

/-- `store_data` — lane_keeping_env.py:140-150. -/
def storeData (s : State) : Py State := do
  let v ← s.env.vehicle
  let x ← vehicleState v
  return { s with trajectory := s.trajectory ++ [x] }

/-- `_reward` — lane_keeping_env.py:73-75. -/
def reward (s : State) : Py ℝ :=
  match s.lane with
  | none => .error .attributeError
  | some l => do
    let v ← s.env.vehicle
    if l.width = 0 then .error .zeroDivisionError else return 1 - ((l.localCoordinates v.pos).2 / l.width) ^ 2

/-- `LaneKeepingEnv` as an environment class, for `_simulate`: never terminal — lane_keeping_env.py:77-78. -/
def cls : EnvClass where
  terminal _ := .ok false
  reward _ _ := .error .notImplementedError

/-- What `step` returns: observation, reward, terminal — lane_keeping_env.py:71. -/
structure Result where
  obs : Obs
  reward : ℝ
  terminal : Bool

/-- `step` — lane_keeping_env.py:52-71: the observation precedes the simulation, and `self.steps` does not change. -/
def step (G : Globals) (cfg : LaneKeepingConfig) (s : State) (a : AgentAction) : Py (State × Result) := do
  let s ← switchLane s
  let s ← storeData s
  let r ← s.env.road.envAct G cfg.sim.action s.env.controlled a
  let s : State := { s with env := { s.env with road := r } }
  let o ← observe cfg s
  let s := withRng s o.2
  let e ← Env.simulate G cfg.sim cls none s.env
  let s : State := { s with env := e }
  let x ← reward s
  return (s, ⟨o.1, x, false⟩)

end LaneKeeping
end HighwayEnv
