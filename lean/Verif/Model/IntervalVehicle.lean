import Verif.Model.Regression
import Verif.Model.Controller
import Verif.Model.Step

/-!
# Model of `IntervalVehicle` as an object — `vehicle/uncertainty/prediction.py:21-91, 182-298, 300-396`

The state around the interval observer and predictor of `Model/Prediction`: construction, the trajectories, the choice of the front vehicle, the lanes that could be
followed, the recentring of the predictor when the target lane changes, and the worst-case collision check.

Which other vehicles of the road are interval vehicles is given by `others`: the current interval of the vehicle with a given identity.
-/

noncomputable section
open Classical Matrix

namespace HighwayEnv
open Regression

/-- `LinearVehicle.ACCELERATION_RANGE` — behavior.py:301. -/
def accelerationRange : Itv (Fin 3 → ℝ) := (![3 / 20, 3 / 20, 1], ![9 / 20, 9 / 20, 3])

/-- `LinearVehicle.STEERING_RANGE` — behavior.py:302-303. -/
def steeringRange : Itv (Fin 2 → ℝ) := (![5 - 7 / 100, 25 / 3 - 3 / 2], ![5 + 7 / 100, 25 / 3 + 3 / 2])

/-- An `IntervalVehicle` — prediction.py:21-64. -/
structure IntervalVehicle where
  v : Vehicle
  thetaA : Itv (Fin 3 → ℝ)
  thetaB : Itv (Fin 2 → ℝ)
  data : Option Records
  interval : VehicleInterval
  trajectory : List Vehicle := []
  intervals : List VehicleInterval := []
  lon : Option (LPV (Fin 4) (Fin 4) (Fin 1)) := none
  lat : Option (LPV (Fin 2) (Fin 2) (Fin 1)) := none
  previousTarget : LaneIndex

/-- The lane change models of `get_followed_lanes` — prediction.py:303-307; any other string is `other`. -/
inductive LaneModel where
  | model | all | right | other

/-- The modes of `step` — prediction.py:81-90; any other string is `other`. -/
inductive StepMode where
  | partial' | predictor | other

namespace IntervalVehicle

/-- `VehicleInterval(vehicle)` — prediction.py:399-403. -/
def certainOf (v : Vehicle) : VehicleInterval := VehicleInterval.certain v.pos v.speed v.heading

/-- `__init__` — prediction.py:31-64. -/
def create (G : Globals) (g : Graph) (uid : ℕ) (pos : Vec2) (heading speed : ℝ) (targetLane : Option LaneIndex := none) (targetSpeed : Option ℝ := none)
    (route : Option (List RouteStep) := none) (enableLaneChange : Bool := true) (timer : Option ℝ := none) (thetaA : Option (Itv (Fin 3 → ℝ)) := none)
    (thetaB : Option (Itv (Fin 2 → ℝ)) := none) (data : Option Records := none) : Py IntervalVehicle := do
  let v ← Vehicle.mk' G g uid .linear pos heading speed targetLane targetSpeed route enableLaneChange timer
  return { v := v, thetaA := thetaA.getD accelerationRange, thetaB := thetaB.getD steeringRange, data := data, interval := certainOf v
           previousTarget := v.targetLane }

/-- `create_from` a vehicle — prediction.py:66-79.  The last three are the attributes `theta_a_i`, `theta_b_i` and `data` of the source, if it has them. -/
def createFrom (G : Globals) (g : Graph) (uid : ℕ) (v : Vehicle) (thetaA : Option (Itv (Fin 3 → ℝ)) := none) (thetaB : Option (Itv (Fin 2 → ℝ)) := none)
    (data : Option Records := none) : Py IntervalVehicle :=
  create G g uid v.pos v.heading v.speed (if v.kind.isControlled then some v.targetLane else none) (if v.kind.isControlled then some v.targetSpeed else none)
    (if v.kind.isControlled then v.route else none) true (if v.kind.isIDM then some v.timer else none) thetaA thetaB data

/-- The interval of a front vehicle — prediction.py:285-298: its own if it is estimated, else certain (`IntervalVehicle.create_from(front).interval`, whose construction looks
for the closest lane). -/
def entityInterval (g : Graph) (others : ℕ → Option VehicleInterval) (e : Entity) : Py VehicleInterval :=
  match others e.uid with
  | some i => .ok i
  | none => do
    let i ← g.getClosestLaneIndex e.pos (some e.heading)
    let _ ← g.getLane i
    return VehicleInterval.certain e.pos e.speed e.heading

/-- `get_front_interval` — prediction.py:285-298. -/
def frontInterval (r : Road) (others : ℕ → Option VehicleInterval) (v : Vehicle) : Py (Option VehicleInterval) := do
  let (front, _) ← r.neighbourVehicles v
  match front with
  | none => return none
  | some e => do
    let i ← entityInterval r.network others e
    return some i

/-- `get_followed_lanes` — prediction.py:300-323. -/
def followedLanes (g : Graph) (v : Vehicle) (m : LaneModel := .model) (squeeze : Bool := true) : Py (List LaneIndex) :=
  match m with
  | .model => .ok [v.targetLane]
  | .all => do
    let sides ← g.sideLanes v.targetLane
    return sides ++ [v.targetLane]
  | .right => do
    let lanes ← g.lanesOf v.targetLane.src v.targetLane.dst
    if (v.targetLane.id : Int) < (lanes.length : Int) - 1 then do
      let lane ← g.getLane ⟨v.targetLane.src, v.targetLane.dst, v.targetLane.id + 1⟩
      if lane.isReachableFrom v.pos then return [v.targetLane, ⟨v.targetLane.src, v.targetLane.dst, v.targetLane.id + 1⟩]
      else return if squeeze then [v.targetLane] else [v.targetLane, v.targetLane]
    else return if squeeze then [v.targetLane] else [v.targetLane, v.targetLane]
  | .other => .ok []

/-- `store_trajectories` — prediction.py:361-364. -/
def store (G : Globals) (g : Graph) (s : IntervalVehicle) : Py IntervalVehicle := do
  let w ← Vehicle.createFrom G g s.v.uid .linear s.v
  return { s with trajectory := s.trajectory ++ [w], intervals := s.intervals ++ [s.interval] }

/-- The observer of the two copies made by `partial_observer_step` — prediction.py:338-352: they are created from the vehicle (`target_speed or speed`) and take its place on
a copy of the road. -/
def observer (G : Globals) (r : Road) (others : ℕ → Option VehicleInterval) (s : IntervalVehicle) : Py Observer := do
  let w ← createFrom G r.network s.v.uid s.v s.thetaA s.thetaB s.data
  let r' : Road := { r with vehicles := r.vehicles.map fun u => if u.uid = s.v.uid then w.v else u }
  let front ← frontInterval r' others w.v
  let lane ← r.network.getLane w.v.targetLane
  return {
    thetaA := w.thetaA, thetaB := w.thetaB, targetSpeed := w.v.targetSpeed, distanceWanted := G.distanceWanted w.v.kind
    timeWanted := Vehicle.timeWanted w.v.kind, front := front, ownPsi := w.v.lane.headingAt (w.v.lane.localCoordinates w.v.pos).1, target := lane
    targetPsi := lane.headingAt ((lane.localCoordinates w.v.pos).1 + w.v.speed * Vehicle.PURSUIT_TAU) }

/-- The numerical routines of the predictors, see `LPV.frame`. -/
structure Eigs where
  four : Matrix (Fin 4) (Fin 4) ℝ → Option (Matrix (Fin 4) (Fin 4) ℝ × Matrix (Fin 4) (Fin 4) ℝ)
  two : Matrix (Fin 2) (Fin 2) ℝ → Option (Matrix (Fin 2) (Fin 2) ℝ × Matrix (Fin 2) (Fin 2) ℝ)

/-- The middle of an interval: `mean(axis=0)`. -/
def middle (i : Itv ℝ) : ℝ := (i.1 + i.2) / 2

/-- The middle of an interval of vectors: `mean(axis=0)`. -/
def middleVec {n : ℕ} (i : Itv (Fin n → ℝ)) : Fin n → ℝ := fun k => (i.1 k + i.2 k) / 2

/-- `predictor_init` — prediction.py:228-271.  The second predictor is only created together with the first. -/
def predictorInit (E : Eigs) (G : Globals) (r : Road) (others : ℕ → Option VehicleInterval) (s : IntervalVehicle) : Py IntervalVehicle := do
  let target ← r.network.getLane s.v.targetLane
  let c := Itv.absoluteToLocal s.interval.position target
  match s.lon with
  | some _ => return s
  | none => do
    let front ← frontInterval r others s.v
    let (frontVehicle, _) ← r.neighbourVehicles s.v
    let f : ℝ × ℝ := match front with
      | none => (0, 0)
      | some f => ((Itv.absoluteToLocal f.position target).1.1, f.speed.1)
    let str := longitudinalStructure (Vehicle.timeWanted s.v.kind) (G.distanceWanted s.v.kind) s.v.speed
      (frontVehicle.map fun e => (e.speed, s.v.laneDistanceTo e.pos))
    let lon := longitudinalLpv E.four ![c.1.1, f.1, s.interval.speed.1, f.2] (G.distanceWanted s.v.kind) (Vehicle.timeWanted s.v.kind) s.v.targetSpeed s.thetaA str
    let lat := lateralLpv E.two ![c.2.1, s.interval.heading.1 - s.v.lane.headingAt (middle c.1)] s.thetaB
    return { s with lon := some lon, lat := some (s.lat.getD lat) }

/-- The recentring of the lateral predictor — prediction.py:193-202. -/
def recentreLat (previous target : Lane) (i : VehicleInterval) (lat : LPV (Fin 2) (Fin 2) (Fin 1)) : LPV (Fin 2) (Fin 2) (Fin 1) :=
  let c := Itv.absoluteToLocal i.position target
  let turn := target.headingAt (middle c.1) - previous.headingAt (middle c.1)
  let new := lat.intervalForth (![c.2.1, i.heading.1 + turn], ![c.2.2, i.heading.2 + turn])
  let delta := middleVec new - middleVec lat.xit
  { lat with xit := (lat.xit.1 + delta, lat.xit.2 + delta) }

/-- The recentring of the longitudinal predictor — prediction.py:203-210: only the own position is replaced. -/
def recentreLon (target : Lane) (i : VehicleInterval) (lon : LPV (Fin 4) (Fin 4) (Fin 1)) : LPV (Fin 4) (Fin 4) (Fin 1) :=
  let c := Itv.absoluteToLocal i.position target
  let back := lon.intervalBack lon.xit
  let new := lon.intervalForth (Function.update back.1 0 c.1.1, Function.update back.2 0 c.1.2)
  let delta := middleVec new - middleVec lon.xit
  { lon with xit := (lon.xit.1 + delta, lon.xit.2 + delta) }

/-- The predictors after the detection of a lane change — prediction.py:191-211. -/
def recentre (g : Graph) (s : IntervalVehicle) (lon : LPV (Fin 4) (Fin 4) (Fin 1)) (lat : LPV (Fin 2) (Fin 2) (Fin 1)) :
    Py (LPV (Fin 4) (Fin 4) (Fin 1) × LPV (Fin 2) (Fin 2) (Fin 1)) :=
  if s.v.targetLane = s.previousTarget then .ok (lon, lat)
  else do
    let target ← g.getLane s.v.targetLane
    let previous ← g.getLane s.previousTarget
    return (recentreLon target s.interval lon, recentreLat previous target s.interval lat)

/-- `predictor_step` — prediction.py:182-226. -/
def predict (E : Eigs) (G : Globals) (r : Road) (others : ℕ → Option VehicleInterval) (dt : ℝ) (s : IntervalVehicle) : Py IntervalVehicle := do
  let s ← predictorInit E G r others s
  match s.lon, s.lat with
  | some lon, some lat => do
    let (lon, lat) ← recentre r.network s lon lat
    let target ← r.network.getLane s.v.targetLane
    let (lon, lat, i) ← predictorStep target dt lon lat
    return { s with lon := some lon, lat := some lat, interval := i, previousTarget := s.v.targetLane }
  | _, _ => .error .attributeError

/-- The update of the interval in `step` — prediction.py:83-90. -/
def updateInterval (E : Eigs) (G : Globals) (r : Road) (others : ℕ → Option VehicleInterval) (dt : ℝ) (mode : StepMode) (s : IntervalVehicle) : Py IntervalVehicle :=
  if s.v.crashed then .ok { s with interval := certainOf s.v }
  else match mode with
    | .partial' => do
      let o ← observer G r others s
      return { s with interval := o.partialStep dt 0 s.interval }
    | .predictor => predict E G r others dt s
    | .other => .ok s

/-- `step` — prediction.py:81-91.  The interval is updated before the vehicle moves. -/
def step (E : Eigs) (G : Globals) (r : Road) (others : ℕ → Option VehicleInterval) (dt : ℝ) (mode : StepMode) (s : IntervalVehicle) : Py IntervalVehicle := do
  let s ← store G r.network s
  let s ← updateInterval E G r others dt mode s
  let v ← s.v.step r.network r.recordHistory dt
  return { s with v := v }

/-- `act` — behavior.py:323-326, 458-481: the data is collected first; `"longitudinal" not in None` raises `TypeError` once the features of the acceleration are computed. -/
def act (G : Globals) (r : Road) (s : IntervalVehicle) : Py (IntervalVehicle × Rng) :=
  match s.data with
  | none => do
    let _ ← r.neighbourVehicles s.v
    .error .typeError
  | some data => do
    let data ← collectData G r s.v data
    let (v, rng) ← s.v.idmAct G r
    return ({ s with v := v, data := some data }, rng)

/-- The point of the interval closest to a position — prediction.py:388-391. -/
def projection (i : VehicleInterval) (p : Vec2) : Vec2 :=
  ⟨min (max p.x i.position.1.x) i.position.2.x, min (max p.y i.position.1.y) i.position.2.y⟩

/-- `check_collision` with another (distinct) vehicle — prediction.py:366-396. -/
def checkCollision (s : IntervalVehicle) (w : Vehicle) : IntervalVehicle × Vehicle :=
  if w.kind ≠ .mdp then
    let p := s.v.checkCollisionV w
    ({ s with v := p.1 }, p.2)
  else if !s.v.collisionsEnabled || s.v.crashed then (s, w)
  else if pointInRectangle w.pos (s.interval.position.1 - ⟨Vehicle.LENGTH, Vehicle.LENGTH⟩) (s.interval.position.2 + ⟨Vehicle.LENGTH, Vehicle.LENGTH⟩) = false then (s, w)
  else if rotatedRectanglesIntersect ⟨projection s.interval w.pos, Vehicle.LENGTH, Vehicle.WIDTH, s.v.heading⟩ w.rect then
    let m := min s.v.speed w.speed
    ({ s with v := { s.v with speed := m, crashed := true } }, { w with speed := m, crashed := true })
  else (s, w)

end IntervalVehicle
end HighwayEnv
