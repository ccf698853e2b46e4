import Verif.Model.Network

/-!
# Model of vehicles and road objects

`highway_env/vehicle/kinematics.py` (`Vehicle`), `highway_env/vehicle/dynamics.py` (`BicycleVehicle`),
`highway_env/road/objects.py`, and the state carried by the subclasses of `controller.py` and `behavior.py`.

One record holds the attributes of every vehicle class; `kind` is the class and selects the methods.  Attributes that a class
does not define are ignored by the methods of that class (and reading them where Python would raise `AttributeError` is modelled
by a test on `kind`).
-/

noncomputable section
open Classical

namespace HighwayEnv

/-- The vehicle classes: `Vehicle`, `BicycleVehicle`, `ControlledVehicle`, `MDPVehicle`, `IDMVehicle`, `LinearVehicle`,
`AggressiveVehicle`, `DefensiveVehicle`. -/
inductive VKind where
  | plain | bicycle | controlled | mdp | idm | linear | aggressive | defensive
  deriving DecidableEq, Repr

namespace VKind
/-- `isinstance(v, ControlledVehicle)` — controller.py:11, 200; behavior.py:12, 294, 483, 493. -/
def isControlled : VKind → Bool
  | plain | bicycle => false
  | _ => true
/-- `isinstance(v, IDMVehicle)`. -/
def isIDM : VKind → Bool
  | idm | linear | aggressive | defensive => true
  | _ => false
/-- `isinstance(v, LinearVehicle)`. -/
def isLinear : VKind → Bool
  | linear | aggressive | defensive => true
  | _ => false
/-- `MAX_SPEED` — kinematics.py:34, dynamics.py:25. -/
def maxSpeed : VKind → ℝ
  | bicycle => 15
  | _ => 40
end VKind

/-- Class attributes that environments overwrite at run time, hence shared by all vehicles of the process:
`MDPVehicle.SPEED_*` (controller.py:204-206) and the IDM parameters (behavior.py:25-32), the latter as seen by instances of
each class (attribute lookup through the inheritance chain already resolved). -/
structure Globals where
  speedCount : ℕ := 3
  speedMin : ℝ := 20
  speedMax : ℝ := 30
  comfortAccMax : VKind → ℝ := fun _ => 3
  comfortAccMin : VKind → ℝ := fun _ => -5
  distanceWanted : VKind → ℝ := fun _ => 10

/-- What `history` stores — kinematics.py:156: a new vehicle at the same dynamical state. -/
structure Snapshot where
  pos : Vec2
  heading : ℝ
  speed : ℝ

/-- Attributes of a vehicle.  `uid` is the object identity (`is`). -/
structure Vehicle where
  uid : ℕ
  kind : VKind
  pos : Vec2
  heading : ℝ
  speed : ℝ
  laneIndex : LaneIndex
  lane : Lane
  /-- `action['steering']` -/
  steering : ℝ := 0
  /-- `action['acceleration']` -/
  acceleration : ℝ := 0
  crashed : Bool := false
  /-- `COLLISIONS_ENABLED`, a class attribute that may be overridden per instance. -/
  collisionsEnabled : Bool := true
  history : List Snapshot := []
  -- ControlledVehicle
  targetLane : LaneIndex
  targetSpeed : ℝ := 0
  route : Option (List RouteStep) := none
  -- MDPVehicle
  speedIndex : Int := 0
  -- IDMVehicle
  enableLaneChange : Bool := true
  timer : ℝ := 0
  /-- `LANE_CHANGE_MAX_BRAKING_IMPOSED`, overridden per instance by `set_preferred_lane`. -/
  maxBraking : ℝ := 2
  -- LinearVehicle
  accParams : ℝ × ℝ × ℝ := (3 / 10, 3 / 10, 2)
  steerParams : ℝ × ℝ := (5, 25 / 3)
  -- set by RegulatedRoad
  isYielding : Bool := false
  yieldTimer : ℕ := 0
  /-- whether the instance has an attribute `color` (deleted on release). -/
  hasColor : Bool := false
  -- BicycleVehicle
  lateralSpeed : ℝ := 0
  yawRate : ℝ := 0

/-- `Obstacle` or `Landmark` — objects.py:84-95. -/
inductive ObjKind where
  | obstacle | landmark
  deriving DecidableEq, Repr

/-- A road object — objects.py:9-35. -/
structure RoadObject where
  uid : ℕ
  kind : ObjKind
  pos : Vec2
  speed : ℝ := 0
  heading : ℝ := 0
  hit : Bool := false

namespace RoadObject
/-- `RoadObject.LENGTH` — objects.py:18. -/
def LENGTH : ℝ := 2
/-- `RoadObject.WIDTH` — objects.py:19. -/
def WIDTH : ℝ := 2
/-- `RoadObject.direction` — objects.py:69-71. -/
def direction (o : RoadObject) : Vec2 := Vec2.dir o.heading
/-- `RoadObject.velocity` — objects.py:73-75. -/
def velocity (o : RoadObject) : Vec2 := o.speed • o.direction
/-- `RoadObject.make_on_lane` — objects.py:35-46: the heading of the lane is passed in third position, i.e. as `speed`. -/
def makeOnLane (g : Graph) (uid : ℕ) (kind : ObjKind) (i : LaneIndex) (s : ℝ) : Py RoadObject := do
  let l ← g.getLane i
  return { uid := uid, kind := kind, pos := l.position s 0, speed := l.headingAt s }
end RoadObject

/-- An action given to `act`: nothing, a meta-action name, or a dictionary `{steering, acceleration}`. -/
inductive VAction where
  | none
  | faster | slower | laneLeft | laneRight | idle
  | control (steering acceleration : ℝ)
  deriving DecidableEq

namespace Vehicle

/-- `Vehicle.LENGTH` — kinematics.py:28. -/
def LENGTH : ℝ := 5
/-- `Vehicle.WIDTH` — kinematics.py:30. -/
def WIDTH : ℝ := 2

/-- `direction` — kinematics.py:208-209. -/
def direction (v : Vehicle) : Vec2 := Vec2.dir v.heading
/-- `velocity` — kinematics.py:212-213. -/
def velocity (v : Vehicle) : Vec2 := v.speed • v.direction

/-- `index_to_speed` — controller.py:240-250. -/
def indexToSpeed (G : Globals) (i : Int) : ℝ :=
  if 1 < G.speedCount then G.speedMin + i * (G.speedMax - G.speedMin) / (G.speedCount - 1) else G.speedMin

/-- `speed_to_index` and `speed_to_index_default` — controller.py:252-271.  (`SPEED_MIN = SPEED_MAX` divides by zero in
Python; theorems assume `SPEED_MIN < SPEED_MAX`.) -/
def speedToIndex (G : Globals) (speed : ℝ) : Int :=
  npClipInt (npRound ((speed - G.speedMin) / (G.speedMax - G.speedMin) * (G.speedCount - 1))) 0 (G.speedCount - 1)

/-- Constructors of all vehicle classes — kinematics.py:37-51, controller.py:31-42, 208-218, behavior.py:46-58, 307-321,
dynamics.py:27-32.  `x or y` on floats falls back when `x` is 0.  Class-level linear parameters: behavior.py:298-299, 485-490,
495-500. -/
def mk' (G : Globals) (g : Graph) (uid : ℕ) (kind : VKind) (pos : Vec2) (heading speed : ℝ)
    (targetLane : Option LaneIndex := none) (targetSpeed : Option ℝ := none) (route : Option (List RouteStep) := none)
    (enableLaneChange : Bool := true) (timer : Option ℝ := none) : Py Vehicle := do
  let i ← g.getClosestLaneIndex pos (some heading)
  let l ← g.getLane i
  let ts : ℝ := if Lane.optTruthy targetSpeed then targetSpeed.getD 0 else speed
  let idx := speedToIndex G ts
  return {
    uid := uid, kind := kind, pos := pos, heading := heading, speed := speed, laneIndex := i, lane := l
    targetLane := targetLane.getD i
    targetSpeed := if kind = .mdp then indexToSpeed G idx else ts
    route := route
    speedIndex := if kind = .mdp then idx else 0
    enableLaneChange := enableLaneChange
    timer := if Lane.optTruthy timer then timer.getD 0 else pyMod ((pos.x + pos.y) * Real.pi) 1
    accParams := match kind with
      | .aggressive => (0.8 / ((1 - 0.75) * 30), 0.8 / (0.75 * 30), 0.5)
      | .defensive => (1.2 / ((1 - 0.75) * 30), 1.2 / (0.75 * 30), 2)
      | _ => (3 / 10, 3 / 10, 2) }

/-- `make_on_lane` — kinematics.py:53-67.  (`cls(road, position, heading, speed)`.) -/
def makeOnLane (G : Globals) (g : Graph) (uid : ℕ) (kind : VKind) (i : LaneIndex) (s : ℝ) (speed : Option ℝ := some 0) :
    Py Vehicle := do
  let l ← g.getLane i
  mk' G g uid kind (l.position s 0) (l.headingAt s) (speed.getD l.speedLimit)

/-- `create_from` — kinematics.py:98-109 (plain, bicycle), controller.py:44-57 (controlled, MDP), behavior.py:63-76 (IDM and
subclasses; `timer` is read if the source has one).  The class methods of controlled classes read `target_lane_index` of the source:
`AttributeError` if it is not a controlled vehicle. -/
def createFrom (G : Globals) (g : Graph) (uid : ℕ) (kind : VKind) (v : Vehicle) : Py Vehicle :=
  if kind.isControlled then
    if v.kind.isControlled then
      mk' G g uid kind v.pos v.heading v.speed (some v.targetLane) (some v.targetSpeed) v.route true
        (if kind.isIDM && v.kind.isIDM then some v.timer else none)
    else .error .attributeError
  else mk' G g uid kind v.pos v.heading v.speed

/-- `Vehicle.clip_actions` — kinematics.py:140-149.  The `max` branch uses `MAX_SPEED - speed` as in the code. -/
def clipActionsBase (v : Vehicle) : Vehicle :=
  let v := if v.crashed then { v with steering := 0, acceleration := -1 * v.speed } else v
  if v.speed > v.kind.maxSpeed then
    { v with acceleration := min v.acceleration (v.kind.maxSpeed - v.speed) }
  else if v.speed < -v.kind.maxSpeed then
    { v with acceleration := max v.acceleration (v.kind.maxSpeed - v.speed) }
  else v

/-- `clip_actions` with the override of `BicycleVehicle` — dynamics.py:102-106. -/
def clipActions (v : Vehicle) : Vehicle :=
  let v := v.clipActionsBase
  if v.kind = .bicycle then
    { v with steering := npClip v.steering (-Real.pi / 2) (Real.pi / 2)
             yawRate := npClip v.yawRate (-(2 * Real.pi)) (2 * Real.pi) }
  else v

/-- `on_state_update` — kinematics.py:151-156.  `history` is a deque of at most 30 elements, newest first. -/
def onStateUpdate (g : Graph) (recordHistory : Bool) (v : Vehicle) : Py Vehicle := do
  let i ← g.getClosestLaneIndex v.pos (some v.heading)
  let l ← g.getLane i
  let h := if recordHistory then (⟨v.pos, v.heading, v.speed⟩ :: v.history).take 30 else v.history
  return { v with laneIndex := i, lane := l, history := h }

/-- Slip angle — kinematics.py:133. -/
def slip (delta : ℝ) : ℝ := Real.arctan (1 / 2 * Real.tan delta)

/-- State propagation of `Vehicle.step` — kinematics.py:131-137, after `clip_actions`, before `on_state_update`. -/
def integrate (v : Vehicle) (dt : ℝ) : Vehicle :=
  let beta := slip v.steering
  { v with
    pos := v.pos + dt • (v.speed • Vec2.dir (v.heading + beta))
    heading := v.heading + v.speed * Real.sin beta / (LENGTH / 2) * dt
    speed := v.speed + v.acceleration * dt }

/-- `INERTIA_Z` — dynamics.py:17-20 (`MASS = 1`). -/
def INERTIA_Z : ℝ := 1 / 12 * 1 * (LENGTH ^ 2 + 3 * WIDTH ^ 2)

/-- `derivative[4], derivative[5]`: derivatives of lateral speed and yaw rate — dynamics.py:44-61 (`MASS = 1`,
`LENGTH_A = LENGTH_B = LENGTH/2`, `FRICTION = 15`). -/
def bicycleLateral (v : Vehicle) : ℝ × ℝ :=
  let a : ℝ := LENGTH / 2
  let thetaF := arctan2 (v.lateralSpeed + a * v.yawRate) v.speed
  let thetaR := arctan2 (v.lateralSpeed - a * v.yawRate) v.speed
  let f : ℝ × ℝ :=
    if |v.speed| < 1 then
      (-1 * v.lateralSpeed - INERTIA_Z / a * v.yawRate, -1 * v.lateralSpeed + INERTIA_Z / a * v.yawRate)
    else (2 * 15 * (v.steering - thetaF), 2 * 15 * (0 - thetaR))
  (1 / 1 * (f.1 + f.2) - v.yawRate * v.speed, 1 / INERTIA_Z * (a * f.1 - a * f.2))

/-- State propagation of `BicycleVehicle.step` — dynamics.py:91-98. -/
def integrateBicycle (v : Vehicle) (dt : ℝ) : Vehicle :=
  let d := v.bicycleLateral
  { v with
    pos := v.pos + dt • Vec2.rot v.heading ⟨v.speed, v.lateralSpeed⟩
    heading := v.heading + v.yawRate * dt
    speed := v.speed + v.acceleration * dt
    lateralSpeed := v.lateralSpeed + d.1 * dt
    yawRate := v.yawRate + d.2 * dt }

/-- The part of `step` before `on_state_update`: `IDMVehicle.step` first advances the timer — behavior.py:106-115. -/
def move (v : Vehicle) (dt : ℝ) : Vehicle :=
  let v := if v.kind.isIDM then { v with timer := v.timer + dt } else v
  let v := v.clipActions
  if v.kind = .bicycle then v.integrateBicycle dt else v.integrate dt

/-- `step` — kinematics.py:120-138, dynamics.py:91-100, behavior.py:106-115. -/
def step (g : Graph) (recordHistory : Bool) (dt : ℝ) (v : Vehicle) : Py Vehicle :=
  (v.move dt).onStateUpdate g recordHistory

/-- `lane_distance_to(other)` with the vehicle's own lane — kinematics.py:158-170. -/
def laneDistanceTo (v : Vehicle) (p : Vec2) : ℝ :=
  (v.lane.localCoordinates p).1 - (v.lane.localCoordinates v.pos).1

/-- The collision rectangle `(position, 0.9*LENGTH, 0.9*WIDTH, heading)` — kinematics.py:204-205. -/
def rect (v : Vehicle) : Rect := ⟨v.pos, 9 / 10 * LENGTH, 9 / 10 * WIDTH, v.heading⟩
end Vehicle

/-- The collision rectangle of a road object — kinematics.py:205, objects.py:18-19. -/
def RoadObject.rect (o : RoadObject) : Rect :=
  ⟨o.pos, 9 / 10 * RoadObject.LENGTH, 9 / 10 * RoadObject.WIDTH, o.heading⟩

namespace Vehicle

/-- `_is_colliding` — kinematics.py:199-205: spherical pre-check with the vehicle's own length, then rectangles. -/
def isColliding (v : Vehicle) (other : Rect) : Bool :=
  if (other.center - v.pos).norm > LENGTH then false
  else rotatedRectanglesIntersect v.rect other

/-- `check_collision` with another (distinct) vehicle — kinematics.py:178-186.  Returns both updated vehicles. -/
def checkCollisionV (v w : Vehicle) : Vehicle × Vehicle :=
  if v.crashed then (v, w)
  else if !v.collisionsEnabled || !w.collisionsEnabled then (v, w)
  else if v.isColliding w.rect then
    let s := minAbs v.speed w.speed
    ({ v with speed := s, crashed := true }, { w with speed := s, crashed := true })
  else (v, w)

/-- `check_collision` with a road object — kinematics.py:178-179, 187-197. -/
def checkCollisionO (v : Vehicle) (o : RoadObject) : Vehicle × RoadObject :=
  if v.crashed then (v, o)
  else match o.kind with
  | .obstacle =>
    if !v.collisionsEnabled then (v, o)
    else if v.isColliding o.rect then
      ({ v with speed := minAbs v.speed 0, crashed := true }, { o with hit := true })
    else (v, o)
  | .landmark =>
    if v.isColliding o.rect then (v, { o with hit := true }) else (v, o)

/-- `destination` — kinematics.py:215-221: end of the last lane of the route if the vehicle has a non-empty one. -/
def destination (g : Graph) (v : Vehicle) : Py Vec2 :=
  if v.kind.isControlled then
    match v.route with
    | some (s :: rest) => do
      let l ← g.getLaneStep ((s :: rest).getLast (by simp))
      return l.position l.length 0
    | _ => .ok v.pos
  else .ok v.pos

/-- `destination_direction` — kinematics.py:223-228. -/
def destinationDirection (g : Graph) (v : Vehicle) : Py Vec2 := do
  let d ← v.destination g
  if d ≠ v.pos then
    let n := (d - v.pos).norm
    return ⟨(d.x - v.pos.x) / n, (d.y - v.pos.y) / n⟩
  else return ⟨0, 0⟩

/-- `on_road` — kinematics.py:230-233. -/
def onRoad (v : Vehicle) : Bool := v.lane.onLane v.pos

/-- `front_distance_to` — kinematics.py:235-236. -/
def frontDistanceTo (v w : Vehicle) : ℝ := v.direction.dot (w.pos - v.pos)

end Vehicle
end HighwayEnv
