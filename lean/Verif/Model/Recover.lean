import Verif.Model.Env

/-!
# Model of the helpers that the simulation itself does not call

`IDMVehicle.maximum_speed` and `IDMVehicle.recover_from_stop` (highway_env/vehicle/behavior.py:164-190, 273-291) and
`AbstractEnv.call_vehicle_method` (highway_env/envs/common/abstract.py:367-373).
-/

noncomputable section
open Classical

namespace HighwayEnv

/-- What callers pass to `RoadNetwork.get_lane` and `Road.neighbour_vehicles`: a lane index, or (by mistake) a lane. -/
inductive LaneRef where
  | index (i : LaneIndex)
  | lane (l : Lane)

namespace Road

/-- `get_lane(ref)` — road.py:46-49: the argument is unpacked, `TypeError` if it is a lane object. -/
def laneOf (r : Road) : LaneRef → Py Lane
  | .index i => r.network.getLane i
  | .lane _ => .error .typeError

/-- `neighbour_vehicles(vehicle, ref)` — road.py:289-319, with the same search as `neighbourVehicles`. -/
def neighboursOn (r : Road) (v : Vehicle) (ref : LaneRef) : Py (Option Entity × Option Entity) := do
  let lane ← r.laneOf ref
  let s := (lane.localCoordinates v.pos).1
  let st := r.entities.foldl (nbStep lane s v.uid) {}
  return (st.front.map Prod.snd, st.rear.map Prod.snd)

end Road

namespace Vehicle

/-- `LENGTH` of a vehicle or object — kinematics.py:28, objects.py:18. -/
def entityLength : Entity → ℝ
  | .veh _ => LENGTH
  | .obj _ => RoadObject.LENGTH

/-- `not rear or rear.lane_distance_to(self) > safe_distance` — behavior.py:286-287.  Road objects have no such method. -/
def roomBehind (v : Vehicle) : Option Entity → Py Bool
  | none => .ok true
  | some (.veh w) => .ok (decide (w.laneDistanceTo v.pos > 200))
  | some (.obj _) => .error .attributeError

/-- `a and b` where `b` is evaluated only if `a` holds. -/
def andThen (a : Py Bool) (b : Py Bool) : Py Bool := do
  let x ← a
  if x then b else return false

/-- `recover_from_stop` — behavior.py:273-291.  The second call of `neighbour_vehicles` is given a lane, not its index. -/
def recoverFromStop (G : Globals) (r : Road) (v : Vehicle) (acceleration : ℝ) : Py ℝ :=
  if v.targetLane ≠ v.laneIndex ∧ v.speed < 5 then do
    let (_, rear) ← r.neighbourVehicles v
    let target ← r.network.getLane v.targetLane
    let (_, newRear) ← r.neighboursOn v (.lane target)
    let free ← andThen (v.roomBehind rear) (v.roomBehind newRear)
    if free then return -G.comfortAccMax v.kind / 2 else return acceleration
  else .ok acceleration

/-- What `maximum_speed` returns: a number, or a pair (speed, acceleration). -/
inductive MaxSpeed where
  | speed (x : ℝ)
  | pair (speed acceleration : ℝ)

/-- `maximum_speed` — behavior.py:164-190, with `depth` nested calls left before Python's recursion limit (`RecursionError`).  It calls
itself on the same arguments before changing anything; `min` of the result and the target speed compares a pair with a number
(`TypeError`) if that call ever returned a pair.  Also returns the vehicle, whose target speed is assigned. -/
def maximumSpeed (G : Globals) (front : Option Entity) : ℕ → Vehicle → Py (Vehicle × MaxSpeed)
  | 0, _ => .error .recursionError
  | depth + 1, v =>
    match front with
    | none => .ok (v, .speed v.targetSpeed)
    | some f =>
      let a0 := G.comfortAccMin v.kind
      let a1 := G.comfortAccMin v.kind
      let tau := timeWanted v.kind
      let d := max (v.laneDistanceTo f.pos - LENGTH / 2 - entityLength f / 2 - G.distanceWanted v.kind) 0
      let delta := 4 * (a0 * a1 * tau) ^ 2 + 8 * a0 * a1 ^ 2 * d + 4 * a0 * a1 * f.speed ^ 2
      let vMax := -a0 * tau + √delta / (2 * a1)
      do
        let (v, m) ← maximumSpeed G front depth v
        match m with
        | .speed x =>
          let v := { v with targetSpeed := min x v.targetSpeed }
          return (v, .pair vMax (v.speedControl v.targetSpeed))
        | .pair _ _ => .error .typeError

end Vehicle

/-- Methods of vehicles that can be called by name with their arguments — controller.py:59-73, 105-111, 172-185; behavior.py:60-61, 328-333. -/
inductive Method where
  | planRouteTo (destination : String)
  | followRoad
  | setRouteAtIntersection (choice : Option Int)
  | randomizeBehavior

namespace Method

/-- `hasattr(v, method)`: the first three are methods of `ControlledVehicle`, the last of `IDMVehicle`. -/
def defined : Method → VKind → Bool
  | .randomizeBehavior, k => k.isIDM
  | _, k => k.isControlled

/-- Whether the method returns the vehicle (`plan_route_to`, controller.py:73) or `None`. -/
def returnsSelf : Method → Bool
  | .planRouteTo _ => true
  | _ => false

/-- Effect of the call on the vehicle and the generator of the road. -/
def call (g : Graph) (ord : Graph.SetOrder) (v : Vehicle) (rng : Rng) : Method → Py (Vehicle × Rng)
  | .planRouteTo d => do
    let v ← v.planRouteTo g ord d
    return (v, rng)
  | .followRoad => v.followRoad g rng
  | .setRouteAtIntersection choice => v.setRouteAtIntersection g rng choice
  | .randomizeBehavior => .ok (Env.randomizeVehicle v rng)

end Method

namespace Env

/-- Loop of `call_vehicle_method` — abstract.py:370-372: `road.vehicles[i]` is replaced by what the method returns (`none` stands for
Python's `None`). -/
def callLoop (g : Graph) (ord : Graph.SetOrder) (m : Method) : List Vehicle → Rng → Py (List (Option Vehicle) × Rng)
  | [], rng => .ok ([], rng)
  | v :: vs, rng =>
    if m.defined v.kind then do
      let (w, rng) ← m.call g ord v rng
      let (ws, rng) ← callLoop g ord m vs rng
      return ((if m.returnsSelf then some w else none) :: ws, rng)
    else do
      let (ws, rng) ← callLoop g ord m vs rng
      return (some v :: ws, rng)

/-- `call_vehicle_method((method, args))` — abstract.py:367-373, on a deep copy: the new contents of `road.vehicles` and the copy (whose
field `vehicles` keeps the remaining vehicles). -/
def callVehicleMethod (ord : Graph.SetOrder) (m : Method) (e : Env) : Py (List (Option Vehicle) × Env) := do
  let (slots, rng) ← callLoop e.road.network ord m e.road.vehicles e.road.rng
  return (slots, { e with road := { e.road with vehicles := slots.filterMap id, rng := rng } })

end Env
end HighwayEnv
