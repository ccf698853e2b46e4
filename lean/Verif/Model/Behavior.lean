import Verif.Model.Controller

/-!
# Model of `highway_env/vehicle/behavior.py`, and dispatch of `act`
-/

noncomputable section
open Classical

namespace HighwayEnv
namespace Vehicle

/-- `ACC_MAX` — behavior.py:22. -/
def ACC_MAX : ℝ := 6
/-- `TIME_WANTED` — behavior.py:34, 305. -/
def timeWanted (k : VKind) : ℝ := if k.isLinear then 5 / 2 else 3 / 2
/-- `POLITENESS` — behavior.py:41. -/
def POLITENESS : ℝ := 0
/-- `LANE_CHANGE_MIN_ACC_GAIN` — behavior.py:42, 484, 494. -/
def minAccGain (k : VKind) : ℝ := match k with | .aggressive | .defensive => 1 | _ => 2 / 10
/-- `LANE_CHANGE_DELAY` — behavior.py:44. -/
def LANE_CHANGE_DELAY : ℝ := 1

/-- `desired_gap(ego, front, projected=True)` — behavior.py:147-162, with the parameters of the deciding class `k`. -/
def desiredGap (G : Globals) (k : VKind) (ego : Vehicle) (front : Entity) : ℝ :=
  let d0 := G.distanceWanted k
  let tau := timeWanted k
  let ab := -G.comfortAccMax k * G.comfortAccMin k
  let dv := (ego.velocity - front.velocity).dot ego.direction
  d0 + ego.speed * tau + ego.speed * dv / (2 * √ab)

/-- `IDMVehicle.acceleration` for an ego *vehicle* — behavior.py:136-145 (`DELTA = 4`). -/
def idmAcceleration (G : Globals) (k : VKind) (ego : Vehicle) (front : Option Entity) : ℝ :=
  let target := notZero (if ego.kind.isControlled then ego.targetSpeed else 0)
  let a := G.comfortAccMax k * (1 - (max ego.speed 0 / target) ^ 4)
  match front with
  | none => a
  | some f =>
    let d := ego.laneDistanceTo f.pos
    a - G.comfortAccMax k * (desiredGap G k ego f / notZero d) ^ 2

/-- `LinearVehicle.acceleration_features` for an ego *vehicle* — behavior.py:357-368. -/
def accelerationFeatures (G : Globals) (k : VKind) (ego : Vehicle) (front : Option Entity) : ℝ × ℝ × ℝ :=
  let vt := ego.targetSpeed - ego.speed
  let dSafe := G.distanceWanted k + max ego.speed 0 * timeWanted k
  match front with
  | none => (vt, 0, 0)
  | some f => (vt, min (f.speed - ego.speed) 0, min (ego.laneDistanceTo f.pos - dSafe) 0)

/-- `self.acceleration(ego_vehicle, front_vehicle)` — behavior.py:117-145 and 335-355.  The linear model reads `target_speed`:
`AttributeError` on a road object or on a vehicle that is not controlled. -/
def accelerationOf (G : Globals) (self : Vehicle) (ego : Option Entity) (front : Option Entity) : Py ℝ :=
  if self.kind.isLinear then
    match ego with
    | none => .ok 0
    | some (.obj _) => .error .attributeError
    | some (.veh e) =>
      if e.kind.isControlled then
        let f := accelerationFeatures G self.kind e front
        .ok (self.accParams.1 * f.1 + self.accParams.2.1 * f.2.1 + self.accParams.2.2 * f.2.2)
      else .error .attributeError
  else
    match ego with
    | none => .ok 0
    | some (.obj _) => .ok 0
    | some (.veh e) => .ok (idmAcceleration G self.kind e front)

/-- Truthiness of `self.route and self.route[0][2]` — behavior.py:249: the lane id asked for by the route, if any and non-zero. -/
def routeLane (v : Vehicle) : Option Int :=
  match v.route with
  | some (s :: _) => match s.id with
    | some k => if k ≠ 0 then some k else none
    | none => none
  | _ => none

/-- `mobil` — behavior.py:231-271. -/
def mobil (G : Globals) (r : Road) (v : Vehicle) (i : LaneIndex) : Py Bool := do
  let (newPreceding, newFollowing) ← r.neighbourVehicles v (some i)
  let newFollowingA ← accelerationOf G v newFollowing newPreceding
  let newFollowingPredA ← accelerationOf G v newFollowing (some (.veh v))
  if newFollowingPredA < -v.maxBraking then return false
  else
    let (oldPreceding, oldFollowing) ← r.neighbourVehicles v
    let selfPredA ← accelerationOf G v (some (.veh v)) newPreceding
    match v.routeLane with
    | some k =>
      if Int.sign (i.id - v.targetLane.id) ≠ Int.sign (k - v.targetLane.id) then return false
      else if selfPredA < -v.maxBraking then return false
      else return true
    | none => do
      let selfA ← accelerationOf G v (some (.veh v)) oldPreceding
      let oldFollowingA ← accelerationOf G v oldFollowing (some (.veh v))
      let oldFollowingPredA ← accelerationOf G v oldFollowing oldPreceding
      let jerk := selfPredA - selfA +
        POLITENESS * (newFollowingPredA - newFollowingA + oldFollowingPredA - oldFollowingA)
      if jerk < minAccGain v.kind then return false else return true

/-- Someone else is already changing into our target lane, ahead and closer than the desired gap — behavior.py:206-212. -/
def abortedBy (G : Globals) (v w : Vehicle) : Bool :=
  decide (w.uid ≠ v.uid) && decide (w.laneIndex ≠ v.targetLane) && w.kind.isControlled &&
    decide (w.targetLane = v.targetLane) &&
    decide (0 < v.laneDistanceTo w.pos ∧ v.laneDistanceTo w.pos < desiredGap G v.kind v (.veh w))

/-- Body of the candidate loop of `change_lane_policy` — behavior.py:222-229. -/
def considerLane (G : Globals) (r : Road) (v : Vehicle) (i : LaneIndex) : Py Vehicle := do
  let l ← r.network.getLane i
  if l.isReachableFrom v.pos then
    let ok ← v.mobil G r i
    if ok then return { v with targetLane := i } else return v
  else return v

/-- `change_lane_policy` — behavior.py:192-229. -/
def changeLanePolicy (G : Globals) (r : Road) (v : Vehicle) : Py Vehicle :=
  if v.laneIndex ≠ v.targetLane then
    if v.laneIndex.src = v.targetLane.src ∧ v.laneIndex.dst = v.targetLane.dst then
      if r.vehicles.any (abortedBy G v) then .ok { v with targetLane := v.laneIndex } else .ok v
    else .ok v
  else if doEvery LANE_CHANGE_DELAY v.timer then do
    let v := { v with timer := 0 }
    let sides ← r.network.sideLanes v.laneIndex
    sides.foldlM (considerLane G r) v
  else .ok v

/-- `if self.enable_lane_change: self.change_lane_policy()` — behavior.py:93-94. -/
def maybeChangeLane (G : Globals) (r : Road) (v : Vehicle) : Py Vehicle :=
  if v.enableLaneChange then v.changeLanePolicy G r else .ok v

/-- `IDMVehicle.act` — behavior.py:78-104.  (`LinearVehicle.act`, behavior.py:323-326, first appends features to `self.data`,
which nothing in the simulation reads; that log is not modelled here.) -/
def idmAct (G : Globals) (r : Road) (v : Vehicle) : Py (Vehicle × Rng) :=
  if v.crashed then .ok (v, r.rng)
  else do
    let (front, _) ← r.neighbourVehicles v
    let (v, rng) ← v.followRoad r.network r.rng
    let v ← v.maybeChangeLane G r
    let st ← v.steeringControl r.network v.targetLane
    let acc ← accelerationOf G v (some (.veh v)) front
    return ({ v with steering := npClip st (-MAX_STEERING_ANGLE) MAX_STEERING_ANGLE
                     acceleration := npClip acc (-ACC_MAX) ACC_MAX }, rng)

/-- `vehicle.act(action)`, dispatched on the class.  A plain vehicle given a meta-action name stores the string and fails with
`TypeError` at the next `clip_actions`; here the error is raised at once — kinematics.py:111-118. -/
def act (G : Globals) (r : Road) (v : Vehicle) (a : VAction) : Py (Vehicle × Rng) :=
  match v.kind with
  | .plain | .bicycle =>
    match a with
    | .none => .ok (v, r.rng)
    | .control s c => .ok ({ v with steering := s, acceleration := c }, r.rng)
    | _ => .error .typeError
  | .controlled => v.controlledAct r.network r.rng a
  | .mdp => v.mdpAct G r.network r.rng a
  | _ => v.idmAct G r

end Vehicle
end HighwayEnv
