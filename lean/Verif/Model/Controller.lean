import Verif.Model.Road

/-!
# Model of `highway_env/vehicle/controller.py`
-/

noncomputable section
open Classical

namespace HighwayEnv
namespace Vehicle

/-- `KP_A = 1 / TAU_A`, `TAU_A = 0.6` — controller.py:22, 25. -/
def KP_A : ℝ := 1 / (6 / 10)
/-- `PURSUIT_TAU = 0.5*TAU_DS`, `TAU_DS = 0.2` — controller.py:23-24. -/
def PURSUIT_TAU : ℝ := 1 / 10
/-- `KP_HEADING = 1 / TAU_DS` — controller.py:26. -/
def KP_HEADING : ℝ := 5
/-- `KP_LATERAL = 1/3 * KP_HEADING` — controller.py:27. -/
def KP_LATERAL : ℝ := 1 / 3 * KP_HEADING
/-- `MAX_STEERING_ANGLE` — controller.py:28. -/
def MAX_STEERING_ANGLE : ℝ := Real.pi / 3
/-- `DELTA_SPEED` — controller.py:29. -/
def DELTA_SPEED : ℝ := 5

/-- `plan_route_to` — controller.py:59-73.  Catches `KeyError`. -/
def planRouteTo (g : Graph) (ord : Graph.SetOrder) (v : Vehicle) (destination : String) : Py Vehicle := do
  let path ← match g.shortestPath ord v.laneIndex.dst destination with
    | .ok p => .ok p
    | .error .keyError => .ok []
    | .error e => .error e
  return { v with route := some (v.laneIndex.toStep :: (path.zip path.tail).map fun ab => ⟨ab.1, ab.2, none⟩) }

/-- `follow_road` — controller.py:105-111.  `next_lane` pops the caller's route in place. -/
def followRoad (g : Graph) (rng : Rng) (v : Vehicle) : Py (Vehicle × Rng) := do
  let l ← g.getLane v.targetLane
  if l.afterEnd v.pos then
    let (i, route, rng) ← g.nextLane v.targetLane v.route v.pos rng
    return ({ v with targetLane := i, route := route }, rng)
  else return (v, rng)

/-- `ControlledVehicle.steering_control` after the lane lookup — controller.py:125-141. -/
def steeringToLane (v : Vehicle) (lane : Lane) : ℝ :=
  let c := lane.localCoordinates v.pos
  let next := c.1 + v.speed * PURSUIT_TAU
  let futureHeading := lane.headingAt next
  let lateralSpeedCommand := -KP_LATERAL * c.2
  let headingCommand := Real.arcsin (npClip (lateralSpeedCommand / notZero v.speed) (-1) 1)
  let headingRef := futureHeading + npClip headingCommand (-Real.pi / 4) (Real.pi / 4)
  let headingRateCommand := KP_HEADING * wrapToPi (headingRef - v.heading)
  let steering := Real.arcsin (npClip (LENGTH / 2 / notZero v.speed * headingRateCommand) (-1) 1)
  npClip steering (-MAX_STEERING_ANGLE) MAX_STEERING_ANGLE

/-- `LinearVehicle.steering_features` after the lane lookup — behavior.py:388-395. -/
def steeringFeatures (v : Vehicle) (lane : Lane) : ℝ × ℝ :=
  let c := lane.localCoordinates v.pos
  let next := c.1 + v.speed * PURSUIT_TAU
  let futureHeading := lane.headingAt next
  (wrapToPi (futureHeading - v.heading) * LENGTH / notZero v.speed, -c.2 * LENGTH / (notZero v.speed) ^ 2)

/-- `steering_control(target_lane_index)` — controller.py:113-141, overridden in behavior.py:370-379. -/
def steeringControl (g : Graph) (v : Vehicle) (i : LaneIndex) : Py ℝ := do
  let lane ← g.getLane i
  if v.kind.isLinear then
    let f := v.steeringFeatures lane
    return v.steerParams.1 * f.1 + v.steerParams.2 * f.2
  else return v.steeringToLane lane

/-- `speed_control` — controller.py:143-152. -/
def speedControl (v : Vehicle) (target : ℝ) : ℝ := KP_A * (target - v.speed)

/-- The candidate lane of LANE_RIGHT (`+1`) / LANE_LEFT (`-1`), adopted only if reachable — controller.py:88-97. -/
def changeLane (g : Graph) (v : Vehicle) (delta : Int) : Py Vehicle := do
  let ls ← g.lanesOf v.targetLane.src v.targetLane.dst
  let cand : LaneIndex :=
    { v.targetLane with id := npClipInt (v.targetLane.id + delta) 0 ((ls.length : Int) - 1) }
  let lane ← g.getLane cand
  if lane.isReachableFrom v.pos then return { v with targetLane := cand } else return v

/-- The high-level part of `ControlledVehicle.act` — controller.py:84-97. -/
def applyMeta (g : Graph) (v : Vehicle) (a : VAction) : Py Vehicle :=
  match a with
  | .faster => .ok { v with targetSpeed := v.targetSpeed + DELTA_SPEED }
  | .slower => .ok { v with targetSpeed := v.targetSpeed - DELTA_SPEED }
  | .laneRight => v.changeLane g 1
  | .laneLeft => v.changeLane g (-1)
  | _ => .ok v

/-- `ControlledVehicle.act` — controller.py:75-103. -/
def controlledAct (g : Graph) (rng : Rng) (v : Vehicle) (a : VAction) : Py (Vehicle × Rng) := do
  let (v, rng) ← v.followRoad g rng
  let v ← v.applyMeta g a
  let st ← v.steeringControl g v.targetLane
  return ({ v with steering := npClip st (-MAX_STEERING_ANGLE) MAX_STEERING_ANGLE
                   acceleration := v.speedControl v.targetSpeed }, rng)

/-- Sets the speed level chosen by FASTER / SLOWER — controller.py:229-236. -/
def setSpeedIndex (G : Globals) (v : Vehicle) (i : Int) : Vehicle :=
  let i := npClipInt i 0 ((G.speedCount : Int) - 1)
  { v with speedIndex := i, targetSpeed := indexToSpeed G i }

/-- `MDPVehicle.act` — controller.py:220-238. -/
def mdpAct (G : Globals) (g : Graph) (rng : Rng) (v : Vehicle) (a : VAction) : Py (Vehicle × Rng) :=
  match a with
  | .faster => (v.setSpeedIndex G (speedToIndex G v.speed + 1)).controlledAct g rng .none
  | .slower => (v.setSpeedIndex G (speedToIndex G v.speed - 1)).controlledAct g rng .none
  | a => v.controlledAct g rng a

/-- Loop of `get_routes_at_intersection` — controller.py:158-167: first of the (at most three) route elements after which there
is a choice.  `KeyError` moves on to the next element. -/
def branchIndex (g : Graph) : ℕ → List RouteStep → Option (ℕ × Dict String (List Lane))
  | _, [] => none
  | k, s :: rest =>
    match Dict.get? g s.dst with
    | none => branchIndex g (k + 1) rest
    | some d => if 2 ≤ d.length then some (k, d) else branchIndex g (k + 1) rest

/-- `get_routes_at_intersection` — controller.py:154-170. -/
def routesAtIntersection (g : Graph) (v : Vehicle) : List (List RouteStep) :=
  match v.route with
  | none => []
  | some [] => []
  | some route =>
    match branchIndex g 0 (route.take 3) with
    | none => [route]
    | some (k, d) => (Dict.keys d).map fun dest =>
        route.take (k + 1) ++ (match route[k]? with
          | some s => [⟨s.dst, dest, s.id⟩]
          | none => [])

/-- The index used by `set_route_at_intersection`: the argument, or a random draw for `"random"` (`none`) —
controller.py:182-184. -/
def routeChoice (rng : Rng) (n : ℕ) (choice : Option Int) : Py (Int × Rng) :=
  match choice with
  | none => do
    let (k, rng) ← rng.randint n
    return ((k : Int), rng)
  | some k => .ok (k, rng)

/-- `set_route_at_intersection(_to)` with an integer or `"random"` (`none`) — controller.py:172-185. -/
def setRouteAtIntersection (g : Graph) (rng : Rng) (v : Vehicle) (choice : Option Int) : Py (Vehicle × Rng) :=
  let routes := v.routesAtIntersection g
  if routes = [] then .ok (v, rng)
  else do
    let (k, rng) ← routeChoice rng routes.length choice
    let route ← pyIndex routes (k % (routes.length : Int))
    return ({ v with route := some route }, rng)

/-- `predict_trajectory_constant_speed` — controller.py:187-197 (`route or [lane_index]`).  A vehicle that is not a
`ControlledVehicle` has no such method: `AttributeError`.  (An empty `times` makes the caller's unpacking fail; `times` is never
empty in the code.) -/
def predictConstantSpeed (g : Graph) (v : Vehicle) (times : List ℝ) : Py (List (Vec2 × ℝ)) :=
  if v.kind.isControlled then
    let c := v.lane.localCoordinates v.pos
    let route := match v.route with
      | some (s :: rest) => s :: rest
      | _ => [v.laneIndex.toStep]
    times.mapM fun t => g.positionHeadingAlongRoute route (c.1 + v.speed * t) 0
  else .error .attributeError

/-- Inner loop of `predict_trajectory` — controller.py:292-298, on the copied vehicle.  `k` frames left, `t` frames done,
`period = int(trajectory_timestep / dt)`. -/
def predictFrames (G : Globals) (g : Graph) (rec : Bool) (dt : ℝ) (period : Int) :
    ℕ → ℕ → Vehicle → Rng → List Vehicle → Py (ℕ × Vehicle × Rng × List Vehicle)
  | 0, t, v, rng, acc => .ok (t, v, rng, acc)
  | k + 1, t, v, rng, acc => do
    let t := t + 1
    let (v, rng) ← v.mdpAct G g rng .none
    let v ← v.step g rec dt
    if period = 0 then .error .zeroDivisionError
    else
      let acc := if (t : Int) % period = 0 then acc ++ [v] else acc
      predictFrames G g rec dt period k t v rng acc

/-- Outer loop of `predict_trajectory` — controller.py:290-298. -/
def predictLoop (G : Globals) (g : Graph) (rec : Bool) (dt : ℝ) (frames : ℕ) (period : Int) :
    List VAction → ℕ → Vehicle → Rng → List Vehicle → Py (List Vehicle)
  | [], _, _, _, acc => .ok acc
  | a :: actions, t, v, rng, acc => do
    let (v, rng) ← v.mdpAct G g rng a
    let (t, v, rng, acc) ← predictFrames G g rec dt period frames t v rng acc
    predictLoop G g rec dt frames period actions t v rng acc

/-- `MDPVehicle.predict_trajectory` — controller.py:277-299.  The vehicle, its road and generator are deep-copied, so the function
returns only the list of states.  `range(int(action_duration / dt))` is empty for a negative count. -/
def predictTrajectory (G : Globals) (g : Graph) (rec : Bool) (rng : Rng) (v : Vehicle) (actions : List VAction)
    (actionDuration trajectoryTimestep dt : ℝ) : Py (List Vehicle) :=
  predictLoop G g rec dt (pyInt (actionDuration / dt)).toNat (pyInt (trajectoryTimestep / dt)) actions 0 v rng []

end Vehicle
end HighwayEnv
