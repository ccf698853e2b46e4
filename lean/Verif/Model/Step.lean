import Verif.Model.Behavior

/-!
# Model of `Road.act`, `Road.step`, and `RegulatedRoad`

`highway_env/road/road.py:270-287`, `highway_env/road/regulation.py`.
Vehicles of a road are distinct objects, so "the same object" is "the same position in the list".
-/

noncomputable section
open Classical

namespace HighwayEnv
namespace Road

/-- `vehicle.act(a)` on the `i`-th vehicle of the road, in place. -/
def actAt (G : Globals) (a : VAction) (r : Road) (i : ℕ) : Py Road :=
  match r.vehicles[i]? with
  | none => .ok r
  | some v => do
    let (v, rng) ← v.act G r a
    return { r with vehicles := r.vehicles.set i v, rng := rng }

/-- `Road.act` — road.py:270-273: each vehicle decides in turn, seeing the decisions of the previous ones. -/
def act (G : Globals) (r : Road) : Py Road :=
  (List.range r.vehicles.length).foldlM (actAt G .none) r

/-- First loop of `Road.step` — road.py:281-282. -/
def moveAll (r : Road) (dt : ℝ) : Py Road := do
  let vs ← r.vehicles.mapM (Vehicle.step r.network r.recordHistory dt)
  return { r with vehicles := vs }

/-- `self.vehicles[i].check_collision(self.vehicles[j])` — road.py:284-285; nothing happens when both are the same object
(kinematics.py:178). -/
def collideVV (i : ℕ) (vs : List Vehicle) (j : ℕ) : List Vehicle :=
  if i = j then vs
  else match vs[i]?, vs[j]? with
    | some v, some w =>
      let p := v.checkCollisionV w
      (vs.set i p.1).set j p.2
    | _, _ => vs

/-- `vehicle.check_collision(other)` for each road object in turn — road.py:286-287. -/
def collideVO (v : Vehicle) : List RoadObject → Vehicle × List RoadObject
  | [] => (v, [])
  | o :: os =>
    let p := v.checkCollisionO o
    let q := collideVO p.1 os
    (q.1, p.2 :: q.2)

/-- Body of the second loop of `Road.step` for the `i`-th vehicle — road.py:283-287. -/
def collideOne (st : List Vehicle × List RoadObject) (i : ℕ) : List Vehicle × List RoadObject :=
  let vs := (List.range st.1.length).foldl (collideVV i) st.1
  match vs[i]? with
  | none => (vs, st.2)
  | some v =>
    let q := collideVO v st.2
    (vs.set i q.1, q.2)

/-- The pairwise collision pass of `Road.step` — road.py:283-287. -/
def collidePass (vs : List Vehicle) (os : List RoadObject) : List Vehicle × List RoadObject :=
  (List.range vs.length).foldl collideOne (vs, os)

/-- `Road.step` of the base class — road.py:275-287. -/
def stepBase (r : Road) (dt : ℝ) : Py Road := do
  let r ← r.moveAll dt
  let p := collidePass r.vehicles r.objects
  return { r with vehicles := p.1, objects := p.2 }

/-! ### Regulation -/

/-- `REGULATION_FREQUENCY` — regulation.py:13. -/
def REGULATION_FREQUENCY : ℕ := 2
/-- `YIELD_DURATION` — regulation.py:14. -/
def YIELD_DURATION : ℝ := 0

/-- Release of one yielding vehicle — regulation.py:31-38.  `delattr(v, "color")` raises `AttributeError` if absent. -/
def release (v : Vehicle) : Py Vehicle :=
  if v.isYielding then
    if (v.yieldTimer : ℝ) ≥ YIELD_DURATION * REGULATION_FREQUENCY then
      if v.hasColor then .ok { v with targetSpeed := v.lane.speedLimit, hasColor := false, isYielding := false }
      else .error .attributeError
    else .ok { v with yieldTimer := v.yieldTimer + 1 }
  else .ok v

/-- `np.arange(step, horizon, step)` with the defaults of `is_conflict_possible` — regulation.py:71-72. -/
def conflictTimes : List ℝ := (List.range 11).map fun k : ℕ => ((k : ℝ) + 1) * (1 / 4)

/-- Prediction rectangle of the conflict test — regulation.py:81-82. -/
def conflictRect (ph : Vec2 × ℝ) : Rect := ⟨ph.1, 3 / 2 * Vehicle.LENGTH, 9 / 10 * Vehicle.WIDTH, ph.2⟩

/-- `is_conflict_possible` — regulation.py:69-84 (`None` is falsy). -/
def isConflictPossible (g : Graph) (v w : Vehicle) : Py Bool := do
  let p1 ← v.predictConstantSpeed g conflictTimes
  let p2 ← w.predictConstantSpeed g conflictTimes
  return (p1.zip p2).any fun ab =>
    !decide ((ab.2.1 - ab.1.1).norm > Vehicle.LENGTH) &&
      rotatedRectanglesIntersect (conflictRect ab.1) (conflictRect ab.2)

/-- `respect_priorities`: `true` if the first vehicle must yield, `false` if the second — regulation.py:53-67. -/
def firstYields (v w : Vehicle) : Bool :=
  if v.lane.priority > w.lane.priority then false
  else if v.lane.priority < w.lane.priority then true
  else decide (v.frontDistanceTo w > w.frontDistanceTo v)

/-- Mark a vehicle as yielding if it is a controlled, non-MDP one — regulation.py:45-51. -/
def markYield (v : Vehicle) : Vehicle :=
  if v.kind.isControlled && decide (v.kind ≠ .mdp) then
    { v with hasColor := true, targetSpeed := 0, isYielding := true, yieldTimer := 0 }
  else v

/-- One pair of the conflict loop — regulation.py:43-51. -/
def resolvePair (g : Graph) (vs : List Vehicle) (ij : ℕ × ℕ) : Py (List Vehicle) :=
  match vs[ij.1]?, vs[ij.2]? with
  | some v, some w => do
    let c ← isConflictPossible g v w
    if c then
      if firstYields v w then return vs.set ij.1 (markYield v) else return vs.set ij.2 (markYield w)
    else return vs
  | _, _ => .ok vs

/-- The pairs `(i, j)` with `i < j`, in loop order — regulation.py:41-42. -/
def pairs (n : ℕ) : List (ℕ × ℕ) :=
  (List.range (n - 1)).flatMap fun i => (List.range' (i + 1) (n - (i + 1))).map fun j => (i, j)

/-- `enforce_road_rules` — regulation.py:27-51. -/
def enforceRoadRules (r : Road) : Py Road := do
  let vs ← r.vehicles.mapM release
  let vs ← (pairs vs.length).foldlM (resolvePair r.network) vs
  return { r with vehicles := vs }

/-- `if self.steps % period == 0: self.enforce_road_rules()` — regulation.py:23-24. -/
def maybeEnforce (r : Road) (period : Int) : Py Road :=
  if (r.steps : Int) % period = 0 then r.enforceRoadRules else .ok r

/-- `RegulatedRoad.step` — regulation.py:21-25: counter, periodic enforcement (`ZeroDivisionError` when
`int(1 / dt / 2) = 0`), then the base step. -/
def stepRegulated (r : Road) (dt : ℝ) : Py Road :=
  let period := pyInt (1 / dt / REGULATION_FREQUENCY)
  if period = 0 then .error .zeroDivisionError
  else do
    let r ← maybeEnforce { r with steps := r.steps + 1 } period
    r.stepBase dt

/-- `road.step(dt)`, dispatched on the class. -/
def step (r : Road) (dt : ℝ) : Py Road := if r.regulated then r.stepRegulated dt else r.stepBase dt

end Road
end HighwayEnv
