import Verif.Model.Vehicle

/-!
# Model of the queries of `Road` — highway_env/road/road.py:233-319
-/

noncomputable section
open Classical

namespace HighwayEnv

/-- Anything `neighbour_vehicles` can return: a vehicle or a road object. -/
inductive Entity where
  | veh (v : Vehicle)
  | obj (o : RoadObject)

namespace Entity
/-- `position` of a vehicle or object. -/
def pos : Entity → Vec2
  | .veh v => v.pos
  | .obj o => o.pos
/-- `speed` of a vehicle or object. -/
def speed : Entity → ℝ
  | .veh v => v.speed
  | .obj o => o.speed
/-- `velocity` — kinematics.py:211-213, objects.py:73-75. -/
def velocity : Entity → Vec2
  | .veh v => v.velocity
  | .obj o => o.velocity
/-- Object identity. -/
def uid : Entity → ℕ
  | .veh v => v.uid
  | .obj o => o.uid
/-- `isinstance(v, Landmark)`. -/
def isLandmark : Entity → Bool
  | .veh _ => false
  | .obj o => decide (o.kind = .landmark)
end Entity

/-- State of a `Road` (road.py:237-256) or of a `RegulatedRoad` (regulation.py:16-19, with its `steps` counter). -/
structure Road where
  network : Graph
  vehicles : List Vehicle := []
  objects : List RoadObject := []
  rng : Rng
  recordHistory : Bool := false
  regulated : Bool := false
  steps : ℕ := 0

namespace Road

/-- `self.vehicles + self.objects` — road.py:306. -/
def entities (r : Road) : List Entity := r.vehicles.map .veh ++ r.objects.map .obj

/-- State of the loop of `neighbour_vehicles`: best front and best rear candidate with their abscissas. -/
structure NbState where
  front : Option (ℝ × Entity) := none
  rear : Option (ℝ × Entity) := none

/-- Loop body of `neighbour_vehicles` — road.py:306-318. -/
def nbStep (lane : Lane) (s : ℝ) (self : ℕ) (st : NbState) (e : Entity) : NbState :=
  if e.uid ≠ self ∧ e.isLandmark = false then
    let c := lane.localCoordinates e.pos
    if lane.onLane e.pos (some c.1) (some c.2) 1 = false then st
    else
      let st := if s ≤ c.1 ∧ (∀ f ∈ st.front, c.1 ≤ f.1) then { st with front := some (c.1, e) } else st
      if c.1 < s ∧ (∀ f ∈ st.rear, f.1 < c.1) then { st with rear := some (c.1, e) } else st
  else st

/-- `neighbour_vehicles` — road.py:289-319: the preceding and the following entity. -/
def neighbourVehicles (r : Road) (v : Vehicle) (laneIndex : Option LaneIndex := none) :
    Py (Option Entity × Option Entity) := do
  let i := laneIndex.getD v.laneIndex
  let lane ← r.network.getLane i
  let s := (lane.localCoordinates v.pos).1
  let st := r.entities.foldl (nbStep lane s v.uid) {}
  return (st.front.map Prod.snd, st.rear.map Prod.snd)

/-- `close_vehicles_to` — road.py:258-268.  `count` of `None` or 0 does not truncate; a negative count drops from the end. -/
def closeVehiclesTo (r : Road) (v : Vehicle) (distance : ℝ) (count : Option Int := none) (seeBehind : Bool := true) :
    List Vehicle :=
  let vs := r.vehicles.filter fun w =>
    decide ((w.pos - v.pos).norm < distance) && decide (w.uid ≠ v.uid) &&
      (seeBehind || decide (-2 * Vehicle.LENGTH < v.laneDistanceTo w.pos))
  let vs := vs.mergeSort (fun a b => decide (|v.laneDistanceTo a.pos| ≤ |v.laneDistanceTo b.pos|))
  match count with
  | none => vs
  | some 0 => vs
  | some n => if 0 ≤ n then vs.take n.toNat else vs.take ((vs.length : Int) + n).toNat

end Road
end HighwayEnv
