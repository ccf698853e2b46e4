import Verif.Spec.Traffic

/-!
# Specification vocabulary: turning the whole world by a quarter turn

The same scene turned by 90° around the origin: every lane, vehicle, recorded state and object, nothing else changed.
-/

noncomputable section
namespace HighwayEnv

/-- A point, or a vector, turned by 90° around the origin, from the abscissas towards the ordinates. -/
def Vec2.quarter (p : Vec2) : Vec2 := ⟨-p.y, p.x⟩

/-- A lane geometry turned by 90°. -/
def LaneShape.quarter : LaneShape → LaneShape
  | .straight a b => .straight a.quarter b.quarter
  | .sine a b amp w ph => .sine a.quarter b.quarter amp w ph
  | .circular c rad p0 p1 cw => .circular c.quarter rad (p0 + Real.pi / 2) (p1 + Real.pi / 2) cw

/-- A lane turned by 90°. -/
def Lane.quarter (l : Lane) : Lane := { l with shape := l.shape.quarter }

/-- A road network all of whose lanes are turned by 90°. -/
def Graph.quarter (g : Graph) : Graph := g.map fun nd => (nd.1, nd.2.map fun ml => (ml.1, ml.2.map Lane.quarter))

/-- A recorded state turned by 90°. -/
def Snapshot.quarter (s : Snapshot) : Snapshot := { s with pos := s.pos.quarter, heading := s.heading + Real.pi / 2 }

/-- A vehicle turned by 90°, with its current lane and its history. -/
def Vehicle.quarter (v : Vehicle) : Vehicle :=
  { v with pos := v.pos.quarter, heading := v.heading + Real.pi / 2, lane := v.lane.quarter, history := v.history.map Snapshot.quarter }

/-- A road object turned by 90°. -/
def RoadObject.quarter (o : RoadObject) : RoadObject := { o with pos := o.pos.quarter, heading := o.heading + Real.pi / 2 }

/-- A road with everything on it turned by 90°; the random generator is the same. -/
def Road.quarter (r : Road) : Road :=
  { r with network := r.network.quarter, vehicles := r.vehicles.map Vehicle.quarter, objects := r.objects.map RoadObject.quarter }

namespace Spec

/-- The point `p` has a place along the lane `l`: the lane has a direction, and if it is a circle, `p` is not its centre. -/
def HasPlace (l : Lane) (p : Vec2) : Prop :=
  match l.shape with
  | .straight a b => a ≠ b
  | .sine a b _ _ _ => a ≠ b
  | .circular c _ _ _ _ => p ≠ c

/-- The lane `l` is one of the network, or the one recorded by a vehicle. -/
def LaneOf (r : Road) (l : Lane) : Prop :=
  (∃ nd ∈ r.network, ∃ ml ∈ nd.2, l ∈ ml.2) ∨ ∃ v ∈ r.vehicles, v.lane = l

/-- There is a vehicle or an object at `p`. -/
def Occupied (r : Road) (p : Vec2) : Prop := (∃ v ∈ r.vehicles, v.pos = p) ∨ ∃ o ∈ r.objects, o.pos = p

/-- Everything on the road has a place along all lanes. -/
def Placeable (r : Road) : Prop := ∀ l p, LaneOf r l → Occupied r p → HasPlace l p

end Spec
end HighwayEnv
