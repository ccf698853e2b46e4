import Verif.Spec.Traffic

/-!
# Specification vocabulary: moving the whole world

The same scene drawn elsewhere: every lane, vehicle, recorded state and object displaced by the same vector, nothing else changed.
-/

noncomputable section
namespace HighwayEnv

/-- A lane geometry displaced by `t`. -/
def LaneShape.translate (t : Vec2) : LaneShape → LaneShape
  | .straight a b => .straight (a + t) (b + t)
  | .sine a b amp w ph => .sine (a + t) (b + t) amp w ph
  | .circular c rad p0 p1 cw => .circular (c + t) rad p0 p1 cw

/-- A lane displaced by `t`. -/
def Lane.translate (t : Vec2) (l : Lane) : Lane := { l with shape := l.shape.translate t }

/-- A road network all of whose lanes are displaced by `t`. -/
def Graph.translate (t : Vec2) (g : Graph) : Graph := g.map fun nd => (nd.1, nd.2.map fun ml => (ml.1, ml.2.map (Lane.translate t)))

/-- A recorded state displaced by `t`. -/
def Snapshot.translate (t : Vec2) (s : Snapshot) : Snapshot := { s with pos := s.pos + t }

/-- A vehicle displaced by `t`, with its current lane and its history. -/
def Vehicle.translate (t : Vec2) (v : Vehicle) : Vehicle :=
  { v with pos := v.pos + t, lane := v.lane.translate t, history := v.history.map (Snapshot.translate t) }

/-- A road object displaced by `t`. -/
def RoadObject.translate (t : Vec2) (o : RoadObject) : RoadObject := { o with pos := o.pos + t }

/-- A road with everything on it displaced by `t`; the random generator is the same. -/
def Road.translate (t : Vec2) (r : Road) : Road :=
  { r with network := r.network.translate t, vehicles := r.vehicles.map (Vehicle.translate t), objects := r.objects.map (RoadObject.translate t) }

end HighwayEnv
