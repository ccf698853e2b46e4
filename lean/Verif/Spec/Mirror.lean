import Verif.Spec.Traffic

/-!
# Specification vocabulary: the world seen in a mirror

The same scene reflected in the axis of abscissas: left and right are exchanged.
-/

noncomputable section
namespace HighwayEnv

/-- The reflection of a point, or of a vector, in the axis of abscissas. -/
def Vec2.mirror (p : Vec2) : Vec2 := ⟨p.x, -p.y⟩

/-- A reflected lane geometry: the ordinates of a sinusoidal lane and the sense of a circular lane are reversed. -/
def LaneShape.mirror : LaneShape → LaneShape
  | .straight a b => .straight a.mirror b.mirror
  | .sine a b amp w ph => .sine a.mirror b.mirror (-amp) w ph
  | .circular c rad p0 p1 cw => .circular c.mirror rad (-p0) (-p1) (!cw)

/-- A reflected lane. -/
def Lane.mirror (l : Lane) : Lane := { l with shape := l.shape.mirror }

/-- A road network all of whose lanes are reflected; the lanes keep their names and numbers. -/
def Graph.mirror (g : Graph) : Graph := g.map fun nd => (nd.1, nd.2.map fun ml => (ml.1, ml.2.map Lane.mirror))

/-- A reflected recorded state. -/
def Snapshot.mirror (s : Snapshot) : Snapshot := { s with pos := s.pos.mirror, heading := -s.heading }

/-- A reflected vehicle, steering to the other side. -/
def Vehicle.mirror (v : Vehicle) : Vehicle :=
  { v with
    pos := v.pos.mirror, heading := -v.heading, lane := v.lane.mirror, history := v.history.map Snapshot.mirror, steering := -v.steering,
    lateralSpeed := -v.lateralSpeed, yawRate := -v.yawRate }

/-- A reflected road object. -/
def RoadObject.mirror (o : RoadObject) : RoadObject := { o with pos := o.pos.mirror, heading := -o.heading }

/-- A reflected road, with everything on it. -/
def Road.mirror (r : Road) : Road :=
  { r with network := r.network.mirror, vehicles := r.vehicles.map Vehicle.mirror, objects := r.objects.map RoadObject.mirror }

/-- The command to the other side: the same acceleration and the opposite steering. -/
def VAction.mirror : VAction → VAction
  | .control s a => .control (-s) a
  | a => a

namespace Spec

/-- The point `p` has an image along the lane `l`: the lane has a direction, and if it is a circle, `p` is not exactly opposite its start, nor its centre. -/
def HasImage (l : Lane) (p : Vec2) : Prop :=
  match l.shape with
  | .straight a b => a ≠ b
  | .sine a b _ _ _ => a ≠ b
  | .circular c _ p0 _ _ => ∀ x : ℝ, 0 ≤ x → p ≠ c - x • Vec2.dir p0

/-- All vehicles are plain vehicles, driven by commands only. -/
def AllPlain (r : Road) : Prop := ∀ v ∈ r.vehicles, v.kind = .plain

/-- The heading at which the lane controller of `v` aims on the lane `l`: that of the lane a tenth of a second ahead, plus (but for linear-model
vehicles) a correction of at most 45° towards the axis of the lane. -/
def aim (v : Vehicle) (l : Lane) : ℝ :=
  l.headingAt ((l.localCoordinates v.pos).1 + v.speed * (1 / 10)) +
    if v.kind.isLinear then 0
    else npClip (Real.arcsin (npClip (-(5 / 3) * (l.localCoordinates v.pos).2 / notZero v.speed) (-1) 1)) (-Real.pi / 4) (Real.pi / 4)

/-- `v` faces exactly away from where it should go on the lane `l`. -/
def FacesBack (v : Vehicle) (l : Lane) : Prop := ∃ k : ℤ, aim v l - v.heading = Real.pi + 2 * Real.pi * k

/-- A vehicle that is not a dynamic bicycle and, if it has a lane controller, does not face exactly backwards on a lane of `L`. -/
def Decided (L : Set Lane) (v : Vehicle) : Prop := v.kind ≠ .bicycle ∧ (v.kind.isControlled = true → ∀ l ∈ L, ¬ FacesBack v l)

/-- The features that point sideways: ordinates, and the headings that they are measured by. -/
def sideways (f : String) : Bool := f ∈ ["y", "vy", "heading", "sin_h", "sin_d"]

/-- What a mirror does to a feature. -/
def mirrorFeature (f : String) (x : ℝ) : ℝ := if sideways f then -x else x

/-- What a mirror does to a row of features, in the columns `fs`. -/
def mirrorRow (fs : List String) (row : List ℝ) : List ℝ := List.zipWith mirrorFeature fs row

/-- The ranges by which sideways features are normalised are centred on 0 and are not points. -/
def CentredRanges (rs : Dict String (ℝ × ℝ)) : Prop := ∀ f a b, (f, (a, b)) ∈ rs → sideways f = true → a = -b ∧ b ≠ 0

end Spec
end HighwayEnv
