import Verif.Model.Utils

/-!
# Model of `highway_env/road/lane.py`
-/

noncomputable section
open Classical

namespace HighwayEnv

/-- The three lane geometries and their constructor parameters — lane.py:125-132 (`StraightLane`),
lane.py:175-185 (`SineLane`), lane.py:217-227 (`CircularLane`).  Line types are only used for drawing and are omitted here (Model/Drawing has them). -/
inductive LaneShape where
  | straight (start stop : Vec2)
  | sine (start stop : Vec2) (amplitude pulsation phase : ℝ)
  | circular (center : Vec2) (radius startPhase endPhase : ℝ) (clockwise : Bool)

/-- A lane: geometry plus `width`, `forbidden`, `speed_limit`, `priority` (lane.py:125-153, 175-198, 217-239). -/
structure Lane where
  shape : LaneShape
  width : ℝ := 4
  forbidden : Bool := false
  speedLimit : ℝ := 20
  priority : Int := 0

namespace Lane

/-- `AbstractLane.DEFAULT_WIDTH` — lane.py:15. -/
def DEFAULT_WIDTH : ℝ := 4
/-- `AbstractLane.VEHICLE_LENGTH` — lane.py:16. -/
def VEHICLE_LENGTH : ℝ := 5

/-- `self.direction` of a straight lane, `(end - start) / length` — lane.py:149.  (A zero-length lane divides by zero;
theorems about coordinates assume `start ≠ end`.) -/
def straightDir (start stop : Vec2) : Vec2 :=
  let len := (stop - start).norm
  ⟨(stop.x - start.x) / len, (stop.y - start.y) / len⟩

/-- `self.direction` of a circular lane, `1 if clockwise else -1` — lane.py:233. -/
def circDir (clockwise : Bool) : ℝ := if clockwise then 1 else -1

/-- `self.length` — lane.py:147 (straight and sine: distance between the end points), lane.py:237 (circular). -/
def length (l : Lane) : ℝ :=
  match l.shape with
  | .straight a b => (b - a).norm
  | .sine a b _ _ _ => (b - a).norm
  | .circular _ r p0 p1 cw => r * (p1 - p0) * circDir cw

/-- `StraightLane.position` — lane.py:155-156; the lateral direction is `[-direction[1], direction[0]]` (lane.py:150). -/
def straightPosition (a b : Vec2) (s r : ℝ) : Vec2 :=
  let d := straightDir a b
  ⟨a.x + s * d.x + r * (-d.y), a.y + s * d.y + r * d.x⟩

/-- `StraightLane.local_coordinates` — lane.py:164-168. -/
def straightLocal (a b p : Vec2) : ℝ × ℝ :=
  let d := straightDir a b
  ((p - a).dot d, (p - a).dot ⟨-d.y, d.x⟩)

/-- `StraightLane.heading` — lane.py:146. -/
def straightHeading (a b : Vec2) : ℝ := arctan2 (b.y - a.y) (b.x - a.x)

/-- `position(longitudinal, lateral)` — lane.py:155-156, 200-202, 241-243. -/
def position (l : Lane) (s r : ℝ) : Vec2 :=
  match l.shape with
  | .straight a b => straightPosition a b s r
  | .sine a b amp w ph => straightPosition a b s (r + amp * Real.sin (w * s + ph))
  | .circular c rad p0 _ cw =>
    let phi := circDir cw * s / rad + p0
    c + (rad - r * circDir cw) • Vec2.dir phi

/-- `heading_at(longitudinal)` — lane.py:158-159, 204-206, 245-248. -/
def headingAt (l : Lane) (s : ℝ) : ℝ :=
  match l.shape with
  | .straight a b => straightHeading a b
  | .sine a b amp w ph => straightHeading a b + Real.arctan (amp * w * Real.cos (w * s + ph))
  | .circular _ rad p0 _ cw => (circDir cw * s / rad + p0) + Real.pi / 2 * circDir cw

/-- `width_at(longitudinal)` — lane.py:161-162, 250-251. -/
def widthAt (l : Lane) (_s : ℝ) : ℝ := l.width

/-- `local_coordinates(position)` — lane.py:164-168, 208-210, 253-260. -/
def localCoordinates (l : Lane) (p : Vec2) : ℝ × ℝ :=
  match l.shape with
  | .straight a b => straightLocal a b p
  | .sine a b amp w ph =>
    let c := straightLocal a b p
    (c.1, c.2 - amp * Real.sin (w * c.1 + ph))
  | .circular c rad p0 _ cw =>
    let delta := p - c
    let phi := arctan2 delta.y delta.x
    let phi := p0 + wrapToPi (phi - p0)
    let r := delta.norm
    (circDir cw * (phi - p0) * rad, circDir cw * (rad - r))

/-- Truthiness of an optional float argument: `None` and `0` are both false. -/
def optTruthy (x : Option ℝ) : Bool := match x with | none => false | some v => truthy v

/-- `on_lane` — lane.py:61-76.  The precomputed coordinates are used only if both are given *and non-zero*. -/
def onLane (l : Lane) (p : Vec2) (lon lat : Option ℝ := none) (margin : ℝ := 0) : Bool :=
  let sr : ℝ × ℝ :=
    if !(optTruthy lon) || !(optTruthy lat) then l.localCoordinates p
    else (lon.getD 0, lat.getD 0)
  decide (|sr.2| ≤ l.widthAt sr.1 / 2 + margin ∧ -VEHICLE_LENGTH ≤ sr.1 ∧ sr.1 < l.length + VEHICLE_LENGTH)

/-- `is_reachable_from` — lane.py:78-90. -/
def isReachableFrom (l : Lane) (p : Vec2) : Bool :=
  if l.forbidden then false
  else
    let sr := l.localCoordinates p
    decide (|sr.2| ≤ 2 * l.widthAt sr.1 ∧ 0 ≤ sr.1 ∧ sr.1 < l.length + VEHICLE_LENGTH)

/-- `after_end` — lane.py:92-95. -/
def afterEnd (l : Lane) (p : Vec2) (lon : Option ℝ := none) : Bool :=
  let s := if !(optTruthy lon) then (l.localCoordinates p).1 else lon.getD 0
  decide (s > l.length - VEHICLE_LENGTH / 2)

/-- `distance` — lane.py:97-100. -/
def distance (l : Lane) (p : Vec2) : ℝ :=
  let sr := l.localCoordinates p
  |sr.2| + max (sr.1 - l.length) 0 + max (0 - sr.1) 0

/-- `distance_with_heading` — lane.py:102-108 (default `heading_weight = 1.0`). -/
def distanceWithHeading (l : Lane) (p : Vec2) (heading : Option ℝ) (weight : ℝ := 1) : ℝ :=
  match heading with
  | none => l.distance p
  | some h =>
    let sr := l.localCoordinates p
    let angle := |wrapToPi (h - l.headingAt sr.1)|
    |sr.2| + max (sr.1 - l.length) 0 + max (0 - sr.1) 0 + weight * angle

end Lane
end HighwayEnv
