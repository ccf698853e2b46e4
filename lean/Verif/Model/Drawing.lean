import Verif.Model.Camera
import Verif.Model.Lane
import Verif.Model.Vehicle

/-!
# Model of the drawing geometry of `highway_env/road/graphics.py` and `highway_env/vehicle/graphics.py`

The calls of pygame's own drawing primitives are modelled by their arguments.
-/

noncomputable section
open Classical

namespace HighwayEnv

/-- `LineType` — lane.py:111-118. -/
inductive LineType where
  | none | striped | continuous | continuousLine
  deriving DecidableEq

/-- A piece of line along a lane, before or after clipping: from `start` to `stop` at the lateral position `lat`. -/
structure Piece where
  start : ℝ
  stop : ℝ
  lat : ℝ

namespace LaneGraphics

/-- `stripes_count` — road/graphics.py:124. -/
def stripesCount (c : Camera) : Int := pyInt (2 * ((c.height : ℝ) + c.width) / (5 * c.scaling))

/-- `s0`, the longitudinal position of the first stripe — road/graphics.py:125-126 (integer divisions round down). -/
def firstStripe (l : Lane) (c : Camera) : Int :=
  (pyInt (l.localCoordinates c.origin).1 / 5 - stripesCount c / 2) * 5

/-- `np.arange(stripes_count)`. -/
def stripes (c : Camera) : List ℕ := List.range (stripesCount c).toNat

/-- The pieces handed to `draw_stripes` for one side of a lane — road/graphics.py:127-184. -/
def pieces (t : LineType) (l : Lane) (c : Camera) (side : ℕ) : List Piece :=
  let s0 : ℝ := firstStripe l c
  match t with
  | .none => []
  | .striped => (stripes c).map fun (k : ℕ) =>
      { start := s0 + k * 5, stop := s0 + k * 5 + 3, lat := ((side : ℝ) - 0.5) * l.widthAt (s0 + k * 5) }
  | .continuous => (stripes c).map fun (k : ℕ) =>
      { start := s0 + k * 5, stop := s0 + k * 5 + 5, lat := ((side : ℝ) - 0.5) * l.widthAt (s0 + k * 5) }
  | .continuousLine =>
      [{ start := s0 + 0 * 5, stop := s0 + stripesCount c * 5 + 3, lat := ((side : ℝ) - 0.5) * l.widthAt (s0 + 0 * 5) }]

/-- `np.clip(…, 0, lane.length)` — road/graphics.py:198-199. -/
def clipPiece (l : Lane) (p : Piece) : Piece := { p with start := npClip p.start 0 l.length, stop := npClip p.stop 0 l.length }

/-- The pieces drawn by `draw_stripes` — road/graphics.py:198-201. -/
def drawn (t : LineType) (l : Lane) (c : Camera) (side : ℕ) : List Piece :=
  ((pieces t l c side).map (clipPiece l)).filter fun p => decide (0.5 * 3 < |p.start - p.stop|)

/-- The arguments of `pygame.draw.line` for one piece: end points and width, in pixels — road/graphics.py:202-205. -/
def linePixels (l : Lane) (c : Camera) (p : Piece) : (Int × Int) × (Int × Int) × Int :=
  (c.pos2pix (l.position p.start p.lat), c.pos2pix (l.position p.stop p.lat), max (c.pix 0.3) 1)

end LaneGraphics

/-- RGB(A) colours. -/
inductive Colour where
  | red | green | blue | yellow | black | purple
  | custom (k : ℕ)
  deriving DecidableEq

/-- `RoadObjectGraphics.get_color`, without the transparency — road/graphics.py:324-344. -/
def RoadObject.colour (o : RoadObject) : Colour :=
  match o.kind with
  | .obstacle => if o.hit then .red else .yellow
  | .landmark => if o.hit then .green else .blue

namespace VehicleGraphics

/-- `VehicleGraphics.get_color`, without the transparency — vehicle/graphics.py:142-156; `color` is the attribute of that name, if it is set
and not `None`. -/
def colour (color : Option Colour) (v : Vehicle) : Colour :=
  match color with
  | some c => c
  | none =>
    if v.crashed then .red
    else if v.kind.isLinear then .yellow
    else if v.kind.isIDM then .blue
    else if v.kind = .mdp then .green
    else .yellow

/-- Size of the (square) image of a vehicle and the rectangle drawn on it: left, top, width, height — vehicle/graphics.py:46-52. -/
def body (c : Camera) : Int × (Int × Int × Int × Int) :=
  let length := Vehicle.LENGTH + 2 * 1
  (c.pix length, (c.pix 1, c.pix (length / 2 - Vehicle.WIDTH / 2), c.pix Vehicle.LENGTH, c.pix Vehicle.WIDTH))

/-- `h = v.heading if abs(v.heading) > 2 * np.pi / 180 else 0` — vehicle/graphics.py:70, road/graphics.py:281. -/
def shownHeading (h : ℝ) : ℝ := if |h| > 2 * Real.pi / 180 then h else 0

/-- `pygame.math.Vector2.rotate(angle)` (angle in radians): the counter-clockwise rotation. -/
def rotate (angle : ℝ) (p : Vec2) : Vec2 := Vec2.rot angle p

/-- The four corners of the rotated image — vehicle/graphics.py:91-93. -/
def box (w h angle : ℝ) : List Vec2 := [⟨0, 0⟩, ⟨w, 0⟩, ⟨w, -h⟩, ⟨0, -h⟩].map (rotate angle)

/-- Minimum and maximum of a non-empty list. -/
def minOf (l : List ℝ) : ℝ := l.foldr min (l.headD 0)
def maxOf (l : List ℝ) : ℝ := l.foldr max (l.headD 0)

/-- The bounding box of the rotated image: smallest and largest abscissa, smallest and largest ordinate — vehicle/graphics.py:94-95. -/
def bounds (w h angle : ℝ) : (ℝ × ℝ) × (ℝ × ℝ) :=
  ((minOf ((box w h angle).map (·.x)), maxOf ((box w h angle).map (·.x))),
   (minOf ((box w h angle).map (·.y)), maxOf ((box w h angle).map (·.y))))

/-- `origin`, where the upper left corner of the rotated image is put — vehicle/graphics.py:97-106 (with the default pivot). -/
def blitOrigin (w h angle : ℝ) (pos : Vec2) : Vec2 :=
  let b := bounds w h angle
  let pivot : Vec2 := ⟨w / 2, -(h / 2)⟩
  let move := rotate angle pivot - pivot
  ⟨pos.x - w / 2 + b.1.1 - move.x, pos.y - h / 2 - b.2.2 + move.y⟩

/-- The size of the image returned by `pygame.transform.rotate`: the bounding box of the rotated image. -/
def rotatedSize (w h angle : ℝ) : Vec2 :=
  let b := bounds w h angle
  ⟨b.1.2 - b.1.1, b.2.2 - b.2.1⟩

/-- Where the point `(u, v)` of the image (from its upper left corner, `v` downwards) ends on the surface: `pygame.transform.rotate` turns the image
counter-clockwise by `angle` and crops it to the bounding box of the rotated corners, and the result is put at `blitOrigin` —
vehicle/graphics.py:105-110. -/
def blitPoint (w h angle : ℝ) (pos : Vec2) (u v : ℝ) : Vec2 :=
  let b := bounds w h angle
  let turned := rotate angle ⟨u, -v⟩
  let o := blitOrigin w h angle pos
  ⟨o.x + (turned.x - b.1.1), o.y + (b.2.2 - turned.y)⟩

/-- `itertools.islice(history, None, stop, step)`: `ValueError` unless the step is positive. -/
def slice {α : Type} (l : List α) (stop step : Int) : Py (List α) :=
  if step ≤ 0 ∨ stop < 0 then .error .valueError
  else .ok ((l.take stop.toNat).zipIdx.filterMap fun (x, k) => if k % step.toNat = 0 then some x else none)

/-- The past states drawn by `display_history` — vehicle/graphics.py:123-140 (`frequency = 3`, `duration = 2`). -/
def shownHistory {α : Type} (history : List α) (simulation : ℝ) : Py (List α) :=
  slice history (pyInt (simulation * 2)) (pyInt (simulation / 3))

end VehicleGraphics
end HighwayEnv
