import Verif.Model.Step
import Verif.Spec.Graph

/-!
# Specification vocabulary: vehicles attached to a road network
-/

noncomputable section
namespace HighwayEnv.Spec
open HighwayEnv

/-- The vehicle is attached to the network: its current and target lane indexes denote existing lanes, and its `lane` attribute is
the lane of its current index. -/
structure Attached (g : Graph) (v : Vehicle) : Prop where
  here : ValidIndex g v.laneIndex
  lane : g.getLane v.laneIndex = .ok v.lane
  target : ValidIndex g v.targetLane

/-- The roads of the route exist in the network. -/
def RouteExists (g : Graph) (route : Option (List RouteStep)) : Prop :=
  ∀ s ∈ route.getD [], Edge g s.src s.dst

/-- The position lies beyond the end of the lane, up to half a vehicle length (2.5 m). -/
def PastEnd (g : Graph) (i : LaneIndex) (p : Vec2) : Prop :=
  ∃ l, g.getLane i = .ok l ∧ l.length - 5 / 2 < (l.localCoordinates p).1

/-- `next` is what following the road from `cur` may give at position `p`: the same lane as long as its end is not reached or when
no road continues it, otherwise a lane of a road starting where the current one ends. -/
def Continues (g : Graph) (p : Vec2) (cur next : LaneIndex) : Prop :=
  (next = cur ∧ (¬ PastEnd g cur p ∨ ∀ t, ¬ Edge g cur.dst t)) ∨
  (PastEnd g cur p ∧ next.src = cur.dst ∧ Edge g cur.dst next.dst)

/-- Lane number `id` of the road from `a` to `b` exists, is not forbidden, and `p` is close enough to it: at most two widths aside,
and between its start and 5 m after its end. -/
def CanEnter (g : Graph) (a b : String) (id : Int) (p : Vec2) : Prop :=
  ∃ (k : ℕ) (l : Lane), id = (k : Int) ∧ HasLane g a b k l ∧ l.forbidden = false ∧
    |(l.localCoordinates p).2| ≤ 2 * l.width ∧ 0 ≤ (l.localCoordinates p).1 ∧ (l.localCoordinates p).1 < l.length + 5

open Classical in
/-- The target lane after a high-level command at position `p`, from target lane `t`: LANE_RIGHT (LANE_LEFT) moves to the lane
number one higher (lower) on the same road if that lane can be entered from `p`; nothing else changes the lane. -/
def laneAfter (g : Graph) (p : Vec2) (a : VAction) (t : LaneIndex) : LaneIndex :=
  match a with
  | .laneRight => if CanEnter g t.src t.dst (t.id + 1) p then ⟨t.src, t.dst, t.id + 1⟩ else t
  | .laneLeft => if CanEnter g t.src t.dst (t.id - 1) p then ⟨t.src, t.dst, t.id - 1⟩ else t
  | _ => t

/-- The target speed of a basic controlled vehicle after a high-level command: 5 m/s more or less. -/
def speedAfter (a : VAction) (s : ℝ) : ℝ :=
  match a with
  | .faster => s + 5
  | .slower => s - 5
  | _ => s

end HighwayEnv.Spec
