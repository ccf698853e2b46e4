import Verif.Model.FiniteMdp
import Verif.Spec.Attached

/-!
# Specification vocabulary: predicted collisions
-/

noncomputable section
open Classical
namespace HighwayEnv.Spec
open HighwayEnv

/-- Speed number `h` of `n` speeds equally spaced from the lowest to the highest. -/
def speedLevel (G : Globals) (h : ℕ) : ℝ :=
  if 1 < G.speedCount then G.speedMin + h * (G.speedMax - G.speedMin) / (G.speedCount - 1) else G.speedMin

/-- `x`, kept at least 0.01 away from zero. -/
def awayFromZero (x : ℝ) : ℝ := if |x| ≤ 1 / 100 then (if 0 < x then 1 / 100 else -(1 / 100)) else x

/-- Distance from `v` to `w` along the lane of `v`. -/
def gap (v w : Vehicle) : ℝ := (v.lane.localCoordinates w.pos).1 - (v.lane.localCoordinates v.pos).1

/-- Time after which `v`, driving at `speed`, covers the distance to the point `m` metres beyond `w`, which keeps its speed (projected
on the direction of `v`). -/
def reachTime (v w : Vehicle) (speed m : ℝ) : ℝ :=
  (gap v w + m) / awayFromZero (speed - w.speed * Real.cos (w.heading - v.heading))

/-- The roads of two lane indexes have the same number of lanes. -/
def SameLaneCount (g : Graph) (a b : LaneIndex) : Prop :=
  ∃ la lb, RoadLanes g a.src a.dst la ∧ RoadLanes g b.src b.dst lb ∧ la.length = lb.length

/-- `w` is relevant for `v` at `speed`: another vehicle, of another speed, on the same road or one connected to it. -/
def Relevant (g : Graph) (v w : Vehicle) (speed : ℝ) : Prop :=
  w.uid ≠ v.uid ∧ w.speed ≠ speed ∧ g.isConnectedRoad v.laneIndex.toStep w.laneIndex.toStep v.route false 3 = true

/-- A collision of cost `c` is predicted for speed number `h`, lane `i`, time number `j` (of duration `q`): a relevant vehicle is (or may
be, if the number of lanes of its road differs) on lane `i`, and its centre (cost 1), or a point 5 m before or after it (cost 1/2), is
reached at a time whose value in quanta, rounded down or up, is `j`. -/
def Predicted (G : Globals) (r : Road) (v : Vehicle) (q : ℝ) (h i j : ℕ) (c : ℝ) : Prop :=
  ∃ w ∈ r.vehicles, Relevant r.network v w (speedLevel G h) ∧
    (SameLaneCount r.network w.laneIndex v.laneIndex → w.laneIndex.id = (i : Int)) ∧
    ∃ m, (m = 0 ∧ c = 1 ∨ (m = 5 ∨ m = -5) ∧ c = 1 / 2) ∧
      0 ≤ reachTime v w (speedLevel G h) m ∧
      (⌊reachTime v w (speedLevel G h) m / q⌋ = (j : Int) ∨ ⌈reachTime v w (speedLevel G h) m / q⌉ = (j : Int))

/-- Situations in which a time-to-collision grid can be computed for an agent. -/
structure TtcOk (r : Road) (v : Vehicle) : Prop where
  net : IsPyGraph r.network
  mdp : v.kind = .mdp
  here : ValidIndex r.network v.laneIndex
  others : ∀ w ∈ r.vehicles, ValidIndex r.network w.laneIndex

/-- The number of the cell (speed `h`, lane `i`, time `j`) of a grid with `l` lanes and `t` times. -/
def cell (l t h i j : ℕ) : ℕ := (h * l + i) * t + j

end HighwayEnv.Spec
