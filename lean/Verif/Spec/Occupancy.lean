import Verif.Spec.Observation
import Verif.Model.Occupancy

/-!
# Specification vocabulary: occupancy grids
-/

noncomputable section
open Classical
namespace HighwayEnv.Spec
open HighwayEnv

/-- The coordinate `x` belongs to the cell number `i` of a grid of the given step starting at `a`.  Cells are half-open intervals of one
step, except the first one, which also takes what is less than one step before the grid. -/
def InCell (a step : ℝ) (i : ℕ) (x : ℝ) : Prop :=
  (if i = 0 then a - step < x else a + i * step ≤ x) ∧ x < a + (i + 1) * step

/-- The value of a feature of `v` for the observer, if any. -/
def seenFeature (dir : Vec2) (v : Vehicle) (observer : Option Vehicle) (f : String) : Option ℝ :=
  match observer with
  | some ego => relFeature dir v ego f
  | none => ownFeature dir v f

/-- The position of `v` for the observer, if any. -/
def seenPosition (v : Vehicle) (observer : Option Vehicle) : Vec2 :=
  match observer with
  | some ego => v.pos - ego.pos
  | none => v.pos

/-- The vehicle `v` is seen in row `i`, column `j` of the grid. -/
def SeenIn (o : Occupancy) (observer : Option Vehicle) (i j : ℕ) (v : Vehicle) : Prop :=
  InCell o.gridSize.1.1 o.gridStep.1 j (seenPosition v observer).x ∧ InCell o.gridSize.2.1 o.gridStep.2 i (seenPosition v observer).y

/-- Usable occupancy observers: the grid has one layer per feature, steps are positive, ranges form a dictionary of proper intervals. -/
structure OccupancyOk (G : Globals) (o : Occupancy) : Prop where
  layers : o.grid.s = o.features.length
  stepX : 0 < o.gridStep.1
  stepY : 0 < o.gridStep.2
  speed : 0 < G.speedMax
  ranges : ∀ rs, o.featuresRange = some rs → (rs.map Prod.fst).Nodup ∧ ∀ fr ∈ rs, fr.2.1 ≠ fr.2.2

/-- The ranges in force: the configured ones if any, else ±2 times the top speed of the agents for velocities. -/
def OccupancyRanges (G : Globals) (o : Occupancy) (rs : Dict String (ℝ × ℝ)) : Prop :=
  (o.featuresRange = some rs ∧ rs ≠ []) ∨
  ((o.featuresRange = none ∨ o.featuresRange = some []) ∧
    rs = [("vx", (-2 * G.speedMax, 2 * G.speedMax)), ("vy", (-2 * G.speedMax, 2 * G.speedMax))])

end HighwayEnv.Spec
