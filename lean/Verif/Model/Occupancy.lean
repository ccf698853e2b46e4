import Verif.Model.Observation
import Verif.Model.FiniteMdp

/-!
# Model of `OccupancyGridObservation` — observation.py:221-300
-/

noncomputable section
open Classical

namespace HighwayEnv

/-- `grid[k, i, j] = x` with Python index rules. -/
def Grid3.write (g : Grid3) (k : ℕ) (i j : Int) (x : ℝ) : Py Grid3 := do
  let k ← Grid3.axisIndex g.s k
  let i ← Grid3.axisIndex g.l i
  let j ← Grid3.axisIndex g.t j
  return { g with at' := fun k' i' j' => if k' = k ∧ i' = i ∧ j' = j then x else g.at' k' i' j' }

/-- Options of `OccupancyGridObservation` — observation.py:225-236. -/
structure OccupancyConfig where
  features : List String := ["presence", "vx", "vy"]
  gridSize : (ℝ × ℝ) × (ℝ × ℝ) := ((-27.5, 27.5), (-27.5, 27.5))
  gridStep : Option (ℝ × ℝ) := none
  featuresRange : Option (Dict String (ℝ × ℝ)) := none
  absolute : Bool := false

/-- The observer — observation.py:242-250. -/
structure Occupancy where
  features : List String
  gridSize : (ℝ × ℝ) × (ℝ × ℝ)
  gridStep : ℝ × ℝ
  grid : Grid3
  featuresRange : Option (Dict String (ℝ × ℝ))
  absolute : Bool

namespace Occupancy

/-- `__init__` — observation.py:242-250.  The shape is computed from the *argument* `grid_step`, not from `self.grid_step`: leaving it out
divides by `None` (`TypeError`).  Negative sizes raise `ValueError` in `np.zeros`.  Simplification: a zero step, which numpy turns into
an unspecified integer, is not modelled (Lean's `x / 0 = 0`; every theorem assumes positive steps). -/
def init (cfg : OccupancyConfig) : Py Occupancy :=
  match cfg.gridStep with
  | none => .error .typeError
  | some step =>
    let nx := ⌊(cfg.gridSize.1.2 - cfg.gridSize.1.1) / step.1⌋
    let ny := ⌊(cfg.gridSize.2.2 - cfg.gridSize.2.1) / step.2⌋
    if nx < 0 ∨ ny < 0 then .error .valueError
    else .ok ⟨cfg.features, cfg.gridSize, step, Grid3.zeros cfg.features.length nx.toNat ny.toNat, cfg.featuresRange, cfg.absolute⟩

/-- The ranges used by `normalize` — observation.py:262-266: `None` and `{}` are replaced by the default. -/
def ranges (G : Globals) (o : Occupancy) : Dict String (ℝ × ℝ) :=
  match o.featuresRange with
  | some (r :: rs) => r :: rs
  | _ => [("vx", (-2 * G.speedMax, 2 * G.speedMax)), ("vy", (-2 * G.speedMax, 2 * G.speedMax))]

/-- One iteration of the loop of `normalize` on one row — observation.py:267-269. -/
def normalizeKey (d : Dict String ℝ) (fr : String × (ℝ × ℝ)) : Dict String ℝ :=
  match Dict.get? d fr.1 with
  | some x => Dict.setItem d fr.1 (lmap x fr.2 (-1, 1))
  | none => d

/-- `normalize` on one row — observation.py:267-270. -/
def normalizeDict (rs : Dict String (ℝ × ℝ)) (d : Dict String ℝ) : Dict String ℝ := rs.foldl normalizeKey d

/-- The un-normalised coordinate — observation.py:289-293. -/
def recover (rs : Dict String (ℝ × ℝ)) (key : String) (x : ℝ) : ℝ :=
  match Dict.get? rs key with
  | some r => lmap x (-1, 1) r
  | none => x

/-- The cell of a row of the data frame — observation.py:287-295. -/
def cell (o : Occupancy) (rs : Dict String (ℝ × ℝ)) (d : Dict String ℝ) : Py (Int × Int) := do
  let x ← Dict.getItem d "x"
  let y ← Dict.getItem d "y"
  return (pyInt ((recover rs "x" x - o.gridSize.1.1) / o.gridStep.1), pyInt ((recover rs "y" y - o.gridSize.2.1) / o.gridStep.2))

/-- Writing one feature of one vehicle — observation.py:286-297. -/
def put (o : Occupancy) (rs : Dict String (ℝ × ℝ)) (layer : ℕ) (feature : String) (grid : Grid3) (d : Dict String ℝ) : Py Grid3 := do
  let c ← o.cell rs d
  if 0 ≤ c.2 ∧ c.2 < grid.l ∧ 0 ≤ c.1 ∧ c.1 < grid.t then do
    let x ← Dict.getItem d feature
    grid.write layer c.2 c.1 x
  else .ok grid

/-- The layers — observation.py:285-297. -/
def fillLayers (o : Occupancy) (rs : Dict String (ℝ × ℝ)) (rows : List (Dict String ℝ)) (grid : Grid3) : Py Grid3 :=
  o.features.zipIdx.foldlM (fun grid fk => rows.foldlM (o.put rs fk.2 fk.1) grid) grid

/-- `observe` — observation.py:272-300.  `road` is `None` before the first reset; `observer` is the vehicle observing, if any.  Returns the
clipped grid and the observer, whose grid and ranges have been overwritten. -/
def observe (G : Globals) (o : Occupancy) (road : Option Road) (observer : Option Vehicle) : Py (Grid3 × Occupancy) :=
  match road with
  | none => .ok (Grid3.zeros o.grid.s o.grid.l o.grid.t, o)
  | some r =>
    if o.absolute then .error .notImplementedError
    else do
      let rows ← r.vehicles.mapM fun v => v.toDict r.network observer
      let rs := o.ranges G
      let grid ← o.fillLayers rs (rows.map (normalizeDict rs)) (Grid3.zeros o.grid.s o.grid.l o.grid.t)
      return ({ grid with at' := fun k i j => npClip (grid.at' k i j) (-1) 1 }, { o with grid := grid, featuresRange := some rs })

end Occupancy
end HighwayEnv
