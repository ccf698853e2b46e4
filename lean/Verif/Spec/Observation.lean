import Verif.Model.Observation
import Verif.Spec.Healthy

/-!
# Specification vocabulary: what observations contain
-/

noncomputable section
open Classical
namespace HighwayEnv.Spec
open HighwayEnv

/-- The value of a named feature of a vehicle, `dir` being the direction of its destination. -/
def ownFeature (dir : Vec2) (v : Vehicle) : String → Option ℝ
  | "presence" => some 1
  | "x" => some v.pos.x
  | "y" => some v.pos.y
  | "vx" => some (v.speed * Real.cos v.heading)
  | "vy" => some (v.speed * Real.sin v.heading)
  | "heading" => some v.heading
  | "cos_h" => some (Real.cos v.heading)
  | "sin_h" => some (Real.sin v.heading)
  | "cos_d" => some dir.x
  | "sin_d" => some dir.y
  | _ => none

/-- The value of a named feature of a vehicle as seen from another one: positions and velocities are relative. -/
def relFeature (dir : Vec2) (v ego : Vehicle) : String → Option ℝ
  | "x" => some (v.pos.x - ego.pos.x)
  | "y" => some (v.pos.y - ego.pos.y)
  | "vx" => some (v.speed * Real.cos v.heading - ego.speed * Real.cos ego.heading)
  | "vy" => some (v.speed * Real.sin v.heading - ego.speed * Real.sin ego.heading)
  | f => ownFeature dir v f

/-- The names of the features of vehicles. -/
def featureNames : List String := ["presence", "x", "y", "vx", "vy", "heading", "cos_h", "sin_h", "cos_d", "sin_d"]

/-- Affine rescaling of `x` from the range `r` to `[-1, 1]`, cut to `[-1, 1]` if `clip`. -/
def scaleTo (clip : Bool) (r : ℝ × ℝ) (x : ℝ) : ℝ :=
  if clip then max (-1) (min 1 (2 * (x - r.1) / (r.2 - r.1) - 1)) else 2 * (x - r.1) / (r.2 - r.1) - 1

/-- The entry of an observation for feature `f` of value `x`: rescaled if there is a range for `f`. -/
def entry (clip : Bool) (rs : Dict String (ℝ × ℝ)) (f : String) (x : ℝ) : ℝ :=
  match Dict.get? rs f with
  | some r => scaleTo clip r x
  | none => x

/-- `row` lists the (rescaled) values `val f` of the features, in order. -/
def IsRow (clip : Bool) (rs : Dict String (ℝ × ℝ)) (features : List String) (val : String → Option ℝ) (row : List ℝ) : Prop :=
  List.Forall₂ (fun f x => ∃ y, val f = some y ∧ x = entry clip rs f y) features row

/-- The ranges in force: none without normalisation; the configured ones if any; else ±5, ±2 times the top speed of the agents for
positions and velocities and ± 4 m per lane of the road for `y`. -/
def RangesFor (G : Globals) (lanes : ℕ) (cfg : KinematicsConfig) (rs : Dict String (ℝ × ℝ)) : Prop :=
  (cfg.normalize = false ∧ rs = []) ∨
  (cfg.normalize = true ∧ cfg.featuresRange = some rs ∧ rs ≠ []) ∨
  (cfg.normalize = true ∧ (cfg.featuresRange = none ∨ cfg.featuresRange = some []) ∧
    rs = [("x", (-5 * G.speedMax, 5 * G.speedMax)), ("y", (-4 * lanes, 4 * lanes)), ("vx", (-2 * G.speedMax, 2 * G.speedMax)),
      ("vy", (-2 * G.speedMax, 2 * G.speedMax))])

/-- Observers that can be used: every feature exists, and the ranges are a Python dictionary (each key once).  Ranges of zero
width are outside the modelled domain of `lmap` (floats give inf or nan there). -/
structure ObserverOk (cfg : KinematicsConfig) : Prop where
  features : ∀ f ∈ cfg.features, f ∈ featureNames
  ranges : ∀ rs, cfg.featuresRange = some rs → (rs.map Prod.fst).Nodup

/-- Observation does not raise on such roads: vehicles are attached and the last lanes of their routes can be looked up. -/
def Observable (r : Road) : Prop :=
  WellFormed r.network ∧ ∀ v ∈ r.vehicles, Attached r.network v ∧ RouteEnd r.network v.route

end HighwayEnv.Spec
