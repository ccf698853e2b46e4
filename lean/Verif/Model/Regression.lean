import Verif.Model.Prediction
import Verif.Model.Road
import Mathlib.LinearAlgebra.Matrix.NonsingularInverse
import Mathlib.Analysis.SpecialFunctions.Log.Basic
import Mathlib.Analysis.SpecialFunctions.Sqrt

/-!
# Model of the parameter regression: `utils.py:123-206` and `vehicle/uncertainty/estimation.py`

A dataset is the list of its observations `(phi, y)`: in the code `features` and `outputs` are two lists that are only ever extended together
(behavior.py:471-472, 480-481).  Features have `d + 1` entries.
-/

noncomputable section
open Classical Matrix

namespace HighwayEnv

/-- A dataset with `n` features. -/
abbrev Dataset (n : ℕ) := List ((Fin n → ℝ) × ℝ)

namespace Regression

variable {d : ℕ}

/-- `g_n_lambda` — utils.py:137: `1/sigma * phi^T phi + lambda_ * identity`. -/
def gramian (data : Dataset d) (lambda sigma : ℝ) : Matrix (Fin d) (Fin d) ℝ :=
  (1 / sigma) • (data.map fun o => vecMulVec o.1 o.1).sum + lambda • (1 : Matrix (Fin d) (Fin d) ℝ)

/-- `theta_n_lambda` — utils.py:138: `inv(g_n_lambda) @ phi^T @ y / sigma`.  (`inv` raises on singular matrices; this one is regular when
`lambda_ > 0` and `sigma > 0`, see `gramian_regular`.) -/
def estimate (data : Dataset d) (lambda sigma : ℝ) : Fin d → ℝ :=
  (1 / sigma) • ((gramian data lambda sigma)⁻¹ *ᵥ (data.map fun o => o.2 • o.1).sum)

/-- `beta_n` — utils.py:140-141. -/
def radius (data : Dataset d) (lambda delta sigma bound : ℝ) : ℝ :=
  Real.sqrt (2 * Real.log (Real.sqrt ((gramian data lambda sigma).det / lambda ^ d) / delta)) + Real.sqrt (lambda * d) * bound

/-- `confidence_ellipsoid` — utils.py:123-142, with its default values: centre, Gramian and radius. -/
def ellipsoid (data : Dataset d) (lambda : ℝ := 1 / 100000) (delta : ℝ := 1 / 10) (sigma : ℝ := 1 / 10) (bound : ℝ := 1) :
    (Fin d → ℝ) × Matrix (Fin d) (Fin d) ℝ × ℝ :=
  (estimate data lambda sigma, gramian data lambda sigma, radius data lambda delta sigma bound)

/-- `np.amax(np.abs(parameter_box))` — utils.py:153. -/
def paramBound (box : Itv (Fin (d + 1) → ℝ)) : ℝ := Finset.univ.sup' Finset.univ_nonempty fun i => max |box.1 i| |box.2 i|

/-- `np.linalg.eig`, on real symmetric matrices: eigenvalues, and the matrix whose columns are eigenvectors. -/
abbrev Eig (d : ℕ) := Matrix (Fin d) (Fin d) ℝ → (Fin d → ℝ) × Matrix (Fin d) (Fin d) ℝ

/-- `np.clip` of an array by arrays. -/
def clipVec {n : ℕ} (x lo hi : Fin n → ℝ) : Fin n → ℝ := fun i => npClip (x i) (lo i) (hi i)

/-- The sign vectors of `itertools.product([-1, 1], repeat=d)`. -/
def sign (b : Bool) : ℝ := if b then 1 else -1

/-- `confidence_polytope` — utils.py:145-165: centre, vertices relative to the centre (indexed by sign vectors), Gramian and radius. -/
def polytope (eig : Eig (d + 1)) (data : Dataset (d + 1)) (box : Itv (Fin (d + 1) → ℝ)) :
    (Fin (d + 1) → ℝ) × ((Fin (d + 1) → Bool) → Fin (d + 1) → ℝ) × Matrix (Fin (d + 1)) (Fin (d + 1)) ℝ × ℝ :=
  let e := ellipsoid data (bound := paramBound box)
  let vp := eig e.2.1
  let r := Real.sqrt e.2.2 • (vp.2⁻¹ * diagonal fun i => Real.sqrt (1 / vp.1 i))
  let theta := clipVec e.1 box.1 box.2
  (theta, fun h => clipVec (r *ᵥ fun i => sign (h i)) (box.1 - theta) (box.2 - theta), e.2.1, e.2.2)

/-- `is_valid_observation` — utils.py:168-186.  The only eigenvalue of `phi^T phi` is the squared norm of `phi`. -/
def isValid (eig : Eig (d + 1)) (y : ℝ) (phi theta : Fin (d + 1) → ℝ) (gram : Matrix (Fin (d + 1)) (Fin (d + 1)) ℝ) (beta : ℝ)
    (sigma : ℝ := 1 / 10) : Bool :=
  let low := Finset.univ.inf' Finset.univ_nonempty (eig gram).1
  decide (|y - theta ⬝ᵥ phi| < Real.sqrt (phi ⬝ᵥ phi / low) * beta + sigma)

/-- `is_consistent_dataset` — utils.py:189-206: `pop` raises `IndexError` on an empty dataset. -/
def isConsistent (eig : Eig (d + 1)) (data : Dataset (d + 1)) (box : Itv (Fin (d + 1) → ℝ)) : Py Bool :=
  match data.getLast? with
  | none => .error .indexError
  | some o =>
    let train := data.dropLast
    if train = [] then .ok true
    else
      let p := polytope eig train box
      .ok (isValid eig o.2 o.1 p.1 p.2.2.1 p.2.2.2)

/-- `self.data` of a linear vehicle — behavior.py:321, 468-481: the observations of the acceleration and of the steering.  An empty list stands for a
missing key: the keys are only added together with a first observation. -/
structure Records where
  longitudinal : Dataset 3 := []
  lateral : Dataset 2 := []

/-- `add_features` — behavior.py:462-481: the features of the lane `i`, and the outputs for the lane `out`. -/
def addFeatures (G : Globals) (r : Road) (v : Vehicle) (data : Records) (i : RouteStep) (out : LaneIndex) : Py Records := do
  let (front, _) ← r.neighbourVehicles v
  let f := Vehicle.accelerationFeatures G v.kind v front
  let y := v.accParams.1 * f.1 + v.accParams.2.1 * f.2.1 + v.accParams.2.2 * f.2.2
  let lane ← r.network.getLaneStep i
  let b := v.steeringFeatures lane
  let lane' ← r.network.getLane out
  let b' := v.steeringFeatures lane'
  let z := v.steerParams.1 * b'.1 + v.steerParams.2 * b'.2
  return { longitudinal := data.longitudinal ++ [(![f.1, f.2.1, f.2.2], y)]
           lateral := data.lateral ++ [(![b.1, b.2], z)] }

/-- `LinearVehicle.collect_data` — behavior.py:458-460, 474-475: the output lane is the lane itself. -/
def collectData (G : Globals) (r : Road) (v : Vehicle) (data : Records) : Py Records :=
  addFeatures G r v data v.targetLane.toStep v.targetLane

/-- `polytope_from_estimation` — estimation.py:22-30: the centre and the vertices (relative to it).  `if not data` is never true: a dataset is a dictionary with two
keys. -/
def polytopeFromEstimation {ι : Type} (eig : Eig (d + 1)) (data : Dataset (d + 1)) (box : Itv (Fin (d + 1) → ℝ))
    (s : Matrix ι ι ℝ × (Fin (d + 1) → Matrix ι ι ℝ)) : Matrix ι ι ℝ × List (Matrix ι ι ℝ) :=
  let p := Regression.polytope eig data box
  (s.1 + ∑ k, p.1 k • s.2 k, (Finset.univ : Finset (Fin (d + 1) → Bool)).toList.map fun h => ∑ k, p.2.1 h k • s.2 k)

/-- `RegressionVehicle.longitudinal_matrix_polytope` — estimation.py:16-17: `self.data["longitudinal"]` raises `TypeError` if `data` is `None` and `KeyError` if nothing has
been recorded. -/
def longitudinalPolytope (eig : Eig 3) (data : Option Records) (box : Itv (Fin 3 → ℝ)) (s : Matrix (Fin 4) (Fin 4) ℝ × (Fin 3 → Matrix (Fin 4) (Fin 4) ℝ)) :
    Py (Matrix (Fin 4) (Fin 4) ℝ × List (Matrix (Fin 4) (Fin 4) ℝ)) :=
  match data with
  | none => .error .typeError
  | some data => if data.longitudinal = [] then .error .keyError else .ok (polytopeFromEstimation eig data.longitudinal box s)

/-- `RegressionVehicle.lateral_matrix_polytope` — estimation.py:19-20. -/
def lateralPolytope (eig : Eig 2) (data : Option Records) (box : Itv (Fin 2 → ℝ)) : Py (Matrix (Fin 2) (Fin 2) ℝ × List (Matrix (Fin 2) (Fin 2) ℝ)) :=
  match data with
  | none => .error .typeError
  | some data => if data.lateral = [] then .error .keyError else .ok (polytopeFromEstimation eig data.lateral box lateralStructure)

end Regression
end HighwayEnv
