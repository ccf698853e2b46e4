import Verif.Model.Regression

/-!
# Specification vocabulary: parameter regression
-/

noncomputable section
open Classical Matrix

namespace HighwayEnv.Spec
open HighwayEnv

/-- The outputs are exactly `theta · phi`. -/
def ExactData {n : ℕ} (theta : Fin n → ℝ) (data : Dataset n) : Prop := ∀ o ∈ data, o.2 = theta ⬝ᵥ o.1

/-- Every parameter is in its interval. -/
def InParamBox {n : ℕ} (theta : Fin n → ℝ) (box : Itv (Fin n → ℝ)) : Prop := ∀ i, box.1 i ≤ theta i ∧ theta i ≤ box.2 i

/-- The columns of `p` are independent eigenvectors of `m`, of norm 1, for the eigenvalues `values`: what `np.linalg.eig` returns. -/
def Diagonalises {n : ℕ} (m : Matrix (Fin n) (Fin n) ℝ) (values : Fin n → ℝ) (p : Matrix (Fin n) (Fin n) ℝ) : Prop :=
  IsUnit p.det ∧ m * p = p * diagonal values ∧ ∀ j, ∑ i, p i j ^ 2 = 1

/-- A correct eigenvalue routine for symmetric matrices. -/
def EigCorrect {n : ℕ} (eig : Regression.Eig n) : Prop := ∀ m : Matrix (Fin n) (Fin n) ℝ, m.transpose = m → Diagonalises m (eig m).1 (eig m).2

/-- The data recorded by a linear vehicle that collected data in each of these situations (a road, and the vehicle as it was then), in this order. -/
def Recorded (G : Globals) : List (Road × Vehicle) → Regression.Records → Prop
  | [], data => data = {}
  | q :: past, data => ∃ before, Recorded G past before ∧ Regression.collectData G q.1 q.2 before = .ok data

/-- The parameters of the acceleration, as a vector. -/
def accVector (v : Vehicle) : Fin 3 → ℝ := ![v.accParams.1, v.accParams.2.1, v.accParams.2.2]

/-- The parameters of the steering, as a vector. -/
def steerVector (v : Vehicle) : Fin 2 → ℝ := ![v.steerParams.1, v.steerParams.2]

/-- The mean squared error of the observations, regularised: what the estimate minimises. -/
def ridgeLoss {n : ℕ} (data : Dataset n) (lambda sigma : ℝ) (theta : Fin n → ℝ) : ℝ :=
  (data.map fun o => (o.2 - theta ⬝ᵥ o.1) ^ 2).sum / sigma + lambda * (theta ⬝ᵥ theta)

end HighwayEnv.Spec
