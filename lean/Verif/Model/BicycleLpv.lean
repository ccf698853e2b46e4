import Verif.Model.Vehicle
import Mathlib.Data.Matrix.Mul
import Mathlib.LinearAlgebra.Matrix.Notation

/-!
# Model of the linear parameter-varying dynamics of `highway_env/vehicle/dynamics.py`

Columns are vectors indexed by `Fin n`; `MASS = 1`, `LENGTH_A = LENGTH_B = LENGTH / 2`, `FRICTION_FRONT = FRICTION_REAR = 15` (dynamics.py:17-22).
-/

noncomputable section
open Classical Matrix

namespace HighwayEnv.Vehicle

/-- `lateral_lpv_structure` — dynamics.py:108-137: `A0`, `phi` and `B`. -/
def lateralLpvStructure (v : Vehicle) : Matrix (Fin 2) (Fin 2) ℝ × (Fin 2 → Matrix (Fin 2) (Fin 2) ℝ) × (Fin 2 → ℝ) :=
  let a : ℝ := LENGTH / 2
  let B : Fin 2 → ℝ := ![2 * 15 / 1, 15 * a / INERTIA_Z]
  let A0 : Matrix (Fin 2) (Fin 2) ℝ := !![0, -v.speed; 0, 0]
  if |v.speed| < 1 then (A0, fun _ => 0, fun i => B i * 0)
  else (A0,
    ![!![-2 / (1 * v.speed), -2 * a / (1 * v.speed); -2 * a / (INERTIA_Z * v.speed), -2 * a ^ 2 / (INERTIA_Z * v.speed)],
      !![-2 / (1 * v.speed), 2 * a / (1 * v.speed); 2 * a / (INERTIA_Z * v.speed), -2 * a ^ 2 / (INERTIA_Z * v.speed)]],
    B)

/-- `self.theta` — dynamics.py:146, 180: the two frictions. -/
def frictions : Fin 2 → ℝ := ![15, 15]

/-- `A0 + np.tensordot(theta, phi, axes=[0, 0])` — dynamics.py:147, 181. -/
def atFrictions {ι : Type} (a0 : Matrix ι ι ℝ) (phi : Fin 2 → Matrix ι ι ℝ) : Matrix ι ι ℝ := a0 + ∑ k, frictions k • phi k

/-- `lateral_lpv_dynamics` — dynamics.py:139-148. -/
def lateralLpvDynamics (v : Vehicle) : Matrix (Fin 2) (Fin 2) ℝ × (Fin 2 → ℝ) :=
  let s := v.lateralLpvStructure
  (atFrictions s.1 s.2.1, s.2.2)

/-- `np.concatenate((top, np.concatenate((np.zeros((2, 2)), m), axis=1)))` — dynamics.py:165-167. -/
def stack (t0 t1 : Fin 4 → ℝ) (m : Matrix (Fin 2) (Fin 2) ℝ) : Matrix (Fin 4) (Fin 4) ℝ :=
  !![t0 0, t0 1, t0 2, t0 3; t1 0, t1 1, t1 2, t1 3; 0, 0, m 0 0, m 0 1; 0, 0, m 1 0, m 1 1]

/-- `full_lateral_lpv_structure` — dynamics.py:150-169. -/
def fullLateralLpvStructure (v : Vehicle) : Matrix (Fin 4) (Fin 4) ℝ × (Fin 2 → Matrix (Fin 4) (Fin 4) ℝ) × (Fin 4 → ℝ) :=
  let s := v.lateralLpvStructure
  (stack ![0, v.speed, 1, 0] ![0, 0, 0, 1] s.1, fun k => stack 0 0 (s.2.1 k), ![0, 0, s.2.2 0, s.2.2 1])

/-- `full_lateral_lpv_dynamics` — dynamics.py:171-182. -/
def fullLateralLpvDynamics (v : Vehicle) : Matrix (Fin 4) (Fin 4) ℝ × (Fin 4 → ℝ) :=
  let s := v.fullLateralLpvStructure
  (atFrictions s.1 s.2.1, s.2.2)

/-- `derivative` — dynamics.py:41-69. -/
def derivative (v : Vehicle) : Fin 6 → ℝ :=
  let d := v.bicycleLateral
  let s := Vec2.rot v.heading ⟨v.speed, v.lateralSpeed⟩
  ![s.x, s.y, v.yawRate, v.acceleration, d.1, d.2]

/-- `derivative_linear` — dynamics.py:71-89. -/
def derivativeLinear (v : Vehicle) : Fin 6 → ℝ :=
  let m := v.lateralLpvDynamics
  let dx := m.1 *ᵥ ![v.lateralSpeed, v.yawRate] + fun i => m.2 i * v.steering
  let s := Vec2.rot v.heading ⟨v.speed, v.lateralSpeed⟩
  ![s.x, s.y, v.yawRate, v.acceleration, dx 0, dx 1]

end HighwayEnv.Vehicle
