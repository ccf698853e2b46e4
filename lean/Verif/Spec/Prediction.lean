import Verif.Spec.Interval
import Verif.Model.Prediction

/-!
# Specification vocabulary: uncertain vehicles
-/

noncomputable section
open Matrix
namespace HighwayEnv.Spec
open HighwayEnv

/-- The state lies in the interval of the vehicle. -/
def InVehicle (pos : Vec2) (speed heading : ℝ) (i : VehicleInterval) : Prop :=
  InBox pos i.position ∧ InItv speed i.speed ∧ InItv heading i.heading

/-- The acceleration of a linear driver with parameters `θ`, who sees a front vehicle at distance `d` with speed `vf`, limited to ±6. -/
def linearAcceleration (θ : Fin 3 → ℝ) (target distanceWanted timeWanted speed : ℝ) (front : Option (ℝ × ℝ)) : ℝ :=
  let a := match front with
    | none => θ 0 * (target - speed)
    | some (d, vf) => θ 0 * (target - speed) + θ 1 * min (vf - speed) 0 + θ 2 * min (d - (distanceWanted + timeWanted * speed)) 0
  min (max a (-6)) 6

/-- The yaw rate of a linear driver with parameters `θ`, at the angle `delta` and the signed distance `lat` from the lane. -/
def linearYawRate (θ : Fin 2 → ℝ) (delta lat speed : ℝ) : ℝ := -(θ 0 * delta) + θ 1 * (-lat / speed)

/-- One Euler step of the longitudinal dynamics of a driver and the vehicle in front: positions are integrated (the own one up to a noise
`w`), both drivers adapt to the target speed, and the driver also adapts to the front vehicle if `follow`. -/
def LongitudinalStep (target dt : ℝ) (follow : Prop) (θ : Fin 3 → ℝ) (w : ℝ) (x x' : Fin 4 → ℝ) : Prop :=
  x' 0 = x 0 + dt * (x 2 + w) ∧ x' 1 = x 1 + dt * x 3 ∧
  (follow → x' 2 = x 2 + dt * (θ 0 * (target - x 2) + θ 1 * (x 3 - x 2))) ∧ (¬ follow → x' 2 = x 2 + dt * (θ 0 * (target - x 2))) ∧
  x' 3 = x 3 + dt * (θ 0 * (target - x 3))

/-- One Euler step of the lateral dynamics: distance from the lane and relative heading. -/
def LateralStep (dt : ℝ) (θ : Fin 2 → ℝ) (w : ℝ) (x x' : Fin 2 → ℝ) : Prop :=
  x' 0 = x 0 + dt * (x 1 + w) ∧ x' 1 = x 1 + dt * (-(θ 0 * x 1) - θ 1 * x 0)

end HighwayEnv.Spec
