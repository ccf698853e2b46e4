import Verif.Spec.Prediction
import Verif.Spec.Geometry
import Verif.Model.IntervalVehicle

/-!
# Specification vocabulary: interval vehicles as objects
-/

noncomputable section
namespace HighwayEnv.Spec
open HighwayEnv

/-- A vehicle of 5 by 2 metres with this heading, at some position of the box, would touch the collision rectangle (4.5 by 1.8 metres) of `w`. -/
def CouldTouch (box : Itv Vec2) (heading : ℝ) (w : Vehicle) : Prop :=
  ∃ p, InBox p box ∧ Meet (rectSet p 5 2 heading) (rectSet w.pos (9 / 2) (9 / 5) w.heading)

/-- `n` consecutive calls of `step` (on any roads, in any mode, with any durations) without error, starting from the first state of the list and visiting the others.  Between
the calls the vehicle may change in any way (decisions, collisions), but not its stored trajectories. -/
inductive IntervalRun : ℕ → IntervalVehicle → List IntervalVehicle → IntervalVehicle → Prop
  | start (s : IntervalVehicle) : IntervalRun 0 s [] s
  | step {n : ℕ} {s0 s s1 s2 : IntervalVehicle} {l : List IntervalVehicle} (E : IntervalVehicle.Eigs) (G : Globals) (r : Road) (others : ℕ → Option VehicleInterval)
      (dt : ℝ) (mode : StepMode) (h : IntervalRun n s0 l s) (same : s1.trajectory = s.trajectory ∧ s1.intervals = s.intervals)
      (hs : s1.step E G r others dt mode = .ok s2) : IntervalRun (n + 1) s0 (l ++ [s1]) s2

/-- The coordinates of a predictor are usable: the matrix of `np.linalg.inv` is an inverse. -/
def FrameOk {n : ℕ} (s : LPV (Fin n) (Fin n) (Fin 1)) : Prop := ∀ t ti, s.coordinates = some (t, ti) → ti * t = 1

/-- The predictor holds the state `x` for possible: its interval, which is kept in the coordinates of the predictor, contains it. -/
def HoldsPossible {n : ℕ} (s : LPV (Fin n) (Fin n) (Fin 1)) (x : Fin n → ℝ) : Prop := InItv (LPV.stateToFrame s.coordinates s.center x) s.xit

end HighwayEnv.Spec
