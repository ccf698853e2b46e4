import Verif.Spec.Traffic

/-!
# Specification vocabulary: a traffic vehicle with nobody ahead, and queues in equilibrium
-/

noncomputable section
namespace HighwayEnv.Spec
open HighwayEnv

/-- `n` frames of `dt` seconds on a road without regulation, during which the traffic vehicle at position `k` of `road.vehicles` (`v t` before frame `t`) receives no command
from outside, does not crash, and has nobody ahead of it on its lane.  The other vehicles do anything. -/
structure FreeRide (G : Globals) (dt : ℝ) (k : ℕ) (s : ℕ → Road) (cmds : ℕ → List (ℕ × VAction)) (n : ℕ) (v : ℕ → Vehicle) : Prop where
  run : ∀ t < n, frame G dt (s t) (cmds t) = .ok (s (t + 1))
  unregulated : (s 0).regulated = false
  notCommanded : ∀ t < n, ∀ c ∈ cmds t, c.1 ≠ k
  car : ∀ t ≤ n, (s t).vehicles[k]? = some (v t)
  sound : ∀ t ≤ n, (v t).crashed = false
  nobodyAhead : ∀ t < n, ∃ behind, (s t).neighbourVehicles (v t) = .ok (none, behind)

/-- The intelligent driver model with default parameters does not accelerate at speed `V` with target speed `T`, at distance `d` behind a vehicle of the same speed. -/
def InBalance (V T d : ℝ) : Prop := (V / T) ^ 4 + ((10 + 3 / 2 * V) / d) ^ 2 = 1

end HighwayEnv.Spec
