import Verif.Model.Step

/-!
# Specification vocabulary: a vehicle left to its own controller
-/

noncomputable section
namespace HighwayEnv.Spec
open HighwayEnv

/-- `n` times: the vehicle receives the action IDLE, then is stepped for `dt` (no other vehicle interferes). -/
def cruise (G : Globals) (dt : ℝ) : ℕ → Road → Vehicle → Py Vehicle
  | 0, _, v => .ok v
  | n + 1, r, v => do
    let (v, rng) ← v.act G r .idle
    let v ← v.step r.network r.recordHistory dt
    cruise G dt n { r with rng := rng } v

/-- How far a vehicle of speed `V` is from driving straight down a lane: a positive definite quadratic form of its lateral offset `y`
to the centre line (in seconds of travel, `y / V`) and of its heading `p` relative to the lane.  It vanishes only for `y = p = 0`, and
is `5 (y/V)²` for a vehicle aligned with the lane. -/
def laneError (V y p : ℝ) : ℝ := 5 * (y / V) ^ 2 + 2 * (y / V) * p + p ^ 2

end HighwayEnv.Spec
