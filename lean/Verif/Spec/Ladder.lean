import Verif.Spec.Episode

/-!
# Specification vocabulary: driving on a ladder of speeds
-/

noncomputable section
namespace HighwayEnv.Spec
open HighwayEnv

/-- The speed between two neighbouring levels of a ladder of `speedCount` levels from `speedMin` to `speedMax`. -/
def rung (G : Globals) : ℝ := (G.speedMax - G.speedMin) / (G.speedCount - 1)

/-- The speed of level `k`. -/
def rungSpeed (G : Globals) (k : Int) : ℝ := G.speedMin + k * rung G

/-- The level after a command, out of `n` levels: FASTER goes one up and SLOWER one down, as far as the ladder reaches; nothing else changes it. -/
def press (n : ℕ) (k : Int) : VAction → Int
  | .faster => min (k + 1) (n - 1)
  | .slower => max (k - 1) 0
  | _ => k

/-- The level after a sequence of commands. -/
def presses (n : ℕ) (k : Int) (cs : List VAction) : Int := cs.foldl (press n) k

/-- The share of a speed error that is left after `m` frames of `dt` seconds. -/
def leftOver (dt : ℝ) (m : ℕ) : ℝ := (1 - dt / 0.6) ^ m

/-- Three levels of speed, `low`, `low + gap` and `low + 2 gap`, in an environment simulated at 15 Hz with one decision per second (the defaults). -/
structure ThreeLevels (G : Globals) (c : SimConfig) (low gap : ℝ) : Prop where
  count : G.speedCount = 3
  min : G.speedMin = low
  max : G.speedMax = low + 2 * gap
  simulation : c.simulationFrequency = 15
  policy : c.policyFrequency = 1
  auto : c.manualControl = false

/-- A discrete-action vehicle that aims at level `k` and has nearly reached it (up to a quarter of the distance between two levels). -/
structure AtLevel (G : Globals) (k : Int) (v : Vehicle) : Prop where
  kind : v.kind = .mdp
  low : 0 ≤ k
  high : k < G.speedCount
  index : v.speedIndex = k
  target : v.targetSpeed = rungSpeed G k
  near : |v.speed - rungSpeed G k| ≤ rung G / 4
  slow : |v.speed| ≤ 40

end HighwayEnv.Spec
