import Verif.Model.Envs.Merge
import Verif.Spec.Episode

/-!
# Specification vocabulary: the merge environment
-/

noncomputable section
namespace HighwayEnv.Spec
open HighwayEnv

/-- A lane of 4 m along the x axis. -/
def levelLane (x0 x1 y : ℝ) (forbidden : Bool := false) : Lane := { shape := .straight ⟨x0, y⟩ ⟨x1, y⟩, forbidden := forbidden }

/-- The ramp: from `(150, 14.5)` down to `(230, 8)` along half a cosine wave around `y = 11.25`. -/
def rampLane : Lane := { shape := .sine ⟨150, 11.25⟩ ⟨230, 11.25⟩ 3.25 (Real.pi / 80) (Real.pi / 2), forbidden := true }

/-- The map of the merge environment: a highway of two lanes `a → b → c → d` of 460 m, and an access `j → k → b` that runs as third lane
of `b → c`; only the highway may be entered by a lane change. -/
def mergeNet : Graph :=
  [("a", [("b", [levelLane 0 230 0, levelLane 0 230 4])]),
   ("b", [("c", [levelLane 230 310 0, levelLane 230 310 4, levelLane 230 310 8 true])]),
   ("c", [("d", [levelLane 310 460 0, levelLane 310 460 4])]),
   ("j", [("k", [levelLane 0 150 14.5 true])]),
   ("k", [("b", [rampLane])])]

/-- The second lane starts where the first one ends, in the same direction. -/
def Joins (l l' : Lane) : Prop := l.position l.length 0 = l'.position 0 0 ∧ l.headingAt l.length = l'.headingAt 0

/-- The initial traffic of the merge environment: class, position, speed and lane of each vehicle. -/
def mergeTraffic (ego other : VKind) : List (VKind × Vec2 × ℝ × LaneIndex) :=
  [(ego, ⟨30, 4⟩, 30, ⟨"a", "b", 1⟩), (other, ⟨90, 0⟩, 29, ⟨"a", "b", 0⟩), (other, ⟨70, 4⟩, 31, ⟨"a", "b", 1⟩),
   (other, ⟨5, 0⟩, 31.5, ⟨"a", "b", 0⟩), (other, ⟨110, 14.5⟩, 20, ⟨"j", "k", 0⟩)]

open Classical in
/-- The slowdown imposed on merging traffic: the sum of `(target - speed) / target` over the controlled vehicles on the access lane. -/
def slowdown (vs : List Vehicle) : ℝ :=
  ((vs.filter fun v => decide (v.laneIndex = ⟨"b", "c", 2⟩ ∧ v.kind.isControlled = true)).map
    fun v => (v.targetSpeed - v.speed) / v.targetSpeed).sum

/-- The score of a state and a meta-action (number `k`) in the merge environment: weights -1 for a crash, 0.1 per lane number, 0.2 for the
speed level (relative to the highest one), -0.05 for a lane change, -0.5 for the slowdown of merging traffic; the sum is mapped
affinely so that -1.5 gives 0 and 0.3 gives 1. -/
def mergeScore (crashed : Bool) (lane : Int) (share : ℝ) (k : Int) (slow : ℝ) : ℝ :=
  ((if crashed then -1 else 0) + 0.1 * lane + 0.2 * share + (if k = 0 ∨ k = 2 then -0.05 else 0) - 0.5 * slow + 1.5) / 1.8

/-- Configurations of the merge environment with which an episode can be played: meta-actions, a usable ladder of positive speeds, and a
traffic class that copes with obstacles. -/
structure MergeOk (G : Globals) (cfg : MergeConfig) : Prop where
  action : ∃ lo la, cfg.sim.action = .single (.discrete lo la) ∧ (lo = true ∨ la = true)
  count : 2 ≤ G.speedCount
  speeds : 0 < G.speedMin ∧ G.speedMin ≤ G.speedMax
  traffic : cfg.otherVehiclesType = .idm ∨ cfg.otherVehiclesType = .plain ∨ cfg.otherVehiclesType = .bicycle

end HighwayEnv.Spec
