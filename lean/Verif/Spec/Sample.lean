import Verif.Lemmas.Network
import Verif.Model.Vehicle

/-! Concrete road network and vehicles used by the non-vacuity examples. -/

noncomputable section
namespace HighwayEnv.Sample
open HighwayEnv Spec Graph

/-- Straight lane towards +x, `k` lane widths to the right of the first one. -/
def lane (k : ℕ) : Lane := { shape := .straight ⟨0, 4 * k⟩ ⟨100, 4 * k⟩ }

/-- A two-lane straight road from node "0" to node "1". -/
def net : Graph := [("0", [("1", [lane 0, lane 1])])]

theorem net_py : IsPyGraph net := ⟨by simp [net], by simp [net]⟩

theorem net_wf : WellFormed net := { net_py with nonemptyNode := by simp [net], nonemptyEdge := by simp [net] }

theorem net_has0 : HasLane net "0" "1" 0 (lane 0) := ⟨[lane 0, lane 1], ⟨_, by simp [net]; rfl, by simp⟩, rfl⟩

theorem net_has1 : HasLane net "0" "1" 1 (lane 1) := ⟨[lane 0, lane 1], ⟨_, by simp [net]; rfl, by simp⟩, rfl⟩

theorem lane_local (k : ℕ) (x y : ℝ) : (lane k).localCoordinates ⟨x, y⟩ = (x, y - 4 * k) := by
  have : √((100 : ℝ) ^ 2) = 100 := by rw [Real.sqrt_sq (by norm_num)]
  simp [lane, Lane.localCoordinates, Lane.straightLocal, Lane.straightDir, Vec2.norm, Vec2.dot, this]

theorem lane_length (k : ℕ) : (lane k).length = 100 := by
  have : √((100 : ℝ) ^ 2) = 100 := by rw [Real.sqrt_sq (by norm_num)]
  simp [lane, Lane.length, Vec2.norm, this]

/-- A vehicle of the given class at `(x, y)`, heading along the road. -/
def car (uid : ℕ) (k : VKind) (x y speed : ℝ) : Vehicle :=
  { uid := uid, kind := k, pos := ⟨x, y⟩, heading := 0, speed := speed, laneIndex := ⟨"0", "1", 0⟩, lane := lane 0
    targetLane := ⟨"0", "1", 0⟩, targetSpeed := speed }

end HighwayEnv.Sample
