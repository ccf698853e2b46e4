import Verif.Spec.Graph
import Verif.Spec.Settle

/-!
# Specification vocabulary: a journey along roads laid end to end
-/

noncomputable section
namespace HighwayEnv.Spec
open HighwayEnv

/-- The lane passes through the point `p`, in the direction `h`. -/
structure Through (l : Lane) (p : Vec2) (h : ℝ) : Prop where
  lateral : (l.localCoordinates p).2 = 0
  begun : 0 ≤ (l.localCoordinates p).1
  notOver : (l.localCoordinates p).1 ≤ l.length
  direction : wrapToPi (h - l.headingAt (l.localCoordinates p).1) = 0

/-- The point at distance `s` from `o` in direction `θ`. -/
def pointAt (o : Vec2) (θ s : ℝ) : Vec2 := o + s • Vec2.dir θ

/-- `N` roads laid end to end along the straight line from `o` in direction `θ`: road `k` leads from `node k` to `node (k + 1)`; its lane number `m` is the line from distance `x k`
to distance `x (k + 1)`, at least a vehicle length.  Consecutive roads have the same number of lanes; no other lane of the map passes through the line in its direction. -/
structure RoadChain (g : Graph) (o : Vec2) (θ : ℝ) (N : ℕ) (node : ℕ → String) (m : ℕ) (x : ℕ → ℝ) (lane : ℕ → Lane) : Prop where
  angle : -Real.pi < θ ∧ θ ≤ Real.pi
  lanes : ∀ k < N, HasLane g (node k) (node (k + 1)) m (lane k)
  straight : ∀ k < N, (lane k).shape = .straight (pointAt o θ (x k)) (pointAt o θ (x (k + 1)))
  long : ∀ k < N, x k + 5 ≤ x (k + 1)
  sameWidth : ∀ k, k + 1 < N → ∀ ls ls', RoadLanes g (node k) (node (k + 1)) ls → RoadLanes g (node (k + 1)) (node (k + 2)) ls' → ls.length = ls'.length
  distinct : ∀ j ≤ N, ∀ k ≤ N, node j = node k → j = k
  named : ∀ k ≤ N, node k ≠ ""
  noOther : ∀ s, x 0 ≤ s → s ≤ x N → ∀ a b k l, HasLane g a b k l → Through l (pointAt o θ s) θ → ∃ j < N, a = node j ∧ b = node (j + 1) ∧ k = m

/-- The index of lane `m` of road `k`. -/
def chainLane (node : ℕ → String) (m k : ℕ) : LaneIndex := ⟨node k, node (k + 1), (m : Int)⟩

/-- The vehicle, which heads for road `j`, cannot but go on along the chain: either its route consists of the roads from `j` on, or it has no route and no road leaves the chain
(before its end). -/
def Guided (g : Graph) (N : ℕ) (node : ℕ → String) (j : ℕ) (v : Vehicle) : Prop :=
  (∃ rt, v.route = some rt ∧ rt.map (fun s => (s.src, s.dst)) = (List.range' j (N - j)).map fun k => (node k, node (k + 1))) ∨
  (v.route = none ∧ ∀ k, 0 < k → k < N → ∀ b, Edge g (node k) b → b = node (k + 1))

/-- The vehicle does not think of changing lane: it is not of the traffic, or has lane changes disabled, or the roads have one lane. -/
def KeepsLane (g : Graph) (N : ℕ) (node : ℕ → String) (v : Vehicle) : Prop :=
  v.kind = .controlled ∨ v.kind = .mdp ∨ v.kind = .idm ∧ (v.enableLaneChange = false ∨
    ∀ k < N, ∀ ls, RoadLanes g (node k) (node (k + 1)) ls → ls.length = 1)

/-- The vehicle is on the line at distance `s`, aligned with it; the road it is on is the one at distance `s`, and it heads for road `j` of the chain. -/
structure Travels (o : Vec2) (θ : ℝ) (N : ℕ) (node : ℕ → String) (m : ℕ) (x : ℕ → ℝ) (s : ℝ) (j : ℕ) (v : Vehicle) : Prop where
  pos : v.pos = pointAt o θ s
  heading : v.heading = θ
  on : ∃ k < N, v.laneIndex = chainLane node m k ∧ x k ≤ s ∧ s ≤ x (k + 1)
  aim : j < N ∧ v.targetLane = chainLane node m j ∧ x j - 5 / 2 ≤ s ∧ s ≤ x (j + 1) + 5 / 2

/-- `n` frames of `dt` seconds on a road without regulation, during which the vehicle at position `k` of `road.vehicles` (`v t` before frame `t`) receives no command from outside,
does not crash and does not reverse.  The other vehicles do anything. -/
structure Ride (G : Globals) (dt : ℝ) (k : ℕ) (s : ℕ → Road) (cmds : ℕ → List (ℕ × VAction)) (n : ℕ) (v : ℕ → Vehicle) : Prop where
  run : ∀ t < n, frame G dt (s t) (cmds t) = .ok (s (t + 1))
  unregulated : (s 0).regulated = false
  notCommanded : ∀ t < n, ∀ c ∈ cmds t, c.1 ≠ k
  car : ∀ t ≤ n, (s t).vehicles[k]? = some (v t)
  sound : ∀ t ≤ n, (v t).crashed = false
  forward : ∀ t ≤ n, 0 ≤ (v t).speed

end HighwayEnv.Spec
