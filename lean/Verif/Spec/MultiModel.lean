import Verif.Model.MultiModel
import Verif.Spec.Regression

/-!
# Specification vocabulary: vehicles with several possible routes
-/

noncomputable section
open Classical Matrix

namespace HighwayEnv.Spec
open HighwayEnv

/-- A route where every unknown lane is the first lane. -/
def filled (route : List RouteStep) : List RouteStep := route.map fun s => ⟨s.src, s.dst, some (s.id.getD 0)⟩

/-- The list of lanes of a hypothesis. -/
def routeOf (s : MultiModel) (h : Hypothesis) : List RouteStep := if h.own then s.v.route.getD [] else h.route

/-- A hypothesis that has the vehicle on the lane `i`, and whose record of the steering is exactly explained by `theta`. -/
def Explains (theta : Fin 2 → ℝ) (i : LaneIndex) (s : MultiModel) (h : Hypothesis) : Prop :=
  (∃ rest, routeOf s h = i.toStep :: rest) ∧ ExactData theta h.data.lateral

/-- A run of the vehicle along the lane `i`: it acts any number of times, on roads that may change, and between two actions anything may happen to it except that its
route, its target lane `i` and its parameters stay the same.  At each action it has not passed the end of the lane. -/
inductive FollowRun (G : Globals) (eig : Regression.Eig 2) (box : Itv (Fin 2 → ℝ)) (theta : Fin 2 → ℝ) (i : LaneIndex) : MultiModel → MultiModel → Prop
  | refl (s : MultiModel) : FollowRun G eig box theta i s s
  | act (s t u : MultiModel) (r : Road) (rng : Rng) (w : Vehicle) : FollowRun G eig box theta i s t →
      (∀ lane, r.network.getLane i = .ok lane → lane.afterEnd t.v.pos = false) → t.v.targetLane = i → steerVector t.v = theta →
      t.act G eig box r = .ok (u, rng) → w.route = u.v.route → FollowRun G eig box theta i s { u with v := w }

end HighwayEnv.Spec
