import Verif.Spec.Attached

/-!
# Specification vocabulary: roads on which the simulation never raises
-/

noncomputable section
namespace HighwayEnv.Spec
open HighwayEnv

/-- The lane of every element of the route can be looked up (a route element without lane number needs a single-lane road). -/
def RoutePrecise (g : Graph) (route : Option (List RouteStep)) : Prop :=
  ∀ s ∈ route.getD [], ∃ l, g.getLaneStep s = .ok l

/-- The lane of the last element of the route, if any, can be looked up. -/
def RouteEnd (g : Graph) (route : Option (List RouteStep)) : Prop :=
  ∀ s, (route.getD []).getLast? = some s → ∃ l, g.getLaneStep s = .ok l

/-- Conditions under which simulating a road raises no exception:
* the network comes from `add_lane` calls, vehicles are attached to it and their routes use existing roads;
* linear traffic models are used only among controlled vehicles and without obstacles;
* regulated roads hold controlled vehicles only, with routes whose lanes can be looked up. -/
structure Healthy (r : Road) : Prop where
  wf : WellFormed r.network
  attached : ∀ v ∈ r.vehicles, Attached r.network v ∧ RouteExists r.network v.route
  linear : (∃ v ∈ r.vehicles, v.kind.isLinear = true) →
    (∀ w ∈ r.vehicles, w.kind.isControlled = true) ∧ ∀ o ∈ r.objects, o.kind ≠ .obstacle
  regulated : r.regulated = true → ∀ v ∈ r.vehicles,
    v.kind.isControlled = true ∧ RoutePrecise r.network v.route ∧ (v.isYielding = true → v.hasColor = true)

/-- Actions a vehicle accepts: the classes without a lane controller take no meta-action. -/
def Accepts (v : Vehicle) (a : VAction) : Prop :=
  v.kind.isControlled = true ∨ a = .none ∨ ∃ s c, a = .control s c

/-- Durations a road accepts: a regulated road enforces its rules every `int(1/dt/2)` steps, which must not be 0. -/
def AcceptsDt (r : Road) (dt : ℝ) : Prop := r.regulated = true → 0 < dt ∧ dt ≤ 1 / 2

end HighwayEnv.Spec
