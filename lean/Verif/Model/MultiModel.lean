import Verif.Model.Regression
import Verif.Model.Controller

/-!
# Model of `MultipleModelVehicle` — `vehicle/uncertainty/estimation.py:33-108`

`self.data` is a list of pairs (route, dataset).  The routes are mutable lists; one of them may be the list `self.route` of the vehicle itself
(when `get_routes_at_intersection` returns it and it extends a known route): such a pair is marked `own`.  (Two pairs with
equal routes that are extended together share one new list in the code; here each has its own.)
-/

noncomputable section
open Classical Matrix

namespace HighwayEnv
open Regression

/-- A pair `(route, data)` of `self.data` — estimation.py:77-80.  If `own`, the list is `self.route` and `route` is meaningless. -/
structure Hypothesis where
  own : Bool
  route : List RouteStep
  data : Records := {}

/-- A `MultipleModelVehicle` — estimation.py:33-47. -/
structure MultiModel where
  v : Vehicle
  hyps : List Hypothesis := []

namespace MultiModel

/-- The current content of the list of a pair. -/
def known (v : Vehicle) (h : Hypothesis) : List RouteStep := if h.own then v.route.getD [] else h.route

/-- Unknown lane -> first lane — estimation.py:70-71. -/
def fillLane (s : RouteStep) : RouteStep := { s with id := some (s.id.getD 0) }

/-- Whether `get_routes_at_intersection` returns the list `self.route` itself — controller.py:158-166. -/
def ownCandidate (g : Graph) (v : Vehicle) : Bool := (Vehicle.branchIndex g 0 ((v.route.getD []).take 3)).isNone

/-- The test of the loop over the known routes: equal, or a proper prefix — estimation.py:74-76. -/
def matches' (route known : List RouteStep) : Prop := known = route ∨ (known.length < route.length ∧ route.take known.length = known)

/-- `route[i] = ...` changes `self.route` if it is that list — estimation.py:70-71. -/
def adopt (own : Bool) (v : Vehicle) (route : List RouteStep) : Vehicle := if own then { v with route := some route } else v

/-- The body of the loop over the candidate routes — estimation.py:68-80.  The loop over the known routes stops at the first that matches. -/
def consider (own : Bool) (s : MultiModel) (route : List RouteStep) : MultiModel :=
  let route := route.map fillLane
  let v := adopt own s.v route
  match s.hyps.find? fun h => decide (matches' route (known v h)) with
  | none => { v := v, hyps := s.hyps ++ [{ own := false, route := route }] }
  | some h =>
    if known v h = route then { s with v := v }
    else { v := v, hyps := s.hyps.map fun q => if known v q = known v h then { q with own := own, route := route } else q }

/-- The first loop of `update_possible_routes` — estimation.py:68-80. -/
def addRoutes (g : Graph) (s : MultiModel) : MultiModel := (s.v.routesAtIntersection g).foldl (consider (ownCandidate g s.v)) s

/-- The second loop: step the lane being followed in each possible route — estimation.py:82-85. -/
def stepRoutes (g : Graph) : Vehicle → List Hypothesis → Py (Vehicle × List Hypothesis)
  | v, [] => .ok (v, [])
  | v, h :: hs =>
    match known v h with
    | [] => .error .indexError
    | s :: rest => do
      let lane ← g.getLaneStep s
      let passed := lane.afterEnd v.pos
      let v' := if passed && h.own then { v with route := some rest } else v
      let h' := if passed && !h.own then { h with route := rest } else h
      let q ← stepRoutes g v' hs
      return (q.1, h' :: q.2)

/-- Comparing `(route, data)` with a pair that comes before it in the list evaluates the truth value of an array if the routes are equal and as many observations were
recorded: `ValueError` — estimation.py:91. -/
def clash (v : Vehicle) (h k : Hypothesis) : Prop := known v k = known v h ∧ k.data.longitudinal.length = h.data.longitudinal.length

/-- The third loop: reject inconsistent hypotheses — estimation.py:87-91.  `kept` are the pairs already examined that are still in `self.data`. -/
def reject (eig : Eig 2) (box : Itv (Fin 2 → ℝ)) (v : Vehicle) : List Hypothesis → List Hypothesis → Py (List Hypothesis)
  | kept, [] => .ok kept
  | kept, h :: hs =>
    if h.data.lateral = [] then reject eig box v (kept ++ [h]) hs
    else
      match isConsistent eig h.data.lateral box with
      | .error e => .error e
      | .ok true => reject eig box v (kept ++ [h]) hs
      | .ok false => if ∃ k ∈ kept, clash v h k then .error .valueError else reject eig box v kept hs

/-- `update_possible_routes` — estimation.py:59-91. -/
def updateRoutes (g : Graph) (eig : Eig 2) (box : Itv (Fin 2 → ℝ)) (s : MultiModel) : Py MultiModel := do
  let s := addRoutes g s
  let q ← stepRoutes g s.v s.hyps
  let hyps ← reject eig box q.1 [] q.2
  return { v := q.1, hyps := hyps }

/-- The body of the loop of `collect_data` — estimation.py:56-57. -/
def collectOne (G : Globals) (r : Road) (v : Vehicle) (h : Hypothesis) : Py Hypothesis :=
  match known v h with
  | [] => .error .indexError
  | s :: _ => do
    let data ← addFeatures G r v h.data s v.targetLane
    return { h with data := data }

/-- `collect_data` — estimation.py:54-57. -/
def collect (G : Globals) (r : Road) (s : MultiModel) : Py MultiModel := do
  let hyps ← s.hyps.mapM (collectOne G r s.v)
  return { s with hyps := hyps }

/-- `act` — estimation.py:49-52 and behavior.py:323-326 (`collecting_data` is always true). -/
def act (G : Globals) (eig : Eig 2) (box : Itv (Fin 2 → ℝ)) (r : Road) (s : MultiModel) : Py (MultiModel × Rng) := do
  let s ← updateRoutes r.network eig box s
  let s ← collect G r s
  let (v, rng) ← s.v.idmAct G r
  return ({ s with v := v }, rng)

/-- `assume_model_is_valid` — estimation.py:93-108: what is chosen for the copy of the vehicle, if there are hypotheses: the first lane, the route and the data. -/
def assumed (s : MultiModel) (index : Int) : Py (Option (RouteStep × List RouteStep × Records)) :=
  if s.hyps = [] then .ok none
  else do
    let h ← pyIndex s.hyps (min index ((s.hyps.length : Int) - 1))
    let first ← pyIndex (known s.v h) 0
    return some (first, known s.v h, h.data)

end MultiModel
end HighwayEnv
