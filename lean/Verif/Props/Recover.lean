import Verif.Model.Recover
import Verif.Props.Routes
import Verif.Props.Transform
import Verif.Props.Queries
import Verif.Props.EnvSafe
import Verif.Spec.Attached
import Verif.Spec.Healthy

/-!
# C106 — calling a vehicle method on a copy; C107 — `maximum_speed` and `recover_from_stop`
-/

noncomputable section
open Classical

namespace HighwayEnv.Props
open HighwayEnv Spec Graph

/-! ## C106 -/

private theorem plan_loop (g : Graph) (hg : IsPyGraph g) (ord : SetOrder) (dest : String) : ∀ (vs : List Vehicle) (rng : Rng),
    Env.callLoop g ord (.planRouteTo dest) vs rng =
      .ok (vs.map fun v => some (if v.kind.isControlled then (match v.planRouteTo g ord dest with
        | .ok w => w
        | .error _ => v) else v), rng)
  | [], _ => rfl
  | v :: vs, rng => by
    have ih := plan_loop g hg ord dest vs rng
    rw [Env.callLoop]
    by_cases hc : v.kind.isControlled = true
    · obtain ⟨route, hr, -, -⟩ := planRoute_spec g hg ord v dest
      rw [if_pos (show Method.defined (.planRouteTo dest) v.kind = true from hc)]
      simp only [Method.call, hr, bind, Except.bind, pure, Except.pure, ih, Method.returnsSelf, List.map_cons, hc, if_true]
    · rw [if_neg (show ¬ Method.defined (.planRouteTo dest) v.kind = true from hc)]
      simp only [bind, Except.bind, pure, Except.pure, ih, List.map_cons, hc, if_false, Bool.false_eq_true]

private theorem filter_map_some {α : Type} (l : List α) : (l.map some).filterMap id = l := by
  induction l with
  | nil => rfl
  | cons a l ih => simp [ih]

/-- C106: `call_vehicle_method(("plan_route_to", (destination,)))` never raises; on the copy, every vehicle that follows lanes gets a
shortest route from its lane to the destination (its lane alone if there is none), nothing else of it changes, the other vehicles are
untouched, all vehicles are still on the road in the same order, and nothing else of the environment changes. -/
theorem call_plan_route (ord : SetOrder) (dest : String) (e : Env) (hg : IsPyGraph e.road.network) :
    ∃ slots e', e.callVehicleMethod ord (.planRouteTo dest) = .ok (slots, e') ∧ slots = e'.road.vehicles.map some ∧
      Pointwise (fun v w => (v.kind.isControlled = false → w = v) ∧
        (v.kind.isControlled = true → ∃ route, w = { v with route := some (v.laneIndex.toStep :: route) } ∧
          ((v.laneIndex.dst = dest ∨ ¬ ∃ q, WalkFromTo e.road.network v.laneIndex.dst dest q) → route = []) ∧
          ((v.laneIndex.dst ≠ dest ∧ ∃ q, WalkFromTo e.road.network v.laneIndex.dst dest q) →
            ∃ p, route = roadsOf p ∧ p.Nodup ∧ WalkFromTo e.road.network v.laneIndex.dst dest p ∧
              ∀ q, WalkFromTo e.road.network v.laneIndex.dst dest q → p.length ≤ q.length)))
        e.road.vehicles e'.road.vehicles ∧
      e' = { e with road := { e.road with vehicles := e'.road.vehicles } } := by
  unfold Env.callVehicleMethod
  rw [plan_loop _ hg]
  simp only [bind, Except.bind, pure, Except.pure]
  have hs : ∀ (f : Vehicle → Vehicle), (e.road.vehicles.map fun v => some (f v)).filterMap id = e.road.vehicles.map f := by
    intro f
    have : (e.road.vehicles.map fun v => some (f v)) = (e.road.vehicles.map f).map some := by rw [List.map_map]; rfl
    rw [this, filter_map_some]
  refine ⟨_, _, rfl, ?_, ⟨?_, ?_⟩, rfl⟩
  · dsimp only
    rw [hs, List.map_map]
    rfl
  · dsimp only
    rw [hs, List.length_map]
  · intro i v hi
    dsimp only
    rw [hs]
    refine ⟨_, by rw [List.getElem?_map, hi]; rfl, ?_, ?_⟩
    · intro hc
      dsimp only
      rw [if_neg (by rw [hc]; decide)]
    · intro hc
      obtain ⟨route, hr, h1, h2⟩ := planRoute_spec e.road.network hg ord v dest
      refine ⟨route, ?_, h1, h2⟩
      dsimp only
      rw [if_pos hc, hr]

/-- Vehicles that have the method: `randomize_behavior` is a method of IDM vehicles, the three others of all vehicles that follow lanes. -/
def Has : Method → Vehicle → Prop
  | .randomizeBehavior, v => v.kind.isIDM = true
  | .planRouteTo _, v => v.kind.isControlled = true
  | .followRoad, v => v.kind.isControlled = true
  | .setRouteAtIntersection _, v => v.kind.isControlled = true

private theorem has_iff (m : Method) (v : Vehicle) : m.defined v.kind = true ↔ Has m v := by
  cases m <;> exact Iff.rfl

private theorem lose_loop (g : Graph) (ord : SetOrder) (m : Method) (hm : ∀ d, m ≠ .planRouteTo d) : ∀ (vs : List Vehicle) (rng : Rng)
    (slots : List (Option Vehicle)) (rng' : Rng), Env.callLoop g ord m vs rng = .ok (slots, rng') →
    slots = vs.map fun v => if Has m v then none else some v
  | [], rng, slots, rng', h => by
    cases h
    rfl
  | v :: vs, rng, slots, rng', h => by
    rw [Env.callLoop] at h
    by_cases hd : m.defined v.kind = true
    · rw [if_pos hd] at h
      obtain ⟨⟨w, r1⟩, _, h⟩ := bind_ok h
      obtain ⟨⟨ws, r2⟩, h2, h⟩ := bind_ok h
      cases h
      rw [lose_loop g ord m hm vs _ _ _ h2, List.map_cons, if_pos ((has_iff m v).1 hd)]
      cases m with
      | planRouteTo d => exact absurd rfl (hm d)
      | _ => rfl
    · rw [if_neg hd] at h
      obtain ⟨⟨ws, r2⟩, h2, h⟩ := bind_ok h
      cases h
      rw [lose_loop g ord m hm vs _ _ _ h2, List.map_cons, if_neg (fun h => hd ((has_iff m v).2 h))]

/-- C106: with a method that returns nothing, such as `set_route_at_intersection`, `follow_road` or `randomize_behavior`, every vehicle
that has the method is replaced by `None` in the copied road, so only the vehicles without it remain, unchanged, and the clock, the
controlled vehicles and the map are those of the original. -/
theorem call_loses (ord : SetOrder) (m : Method) (hm : ∀ d, m ≠ .planRouteTo d) (e e' : Env) (slots : List (Option Vehicle))
    (h : e.callVehicleMethod ord m = .ok (slots, e')) :
    slots = e.road.vehicles.map (fun v => if Has m v then none else some v) ∧
    e'.road.vehicles = e.road.vehicles.filter (fun v => decide (¬ Has m v)) ∧
    e' = { e with road := { e.road with vehicles := e'.road.vehicles, rng := e'.road.rng } } := by
  unfold Env.callVehicleMethod at h
  obtain ⟨⟨s, rng⟩, h1, h⟩ := bind_ok h
  cases h
  have hs := lose_loop _ _ m hm _ _ _ _ h1
  refine ⟨hs, ?_, rfl⟩
  dsimp only
  rw [hs]
  induction e.road.vehicles with
  | nil => rfl
  | cons v vs ih =>
    by_cases hv : Has m v
    · rw [List.map_cons, if_pos hv, List.filterMap_cons_none rfl, ih, List.filter_cons_of_neg (by simpa using hv)]
    · rw [List.map_cons, if_neg hv, List.filterMap_cons_some (f := id) (b := v) rfl, ih, List.filter_cons_of_pos (by simpa using hv)]

private theorem draws_loop (g : Graph) (ord : SetOrder) : ∀ (vs : List Vehicle) (rng : Rng) (slots : List (Option Vehicle)) (rng' : Rng),
    Env.callLoop g ord .randomizeBehavior vs rng = .ok (slots, rng') →
    rng' = { rng with rpos := rng.rpos + 5 * (vs.filter fun v => v.kind.isLinear).length }
  | [], rng, slots, rng', h => by cases h; rfl
  | v :: vs, rng, slots, rng', h => by
    have hlin : v.kind.isLinear = true → v.kind.isIDM = true := by cases v.kind <;> simp [VKind.isLinear, VKind.isIDM]
    rw [Env.callLoop] at h
    by_cases hd : v.kind.isIDM = true
    · rw [if_pos (show Method.defined .randomizeBehavior v.kind = true from hd)] at h
      obtain ⟨⟨w, r1⟩, h1, h⟩ := bind_ok h
      obtain ⟨⟨ws, r2⟩, h2, h⟩ := bind_ok h
      cases h
      rw [draws_loop g ord vs _ _ _ h2]
      have h1' : r1 = (Env.randomizeVehicle v rng).2 := by
        have : Except.ok (Env.randomizeVehicle v rng) = Except.ok (ε := PyErr) (w, r1) := h1
        exact (congrArg Prod.snd (Except.ok.inj this)).symm
      by_cases hl : v.kind.isLinear = true
      · have h5 : r1 = { rng with rpos := rng.rpos + 5 } := by
          rw [h1', Env.randomizeVehicle, if_pos hl]; rfl
        rw [h5, List.filter_cons_of_pos (p := fun v : Vehicle => v.kind.isLinear) hl, List.length_cons]
        dsimp only
        congr 1
        omega
      · have h5 : r1 = rng := by
          rw [h1', Env.randomizeVehicle, if_neg hl]
        rw [h5, List.filter_cons_of_neg (p := fun v : Vehicle => v.kind.isLinear) hl]
    · rw [if_neg (show ¬ Method.defined .randomizeBehavior v.kind = true from hd)] at h
      obtain ⟨⟨ws, r2⟩, h2, h⟩ := bind_ok h
      cases h
      rw [draws_loop g ord vs _ _ _ h2, List.filter_cons_of_neg (p := fun v : Vehicle => v.kind.isLinear) (fun hl => hd (hlin hl))]

/-- C106: the calls use the generator of the copy: randomising the behaviours draws five variates for every vehicle of the linear classes, in the order of the road, and none for the
others. -/
theorem call_draws (ord : SetOrder) (e e' : Env) (slots : List (Option Vehicle)) (h : e.callVehicleMethod ord .randomizeBehavior = .ok (slots, e')) :
    e'.road.rng = { e.road.rng with rpos := e.road.rng.rpos + 5 * (e.road.vehicles.filter fun v => v.kind.isLinear).length } := by
  unfold Env.callVehicleMethod at h
  obtain ⟨⟨s, rng⟩, h1, h⟩ := bind_ok h
  cases h
  exact draws_loop _ _ _ _ _ _ h1

/-- Concretely: in the sample environment, planning routes to node "1" keeps both vehicles, but asking all vehicles to choose a branch
empties the road. -/
example (ord : SetOrder) : IsPyGraph sampleEnv.road.network ∧ sampleEnv.road.vehicles.length = 2 ∧
    ∃ e', sampleEnv.callVehicleMethod ord (.setRouteAtIntersection (some 0)) = .ok ([none, none], e') ∧ e'.road.vehicles = [] := by
  refine ⟨Sample.net_py, rfl, ?_⟩
  unfold Env.callVehicleMethod
  simp [sampleEnv, Env.callLoop, Method.defined, Sample.car, VKind.isControlled, Method.call, Vehicle.setRouteAtIntersection,
    Vehicle.routesAtIntersection, Method.returnsSelf, bind, Except.bind, pure, Except.pure]

/-! ## C107 -/

/-- C107, as documented: "If stopped on the wrong lane, try a reversing maneuver": a vehicle slower than 5 m/s that is not on its target
lane, with no vehicle in the 200 m behind it on either lane, is told to reverse at half its comfortable acceleration; any other vehicle
keeps the acceleration it had chosen. -/
def RecoversFromStop (G : Globals) (r : Road) (v : Vehicle) (a result : ℝ) : Prop :=
  (v.targetLane = v.laneIndex ∨ 5 ≤ v.speed → result = a) ∧
  (v.targetLane ≠ v.laneIndex → v.speed < 5 → (∀ i ∈ [v.laneIndex, v.targetLane], ∀ f b, r.neighbourVehicles v (some i) = .ok (f, b) →
      ∀ w, b = some (.veh w) → 200 < w.laneDistanceTo v.pos) → result = -G.comfortAccMax v.kind / 2)

/-- C107: a vehicle that is moving, or on the lane it wants, keeps its acceleration… -/
theorem recover_keeps_partial (G : Globals) (r : Road) (v : Vehicle) (a : ℝ) (h : v.targetLane = v.laneIndex ∨ 5 ≤ v.speed) :
    v.recoverFromStop G r a = .ok a ∧ RecoversFromStop G r v a a := by
  refine ⟨?_, fun _ => rfl, fun h1 h2 _ => ?_⟩
  · unfold Vehicle.recoverFromStop
    rw [if_neg]
    rintro ⟨h1, h2⟩
    rcases h with h | h
    · exact h1 h
    · linarith
  · rcases h with h | h
    · exact absurd h h1
    · linarith

/-- C107: …but for a vehicle stopped on the wrong lane the method always raises `TypeError`: it passes a lane where an index is
expected. -/
theorem recover_raises (G : Globals) (r : Road) (hg : IsPyGraph r.network) (v : Vehicle) (hv : Attached r.network v) (a : ℝ)
    (hw : v.targetLane ≠ v.laneIndex) (hs : v.speed < 5) : v.recoverFromStop G r a = .error .typeError := by
  unfold Vehicle.recoverFromStop
  rw [if_pos ⟨hw, hs⟩]
  obtain ⟨f, b, hn, -, -⟩ := neighbours_nearest r v none v.lane hv.lane
  obtain ⟨l, hl⟩ := getLane_of_valid hg hv.target
  rw [hn]
  simp only [bind, Except.bind, hl, Road.neighboursOn, Road.laneOf]

/-- Hence the documented behaviour fails for some (indeed every) stuck vehicle, whatever is behind it. -/
theorem recover_not_documented (G : Globals) (r : Road) (hg : IsPyGraph r.network) (v : Vehicle) (hv : Attached r.network v) (a : ℝ)
    (hw : v.targetLane ≠ v.laneIndex) (hs : v.speed < 5) : ¬ ∃ x, v.recoverFromStop G r a = .ok x ∧ RecoversFromStop G r v a x := by
  rintro ⟨x, h, -⟩
  rw [recover_raises G r hg v hv a hw hs] at h
  cases h

/-- A stuck vehicle: stopped on the first lane of the sample road while it wants the second, with nobody behind. -/
def stuck : Vehicle := { Sample.car 0 .idm 50 0 0 with targetLane := ⟨"0", "1", 1⟩ }

/-- The road of the stuck vehicle. -/
def stuckRoad : Road := { network := Sample.net, vehicles := [stuck], rng := ⟨fun _ => 0, fun _ => 0, 0, 0⟩ }

example : IsPyGraph stuckRoad.network ∧ Attached stuckRoad.network stuck ∧ stuck.targetLane ≠ stuck.laneIndex ∧ stuck.speed < 5 :=
  ⟨Sample.net_py, ⟨⟨0, _, rfl, Sample.net_has0⟩, getLane_of_hasLane Sample.net_py rfl Sample.net_has0, ⟨1, _, rfl, Sample.net_has1⟩⟩,
    by simp [stuck, Sample.car], by norm_num [stuck, Sample.car]⟩

/-- C107: without a vehicle in front, `maximum_speed` is the target speed and nothing changes… -/
theorem maximum_speed_alone_partial (G : Globals) (v : Vehicle) (depth : ℕ) (hd : 0 < depth) :
    v.maximumSpeed G none depth = .ok (v, .speed v.targetSpeed) := by
  cases depth with
  | zero => exact absurd hd (lt_irrefl _)
  | succ n => rfl

/-- C107: …with one, it calls itself for ever: whatever recursion depth Python allows, the call ends in `RecursionError`. -/
theorem maximum_speed_recurses (G : Globals) (f : Entity) : ∀ (depth : ℕ) (v : Vehicle),
    v.maximumSpeed G (some f) depth = .error .recursionError
  | 0, _ => rfl
  | depth + 1, v => by
    have ih := maximum_speed_recurses G f depth v
    rw [Vehicle.maximumSpeed]
    dsimp only
    rw [ih]
    rfl

end HighwayEnv.Props
