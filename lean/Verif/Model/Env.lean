import Verif.Model.Action

/-!
# Model of `highway_env/envs/common/abstract.py`
-/

noncomputable section
open Classical

namespace HighwayEnv

/-- The entries of `config` read by `AbstractEnv` — abstract.py:84-110. -/
structure SimConfig where
  simulationFrequency : ℝ := 15
  policyFrequency : ℝ := 1
  manualControl : Bool := false
  action : ActionType := .single (.discrete true true)

/-- State of an environment — abstract.py:38-71.  Rendering attributes are left out.  `controlled` lists the identities of
`controlled_vehicles`, which all environments also put on the road; `goal` is the identity of the goal landmark of the parking
environments; `nextUid` is the identity given to the next created object. -/
structure Env where
  road : Road
  controlled : List ℕ
  time : ℕ := 0
  steps : ℕ := 0
  done : Bool := false
  goal : ℕ := 0
  nextUid : ℕ := 0

/-- The methods a concrete environment defines: `_is_terminal`, `_reward`, `_cost`, and what its `step` does after the common part. -/
structure EnvClass where
  terminal : Env → Py Bool
  reward : Env → Option AgentAction → Py ℝ
  cost : Env → Py ℝ := fun _ => .error .notImplementedError
  after : Env → Py Env := fun e => .ok e

/-- What `step` returns besides the observation — abstract.py:191-207. -/
structure StepResult where
  reward : ℝ
  terminal : Bool
  speed : ℝ
  crashed : Bool
  cost : Option ℝ

namespace Env

/-- `self.vehicle`: the first controlled vehicle — abstract.py:73-76.  (Accessing an attribute of `None` raises `AttributeError`.) A controlled vehicle
that was removed from the road is still referenced by the code, whereas it is looked up on the road here. -/
def vehicle (e : Env) : Py Vehicle :=
  match e.controlled with
  | [] => .error .attributeError
  | uid :: _ => match e.road.vehicle? uid with
    | none => .error .attributeError
    | some v => .ok v

/-- `int(simulation_frequency // policy_frequency)` — abstract.py:211, 215. -/
def framesPerStep (c : SimConfig) : Py Int :=
  if c.policyFrequency = 0 then .error .zeroDivisionError
  else .ok (pyInt (⌊c.simulationFrequency / c.policyFrequency⌋ : ℝ))

/-- Forwarding of the action at the first frame of a decision period — abstract.py:212-216. -/
def forward (G : Globals) (c : SimConfig) (k : Int) (e : Env) (a : Option AgentAction) : Py Env :=
  match a with
  | none => .ok e
  | some a =>
    if c.manualControl = false ∧ (e.time : Int) % k = 0 then do
      let r ← e.road.envAct G c.action e.controlled a
      return { e with road := r }
    else .ok e

/-- One iteration of the loop of `_simulate`, without the rendering — abstract.py:212-220. -/
def frame (G : Globals) (c : SimConfig) (k : Int) (a : Option AgentAction) (e : Env) : Py Env := do
  let e ← e.forward G c k a
  let r ← e.road.act G
  let r ← r.step (1 / c.simulationFrequency)
  return { e with road := r, time := e.time + 1 }

/-- `self.done or self._is_terminal()` — abstract.py:227. -/
def stops (cls : EnvClass) (e : Env) : Py Bool := if e.done then .ok true else cls.terminal e

/-- The loop of `_simulate` with `n` iterations left — abstract.py:211-228. -/
def simulateLoop (G : Globals) (c : SimConfig) (cls : EnvClass) (k : Int) (a : Option AgentAction) : ℕ → Env → Py Env
  | 0, e => .ok e
  | n + 1, e => do
    let e ← e.frame G c k a
    let b ← e.stops cls
    if b then return e else simulateLoop G c cls k a n e

/-- `_simulate` — abstract.py:209-229. -/
def simulate (G : Globals) (c : SimConfig) (cls : EnvClass) (a : Option AgentAction) (e : Env) : Py Env := do
  let k ← framesPerStep c
  simulateLoop G c cls k a k.toNat e

/-- `info["cost"]`, left out when `_cost` is not implemented — abstract.py:202-205. -/
def tryCost (cls : EnvClass) (e : Env) : Py (Option ℝ) :=
  match cls.cost e with
  | .ok x => .ok (some x)
  | .error .notImplementedError => .ok none
  | .error err => .error err

/-- `step` — abstract.py:177-207, followed by the additions of the concrete class (intersection_env.py:88-94).  The observation, made
between the simulation and the reward, is left out here and added in Model/Full (`Full.step`, which C102 relates to this function). -/
def step (G : Globals) (c : SimConfig) (cls : EnvClass) (e : Env) (a : Option AgentAction) : Py (Env × StepResult) :=
  if e.controlled = [] then .error .notImplementedError
  else do
    let e ← simulate G c cls a { e with steps := e.steps + 1 }
    let reward ← cls.reward e a
    let terminal ← cls.terminal e
    let v ← e.vehicle
    let cost ← tryCost cls e
    let e ← cls.after e
    return (e, { reward := reward, terminal := terminal, speed := v.speed, crashed := v.crashed, cost := cost })

/-- `close` — abstract.py:256-265 (the viewer is not modelled). -/
def close (e : Env) : Env := { e with done := true }

/-- `[self.action_type.actions_indexes[name]]`. -/
def actionIndex (longitudinal lateral : Bool) (a : VAction) : Py Int :=
  Dict.getItem (AgentType.actionsIndexes longitudinal lateral) a

/-- `if b: actions.append(self.action_type.actions_indexes[name])`. -/
def offer (lo la : Bool) (b : Bool) (a : VAction) : Py (List Int) :=
  if b then (actionIndex lo la a).map fun k => [k] else .ok []

/-- Lane changes offered for one side lane — abstract.py:279-287. -/
def sideActions (g : Graph) (v : Vehicle) (lo la : Bool) (i : LaneIndex) : Py (List Int) := do
  let l ← g.getLane i
  let left ← offer lo la (decide (i.id < v.laneIndex.id) && l.isReachableFrom v.pos && la) .laneLeft
  let right ← offer lo la (decide (i.id > v.laneIndex.id) && l.isReachableFrom v.pos && la) .laneRight
  return left ++ right

/-- Speed changes offered — abstract.py:288-291. -/
def speedActions (G : Globals) (v : Vehicle) (lo la : Bool) : Py (List Int) := do
  let faster ← offer lo la (decide (v.speedIndex < (G.speedCount : Int) - 1) && lo) .faster
  let slower ← offer lo la (decide (v.speedIndex > 0) && lo) .slower
  return faster ++ slower

/-- `get_available_actions` — abstract.py:267-292. -/
def availableActions (G : Globals) (c : SimConfig) (e : Env) : Py (List Int) :=
  match c.action with
  | .single (.discrete lo la) => do
    let idle ← actionIndex lo la .idle
    let v ← e.vehicle
    let sides ← e.road.network.sideLanes v.laneIndex
    let lanes ← sides.mapM (sideActions e.road.network v lo la)
    let speeds ← speedActions G v lo la
    return idle :: (lanes.flatten ++ speeds)
  | _ => .error .valueError

/-- `simplify` — abstract.py:311-323, on a deep copy (`PERCEPTION_DISTANCE = 6 * MDPVehicle.SPEED_MAX`, evaluated when the module is
loaded, hence 180). -/
def simplify (e : Env) : Py Env := do
  let v ← e.vehicle
  return { e with road := { e.road with vehicles := v :: e.road.closeVehiclesTo v 180 } }

/-- Loop of `change_vehicles` — abstract.py:337-339: new objects get fresh identities. -/
def changeLoop (G : Globals) (g : Graph) (kind : VKind) (ego : Option ℕ) : List Vehicle → ℕ → Py (List Vehicle × ℕ)
  | [], n => .ok ([], n)
  | v :: vs, n =>
    if some v.uid = ego then do
      let (ws, n) ← changeLoop G g kind ego vs n
      return (v :: ws, n)
    else do
      let w ← Vehicle.createFrom G g n kind v
      let (ws, n) ← changeLoop G g kind ego vs (n + 1)
      return (w :: ws, n)

/-- `change_vehicles` — abstract.py:325-340. -/
def changeVehicles (G : Globals) (kind : VKind) (e : Env) : Py Env := do
  let (vs, n) ← changeLoop G e.road.network kind e.controlled.head? e.road.vehicles e.nextUid
  return { e with road := { e.road with vehicles := vs }, nextUid := n }

/-- Body of `set_preferred_lane` for one vehicle — abstract.py:345-349: iterating over a route `None` raises `TypeError`. -/
def preferLane (lane : Int) (v : Vehicle) : Py Vehicle :=
  if v.kind.isIDM then
    match v.route with
    | none => .error .typeError
    | some route => .ok { v with route := some (route.map fun s => ⟨s.src, s.dst, some lane⟩), maxBraking := 1000 }
  else .ok v

/-- `set_preferred_lane` — abstract.py:342-350: does nothing when the argument is `None` or 0. -/
def setPreferredLane (lane : Option Int) (e : Env) : Py Env :=
  match lane with
  | none => .ok e
  | some k => if k = 0 then .ok e else do
    let vs ← e.road.vehicles.mapM (preferLane k)
    return { e with road := { e.road with vehicles := vs } }

/-- Loop of `set_route_at_intersection` — abstract.py:354-356. -/
def routeLoop (g : Graph) (choice : Option Int) : List Vehicle → Rng → Py (List Vehicle × Rng)
  | [], rng => .ok ([], rng)
  | v :: vs, rng =>
    if v.kind.isIDM then do
      let (w, rng) ← v.setRouteAtIntersection g rng choice
      let (ws, rng) ← routeLoop g choice vs rng
      return (w :: ws, rng)
    else do
      let (ws, rng) ← routeLoop g choice vs rng
      return (v :: ws, rng)

/-- `set_route_at_intersection` — abstract.py:352-357, on a deep copy. -/
def setRouteAtIntersection (choice : Option Int) (e : Env) : Py Env := do
  let (vs, rng) ← routeLoop e.road.network choice e.road.vehicles e.road.rng
  return { e with road := { e.road with vehicles := vs, rng := rng } }

/-- `set_vehicle_field((field, value))` — abstract.py:359-365, the assignment being given as a function on vehicles.  The test
`v is not self.vehicle` compares copied vehicles with the vehicle of the *original* environment: always true. -/
def setVehicleField (set : Vehicle → Vehicle) (e : Env) : Env :=
  { e with road := { e.road with vehicles := e.road.vehicles.map set } }

/-- `randomize_behavior` — behavior.py:60-61 (IDM: nothing), 328-333 (linear classes: parameters drawn uniformly in
`ACCELERATION_RANGE`, `STEERING_RANGE` of `LinearVehicle`, behavior.py:301-303). -/
def randomizeVehicle (v : Vehicle) (rng : Rng) : Vehicle × Rng :=
  if v.kind.isLinear then
    let (u0, rng) := rng.uniform01
    let (u1, rng) := rng.uniform01
    let (u2, rng) := rng.uniform01
    let (u3, rng) := rng.uniform01
    let (u4, rng) := rng.uniform01
    ({ v with accParams := (0.5 * (3 / 10) + u0 * (1.5 * (3 / 10) - 0.5 * (3 / 10)),
                            0.5 * (3 / 10) + u1 * (1.5 * (3 / 10) - 0.5 * (3 / 10)), 0.5 * 2 + u2 * (1.5 * 2 - 0.5 * 2))
              steerParams := (5 - 0.07 + u3 * ((5 + 0.07) - (5 - 0.07)),
                              25 / 3 - 1.5 + u4 * ((25 / 3 + 1.5) - (25 / 3 - 1.5))) }, rng)
  else (v, rng)

/-- Loop of `randomize_behaviour` — abstract.py:377-379. -/
def randomizeLoop : List Vehicle → Rng → List Vehicle × Rng
  | [], rng => ([], rng)
  | v :: vs, rng =>
    let p := if v.kind.isIDM then randomizeVehicle v rng else (v, rng)
    let q := randomizeLoop vs p.2
    (p.1 :: q.1, q.2)

/-- `randomize_behaviour` — abstract.py:375-380, on a deep copy. -/
def randomizeBehaviour (e : Env) : Env :=
  let p := randomizeLoop e.road.vehicles e.road.rng
  { e with road := { e.road with vehicles := p.1, rng := p.2 } }

end Env
end HighwayEnv
