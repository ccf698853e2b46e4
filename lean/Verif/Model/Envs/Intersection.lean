import Verif.Model.Envs.Highway

/-!
# Model of `highway_env/envs/intersection_env.py`
-/

noncomputable section
open Classical

namespace HighwayEnv

/-- The configuration entries read by `IntersectionEnv` — abstract.py:84-110 and intersection_env.py:26-60.  (`MultiAgentIntersectionEnv`,
intersection_env.py:247-267, only changes the action type, the observation and `controlled_vehicles`.) -/
structure IntersectionConfig where
  sim : SimConfig := { action := .single (.discrete true false) }
  otherVehiclesType : VKind := .idm
  showTrajectories : Bool := false
  duration : ℝ := 13
  destination : Option String := some "o1"
  controlledVehicles : ℕ := 1
  initialVehicleCount : ℕ := 10
  spawnProbability : ℝ := 6 / 10
  collisionReward : ℝ := -5
  normalizeReward : Bool := false

/-- `sub in s` for strings. -/
def strIn (sub s : String) : Bool := decide (sub.toList <:+: s.toList)

namespace Intersection

/-- `HIGH_SPEED_REWARD` — intersection_env.py:16. -/
def HIGH_SPEED_REWARD : ℝ := 1
/-- `ARRIVED_REWARD` — intersection_env.py:17. -/
def ARRIVED_REWARD : ℝ := 1

/-- `has_arrived` — intersection_env.py:236-239. -/
def hasArrived (v : Vehicle) : Bool :=
  strIn "il" v.laneIndex.src && strIn "o" v.laneIndex.dst && decide (25 ≤ (v.lane.localCoordinates v.pos).1)

/-- `_agent_reward` — intersection_env.py:67-73: `speed_index` exists only in the class `MDPVehicle`; `SPEED_COUNT` is the one of the ego
vehicle, given by `G` (see `egoLadder`). -/
def agentReward (G : Globals) (cfg : IntersectionConfig) (v : Vehicle) : Py ℝ :=
  if v.kind = .mdp then
    let reward := cfg.collisionReward * Highway.ofBool v.crashed +
      HIGH_SPEED_REWARD * Highway.ofBool (decide (v.speedIndex = (G.speedCount : Int) - 1))
    let reward := if hasArrived v then ARRIVED_REWARD else reward
    .ok (if cfg.normalizeReward then lmap reward (cfg.collisionReward, ARRIVED_REWARD) (0, 1) else reward)
  else .error .attributeError

/-- `self.controlled_vehicles`, looked up on the road — abstract.py:50.  Simplification: the code keeps references, so that a controlled
vehicle that was removed from the road is still read (unmoving); the lookup raises instead. -/
def egos (e : Env) : Py (List Vehicle) :=
  e.controlled.mapM fun uid => match e.road.vehicle? uid with
    | none => .error .attributeError
    | some v => .ok v

/-- `_reward` — intersection_env.py:62-65: the mean over the controlled vehicles. -/
def reward (G : Globals) (cfg : IntersectionConfig) (e : Env) : Py ℝ := do
  let vs ← egos e
  let xs ← vs.mapM (agentReward G cfg)
  if xs.length = 0 then .error .zeroDivisionError else .ok (xs.sum / xs.length)

/-- `self.steps >= self.config["duration"] * self.config["policy_frequency"]` — intersection_env.py:78, 83. -/
def timeout (cfg : IntersectionConfig) (e : Env) : Bool := decide (cfg.duration * cfg.sim.policyFrequency ≤ e.steps)

/-- `_is_terminal` — intersection_env.py:75-78. -/
def terminal (cfg : IntersectionConfig) (e : Env) : Py Bool := do
  let vs ← egos e
  return vs.any (·.crashed) || vs.all hasArrived || timeout cfg e

/-- `_agent_is_terminal` — intersection_env.py:80-84. -/
def agentTerminal (cfg : IntersectionConfig) (e : Env) (v : Vehicle) : Bool := v.crashed || timeout cfg e || hasArrived v

/-- `info["agents_rewards"]` and `info["agents_dones"]` — intersection_env.py:92-93. -/
def agentsInfo (G : Globals) (cfg : IntersectionConfig) (e : Env) : Py (List ℝ × List Bool) := do
  let vs ← egos e
  let xs ← vs.mapM (agentReward G cfg)
  return (xs, vs.map (agentTerminal cfg e))

/-- `_cost` — intersection_env.py:241-243. -/
def cost (e : Env) : Py ℝ := do
  let v ← e.vehicle
  return Highway.ofBool v.crashed

/-! ### The map — intersection_env.py:96-159 -/

/-- `"x" + str(k)`. -/
def node (p : String) (k : ℕ) : String := p ++ toString k

/-- `np.radians`. -/
def radians (x : ℝ) : ℝ := x * (Real.pi / 180)

/-- `rotation @ v` with `rotation` of `angle` — intersection_env.py:124. -/
def rotate (angle : ℝ) (v : Vec2) : Vec2 :=
  ⟨Real.cos angle * v.x + -Real.sin angle * v.y, Real.sin angle * v.x + Real.cos angle * v.y⟩

/-- `right_turn_radius` — intersection_env.py:113. -/
def rightTurnRadius : ℝ := Lane.DEFAULT_WIDTH + 5
/-- `left_turn_radius` — intersection_env.py:114. -/
def leftTurnRadius : ℝ := rightTurnRadius + Lane.DEFAULT_WIDTH
/-- `outer_distance` — intersection_env.py:115. -/
def outerDistance : ℝ := rightTurnRadius + Lane.DEFAULT_WIDTH / 2
/-- `access_length` — intersection_env.py:116. -/
def accessLength : ℝ := 50 + 50

/-- A straight lane with its priority and the speed limit of 10 m/s. -/
def straight (a b : Vec2) (priority : Int) : Lane := { shape := .straight a b, priority := priority, speedLimit := 10 }

/-- The lanes of one corner — intersection_env.py:120-155. -/
def cornerLanes (g : Graph) (corner : ℕ) : Graph :=
  let angle := radians (90 * corner)
  let priority : Int := if corner % 2 ≠ 0 then 3 else 1
  let w := Lane.DEFAULT_WIDTH
  let g := g.addLane (node "o" corner) (node "ir" corner)
    (straight (rotate angle ⟨w / 2, accessLength + outerDistance⟩) (rotate angle ⟨w / 2, outerDistance⟩) priority)
  let g := g.addLane (node "ir" corner) (node "il" ((corner + 3) % 4))
    { shape := .circular (rotate angle ⟨outerDistance, outerDistance⟩) rightTurnRadius (angle + radians 180) (angle + radians 270) true
      priority := priority, speedLimit := 10 }
  let g := g.addLane (node "ir" corner) (node "il" ((corner + 1) % 4))
    { shape := .circular (rotate angle ⟨-leftTurnRadius + w / 2, leftTurnRadius - w / 2⟩) leftTurnRadius (angle + radians 0)
        (angle + radians (-90)) false
      priority := priority - 1, speedLimit := 10 }
  let g := g.addLane (node "ir" corner) (node "il" ((corner + 2) % 4))
    (straight (rotate angle ⟨w / 2, outerDistance⟩) (rotate angle ⟨w / 2, -outerDistance⟩) priority)
  g.addLane (node "il" ((corner + 3) % 4)) (node "o" ((corner + 3) % 4))
    (straight (rotate angle ⟨outerDistance, w / 2⟩) (rotate angle ⟨accessLength + outerDistance, w / 2⟩) priority)

/-- The network of `_make_road` — intersection_env.py:118-155. -/
def network : Graph := (List.range 4).foldl cornerLanes []

/-- `_make_road` — intersection_env.py:96-159. -/
def makeRoad (cfg : IntersectionConfig) (rng : Rng) : Road where
  network := network
  rng := rng
  recordHistory := cfg.showTrajectories
  regulated := true

/-! ### Traffic -/

/-- The class `a` is `b` or inherits from it — behavior.py:11, 293, 480, 492. -/
def inherits (a b : VKind) : Bool :=
  match a, b with
  | .idm, .idm | .linear, .idm | .aggressive, .idm | .defensive, .idm => true
  | .linear, .linear | .aggressive, .linear | .defensive, .linear => true
  | .aggressive, .aggressive | .defensive, .defensive => true
  | _, _ => false

/-- The class attributes assigned by `_make_vehicles` — intersection_env.py:163-166: they hold for the configured class and those inheriting
from it, in every environment.  (A subclass on which the attribute had been assigned before would keep its own value: not modelled.) -/
def setTraffic (kind : VKind) (G : Globals) : Globals :=
  { G with distanceWanted := fun k => if inherits k kind then 7 else G.distanceWanted k
           comfortAccMax := fun k => if inherits k kind then 6 else G.comfortAccMax k
           comfortAccMin := fun k => if inherits k kind then -3 else G.comfortAccMin k }

/-- The ladder of the ego vehicles: `SPEED_MIN`, `SPEED_MAX` and `SPEED_COUNT` are assigned on these vehicles only — intersection_env.py:191-193.
As only they are discrete-action vehicles, the simulation with these class attributes is the same. -/
def egoLadder (G : Globals) : Globals := { G with speedMin := 0, speedMax := 9, speedCount := 3 }

/-- `np_random.choice(range(4), size=2, replace=False)`: two different numbers below 4. -/
def twoSides (rng : Rng) : Py ((ℕ × ℕ) × Rng) := do
  let (a, rng) ← rng.randint 4
  let (b, rng) ← rng.randint 3
  return ((a, if b < a then b else b + 1), rng)

/-- An identity not in use: objects are created with the next number. -/
def freshUid (vs : List Vehicle) (n : ℕ) : ℕ := vs.foldr (fun v m => max (v.uid + 1) m) n

/-- The second half of `_spawn_vehicle` — intersection_env.py:219-225: `plan_route_to` exists in the controlled classes, `randomize_behavior`
only in the IDM classes. -/
def prepare (g : Graph) (ord : Graph.SetOrder) (v : Vehicle) (d : String) (rng : Rng) : Py (Vehicle × Rng) :=
  if v.kind.isIDM then do
    let v ← v.planRouteTo g ord d
    return Env.randomizeVehicle v rng
  else .error .attributeError

/-- `_spawn_vehicle` — intersection_env.py:203-225, on the road and the identity of the next object. -/
def spawn (G : Globals) (kind : VKind) (ord : Graph.SetOrder) (longitudinal posDev speedDev prob : ℝ) (goStraight : Bool) (s : Road × ℕ) :
    Py (Road × ℕ) := do
  let r := s.1
  let u := r.rng.uniform01
  if prob < u.1 then return ({ r with rng := u.2 }, s.2)
  else do
    let (ab, rng) ← twoSides u.2
    let b := if goStraight then (ab.1 + 2) % 4 else ab.2
    let x := rng.normal
    let y := x.2.normal
    let uid := freshUid r.vehicles s.2
    let v ← Vehicle.makeOnLane G r.network uid kind ⟨node "o" ab.1, node "ir" ab.1, 0⟩ (longitudinal + 5 + x.1 * posDev) (some (8 + y.1 * speedDev))
    if r.vehicles.any fun w => decide ((w.pos - v.pos).norm < 15) then return ({ r with rng := y.2 }, s.2)
    else do
      let (v, rng) ← prepare r.network ord v (node "o" b) y.2
      return ({ r with vehicles := r.vehicles ++ [v], rng := rng }, uid + 1)

/-- `is_leaving` — intersection_env.py:228-230. -/
def isLeaving (v : Vehicle) : Bool :=
  strIn "il" v.laneIndex.src && strIn "o" v.laneIndex.dst && decide (v.lane.length - 4 * Vehicle.LENGTH ≤ (v.lane.localCoordinates v.pos).1)

/-- `_clear_vehicles` — intersection_env.py:227-232. -/
def clear (e : Env) : Env :=
  { e with road := { e.road with vehicles := e.road.vehicles.filter fun v => decide (v.uid ∈ e.controlled) || !(isLeaving v || v.route.isNone) } }

/-- What `step` does after the common part — intersection_env.py:90-91. -/
def after (G : Globals) (cfg : IntersectionConfig) (ord : Graph.SetOrder) (e : Env) : Py Env := do
  let e := clear e
  let (r, n) ← spawn G cfg.otherVehiclesType ord 0 1 1 cfg.spawnProbability false (e.road, e.nextUid)
  return { e with road := r, nextUid := n }

/-- `np.linspace(0, 80, n)[t]`. -/
def linspace80 (n t : ℕ) : ℝ := 80 * t / (n - 1)

/-- The loop spawning the initial traffic — intersection_env.py:170-171. -/
def spawnAll (G : Globals) (cfg : IntersectionConfig) (ord : Graph.SetOrder) (s : Road × ℕ) : Py (Road × ℕ) :=
  (List.range (cfg.initialVehicleCount - 1)).foldlM
    (fun s t => spawn G cfg.otherVehiclesType ord (linspace80 cfg.initialVehicleCount t) 1 1 (6 / 10) false s) s

/-- `self.road.act(), self.road.step(1 / simulation_frequency)` — intersection_env.py:173. -/
def runFrame (G : Globals) (dt : ℝ) (r : Road) : Py Road := do
  let r ← r.act G
  r.step dt

/-- `n` such frames. -/
def runFrames (G : Globals) (dt : ℝ) : ℕ → Road → Py Road
  | 0, r => .ok r
  | n + 1, r => do
    let r ← runFrame G dt r
    runFrames G dt n r

/-- `range(simulation_frequency)` — intersection_env.py:173: `TypeError` if it is not an integer. -/
def warmupFrames (cfg : IntersectionConfig) : Py ℕ :=
  if (⌊cfg.sim.simulationFrequency⌋ : ℝ) = cfg.sim.simulationFrequency then .ok (3 * ⌊cfg.sim.simulationFrequency⌋.toNat) else .error .typeError

/-- `self.config["destination"] or "o" + str(np_random.randint(1, 4))` — intersection_env.py:182. -/
def egoDestination (cfg : IntersectionConfig) (rng : Rng) : Py (String × Rng) :=
  match cfg.destination with
  | some d => if d ≠ "" then .ok (d, rng) else randomDestination rng
  | none => randomDestination rng
where
  /-- `"o" + str(np_random.randint(1, 4))`. -/
  randomDestination (rng : Rng) : Py (String × Rng) := do
    let (k, rng) ← rng.randint 3
    return (node "o" (k + 1), rng)

/-- `for v in vehicles: if near(v): vehicles.remove(v)` — intersection_env.py:198-200: removing an element from the list being iterated makes the
loop skip the next one. -/
def removeWhileIterating (near : Vehicle → Bool) : List Vehicle → List Vehicle
  | [] => []
  | v :: vs =>
    if near v then
      match vs with
      | [] => []
      | w :: ws => w :: removeWhileIterating near ws
    else v :: removeWhileIterating near vs

/-- One iteration of the loop creating the controlled vehicles — intersection_env.py:179-200.  The ladder of the vehicle is the one of
`egoLadder`; classes without `plan_route_to` raise `AttributeError`, and so do those without `speed_to_index`. -/
def addEgo (G : Globals) (cfg : IntersectionConfig) (ord : Graph.SetOrder) (s : Road × ℕ × List ℕ) (k : ℕ) : Py (Road × ℕ × List ℕ) := do
  let r := s.1
  let l ← r.network.getLane ⟨node "o" (k % 4), node "ir" (k % 4), 0⟩
  let (d, rng) ← egoDestination cfg r.rng
  let x := rng.normal
  let uid := freshUid r.vehicles s.2.1
  let v ← Vehicle.mk' G r.network uid cfg.sim.action.agent.vehicleClass (l.position (60 + 5 * x.1) 0) (l.headingAt 60) l.speedLimit
  if v.kind = .mdp then do
    let v ← v.planRouteTo r.network ord d
    let i := Vehicle.speedToIndex (egoLadder G) l.speedLimit
    let v := { v with speedIndex := i, targetSpeed := Vehicle.indexToSpeed (egoLadder G) i }
    let vs := removeWhileIterating (fun w => decide (w.uid ≠ uid) && decide ((w.pos - v.pos).norm < 20)) (r.vehicles ++ [v])
    return ({ r with vehicles := vs, rng := x.2 }, uid + 1, s.2.2 ++ [uid])
  else .error .attributeError

/-- `_make_vehicles` — intersection_env.py:161-200.  The class attributes are assigned first. -/
def makeVehicles (G : Globals) (cfg : IntersectionConfig) (ord : Graph.SetOrder) (r : Road) : Py (Globals × Road × ℕ × List ℕ) := do
  let G := setTraffic cfg.otherVehiclesType G
  let s ← spawnAll G cfg ord (r, 0)
  let n ← warmupFrames cfg
  let r ← runFrames G (1 / cfg.sim.simulationFrequency) n s.1
  let s ← spawn G cfg.otherVehiclesType ord 60 (1 / 10) 0 1 true (r, s.2)
  let t ← (List.range cfg.controlledVehicles).foldlM (addEgo G cfg ord) (s.1, s.2, [])
  return (G, t)

/-- `reset` — abstract.py:157-168 with intersection_env.py:86-88: it also returns the class attributes it leaves behind. -/
def reset (G : Globals) (cfg : IntersectionConfig) (ord : Graph.SetOrder) (rng : Rng) : Py (Globals × Env) := do
  let _ ← cfg.sim.action.agent.init
  let (G, r, n, egos) ← makeVehicles G cfg ord (makeRoad cfg rng)
  return (G, { road := r, controlled := egos, nextUid := n })

/-- `IntersectionEnv` as an environment class, `G` being the class attributes left by its reset. -/
def cls (G : Globals) (cfg : IntersectionConfig) (ord : Graph.SetOrder) : EnvClass where
  terminal := terminal cfg
  reward e _ := reward (egoLadder G) cfg e
  cost := cost
  after := after G cfg ord

end Intersection
end HighwayEnv
