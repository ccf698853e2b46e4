import Verif.Model.Envs.Highway

/-!
# Model of `highway_env/envs/roundabout_env.py`
-/

noncomputable section
open Classical

namespace HighwayEnv

/-- The configuration entries read by `RoundaboutEnv` — abstract.py:84-110 and roundabout_env.py:20-38. -/
structure RoundaboutConfig where
  sim : SimConfig := {}
  otherVehiclesType : VKind := .idm
  showTrajectories : Bool := false
  incomingVehicleDestination : Option Int := none
  duration : ℝ := 11

namespace Roundabout

/-- `COLLISION_REWARD` — roundabout_env.py:15. -/
def COLLISION_REWARD : ℝ := -1
/-- `HIGH_SPEED_REWARD` — roundabout_env.py:16. -/
def HIGH_SPEED_REWARD : ℝ := 2 / 10
/-- `LANE_CHANGE_REWARD` — roundabout_env.py:18. -/
def LANE_CHANGE_REWARD : ℝ := -5 / 100

/-- `lane_change = action == 0 or action == 2` — roundabout_env.py:41.  Comparing an array gives an array, whose truth value raises
`ValueError` unless it has exactly one element; `None` and tuples are different from numbers. -/
def laneChange (a : Option AgentAction) : Py Bool :=
  match a with
  | some (.index k) => .ok (decide (k = 0 ∨ k = 2))
  | some (.vector [x]) => .ok (decide (x = 0 ∨ x = 2))
  | some (.vector _) => .error .valueError
  | some (.tuple _) => .ok false
  | none => .ok false

/-- `MDPVehicle.get_speed_index(vehicle)` — controller.py:262-275: the attribute `speed_index`, or the index of the current speed for the
classes without it.  The default is computed in any case, with a division by `SPEED_MAX - SPEED_MIN`. -/
def getSpeedIndex (G : Globals) (v : Vehicle) : Py Int :=
  if G.speedMax - G.speedMin = 0 then .error .zeroDivisionError
  else .ok (if v.kind = .mdp then v.speedIndex else Vehicle.speedToIndex G v.speed)

/-- `_reward` — roundabout_env.py:40-45. -/
def reward (G : Globals) (e : Env) (a : Option AgentAction) : Py ℝ := do
  let lc ← laneChange a
  let v ← e.vehicle
  let k ← getSpeedIndex G v
  let reward := COLLISION_REWARD * Highway.ofBool v.crashed +
    HIGH_SPEED_REWARD * (k : ℝ) / (max ((G.speedCount : Int) - 1) 1 : Int) + LANE_CHANGE_REWARD * Highway.ofBool lc
  return lmap reward (COLLISION_REWARD + LANE_CHANGE_REWARD, HIGH_SPEED_REWARD) (0, 1)

/-- `_is_terminal` — roundabout_env.py:47-49. -/
def terminal (cfg : RoundaboutConfig) (e : Env) : Py Bool := do
  let v ← e.vehicle
  return v.crashed || decide (cfg.duration ≤ e.steps)

/-- `np.deg2rad`. -/
def deg2rad (x : ℝ) : ℝ := x * (Real.pi / 180)

/-- `CircularLane(center, radii[lane], np.deg2rad(a), np.deg2rad(b), clockwise=False, ...)` — roundabout_env.py:57, 62, 67-90. -/
def circle (lane : ℕ) (a b : ℝ) : Lane :=
  { shape := .circular ⟨0, 0⟩ (if lane = 0 then 20 else 20 + 4) (deg2rad a) (deg2rad b) false }

/-- One iteration of the loop over the two lanes of the circle — roundabout_env.py:65-90, `alpha` being 24 degrees. -/
def circleLanes (g : Graph) (lane : ℕ) : Graph :=
  let alpha : ℝ := 24
  let g := g.addLane "se" "ex" (circle lane (90 - alpha) alpha)
  let g := g.addLane "ex" "ee" (circle lane alpha (-alpha))
  let g := g.addLane "ee" "nx" (circle lane (-alpha) (-90 + alpha))
  let g := g.addLane "nx" "ne" (circle lane (-90 + alpha) (-90 - alpha))
  let g := g.addLane "ne" "wx" (circle lane (-90 - alpha) (-180 + alpha))
  let g := g.addLane "wx" "we" (circle lane (-180 + alpha) (-180 - alpha))
  let g := g.addLane "we" "sx" (circle lane (180 - alpha) (90 + alpha))
  g.addLane "sx" "se" (circle lane (90 + alpha) (90 - alpha))

/-- `access` — roundabout_env.py:93. -/
def access : ℝ := 170
/-- `dev` — roundabout_env.py:94. -/
def dev : ℝ := 85
/-- `a` — roundabout_env.py:95. -/
def amp : ℝ := 5
/-- `delta_st` — roundabout_env.py:96. -/
def deltaSt : ℝ := 2 / 10 * dev
/-- `delta_en` — roundabout_env.py:98. -/
def deltaEn : ℝ := dev - deltaSt
/-- `w` — roundabout_env.py:99. -/
def puls : ℝ := 2 * Real.pi / dev

/-- A straight lane. -/
def straight (a b : Vec2) : Lane := { shape := .straight a b }
/-- `SineLane(a, b, a, w, -np.pi / 2)` — the entries, roundabout_env.py:101, 106, 111, 116. -/
def entrySine (a b : Vec2) : Lane := { shape := .sine a b amp puls (-Real.pi / 2) }
/-- `SineLane(a, b, a, w, -np.pi / 2 + w * delta_en)` — the exits, roundabout_env.py:102, 107, 112, 117. -/
def exitSine (a b : Vec2) : Lane := { shape := .sine a b amp puls (-Real.pi / 2 + puls * deltaEn) }

/-- The access lanes — roundabout_env.py:100-118. -/
def accessLanes (g : Graph) : Graph :=
  let g := g.addLane "ser" "ses" (straight ⟨2, access⟩ ⟨2, dev / 2⟩)
  let g := g.addLane "ses" "se" (entrySine ⟨2 + amp, dev / 2⟩ ⟨2 + amp, dev / 2 - deltaSt⟩)
  let g := g.addLane "sx" "sxs" (exitSine ⟨-2 - amp, -dev / 2 + deltaEn⟩ ⟨-2 - amp, dev / 2⟩)
  let g := g.addLane "sxs" "sxr" (straight ⟨-2, dev / 2⟩ ⟨-2, access⟩)
  let g := g.addLane "eer" "ees" (straight ⟨access, -2⟩ ⟨dev / 2, -2⟩)
  let g := g.addLane "ees" "ee" (entrySine ⟨dev / 2, -2 - amp⟩ ⟨dev / 2 - deltaSt, -2 - amp⟩)
  let g := g.addLane "ex" "exs" (exitSine ⟨-dev / 2 + deltaEn, 2 + amp⟩ ⟨dev / 2, 2 + amp⟩)
  let g := g.addLane "exs" "exr" (straight ⟨dev / 2, 2⟩ ⟨access, 2⟩)
  let g := g.addLane "ner" "nes" (straight ⟨-2, -access⟩ ⟨-2, -dev / 2⟩)
  let g := g.addLane "nes" "ne" (entrySine ⟨-2 - amp, -dev / 2⟩ ⟨-2 - amp, -dev / 2 + deltaSt⟩)
  let g := g.addLane "nx" "nxs" (exitSine ⟨2 + amp, dev / 2 - deltaEn⟩ ⟨2 + amp, -dev / 2⟩)
  let g := g.addLane "nxs" "nxr" (straight ⟨2, -dev / 2⟩ ⟨2, -access⟩)
  let g := g.addLane "wer" "wes" (straight ⟨-access, 2⟩ ⟨-dev / 2, 2⟩)
  let g := g.addLane "wes" "we" (entrySine ⟨-dev / 2, 2 + amp⟩ ⟨-dev / 2 + deltaSt, 2 + amp⟩)
  let g := g.addLane "wx" "wxs" (exitSine ⟨dev / 2 - deltaEn, -2 - amp⟩ ⟨-dev / 2, -2 - amp⟩)
  g.addLane "wxs" "wxr" (straight ⟨-dev / 2, -2⟩ ⟨-access, -2⟩)

/-- The network of `_make_road` — roundabout_env.py:55-118. -/
def network : Graph := accessLanes (circleLanes (circleLanes [] 0) 1)

/-- `_make_road` — roundabout_env.py:55-121. -/
def makeRoad (cfg : RoundaboutConfig) (rng : Rng) : Road where
  network := network
  rng := rng
  recordHistory := cfg.showTrajectories

/-- `try: ego_vehicle.plan_route_to("nxs") except AttributeError: pass` — roundabout_env.py:139-142: the classes without lane controller
have no such method. -/
def planEgo (g : Graph) (ord : Graph.SetOrder) (v : Vehicle) : Py Vehicle :=
  if v.kind.isControlled then v.planRouteTo g ord "nxs" else .ok v

/-- The ego vehicle — roundabout_env.py:133-142. -/
def ego (G : Globals) (cfg : RoundaboutConfig) (ord : Graph.SetOrder) (g : Graph) : Py Vehicle := do
  let l ← g.getLane ⟨"ser", "ses", 0⟩
  let v ← Vehicle.mk' G g 0 cfg.sim.action.agent.vehicleClass (l.position 125 0) (l.headingAt 140) 8
  planEgo g ord v

/-- The class attributes assigned by `_make_vehicles` — roundabout_env.py:143-145.  They hold from then on, for every environment. -/
def ladder (G : Globals) : Globals := { G with speedMin := 0, speedMax := 16, speedCount := 3 }

/-- `destinations` — roundabout_env.py:150. -/
def destinations : List String := ["exr", "sxr", "nxr"]

/-- The destination of the incoming vehicle — roundabout_env.py:157-160. -/
def incoming (cfg : RoundaboutConfig) (rng : Rng) : Py (String × Rng) :=
  match cfg.incomingVehicleDestination with
  | some k => do
    let d ← pyIndex destinations k
    return (d, rng)
  | none => rng.choice destinations

/-- `vehicle.plan_route_to(d); vehicle.randomize_behavior()` — roundabout_env.py:161-162: the former exists in the controlled classes, the latter
only in the IDM classes. -/
def prepare (g : Graph) (ord : Graph.SetOrder) (v : Vehicle) (d : String) (rng : Rng) : Py (Vehicle × Rng) :=
  if v.kind.isIDM then do
    let v ← v.planRouteTo g ord d
    return Env.randomizeVehicle v rng
  else .error .attributeError

/-- One vehicle of the traffic: `other_vehicles_type.make_on_lane(road, i, longitudinal=s + randn() * 2, speed=16 + randn() * 2)`, then
route, behaviour and insertion — roundabout_env.py:152-163, 167-173, 176-182.  `pick` chooses the destination. -/
def addVehicle (G : Globals) (kind : VKind) (ord : Graph.SetOrder) (pick : Rng → Py (String × Rng)) (i : LaneIndex) (s : ℝ) (uid : ℕ) (r : Road) :
    Py Road := do
  let x := r.rng.normal
  let y := x.2.normal
  let v ← Vehicle.makeOnLane G r.network uid kind i (s + x.1 * 2) (some (16 + y.1 * 2))
  let (d, rng) ← pick y.2
  let (v, rng) ← prepare r.network ord v d rng
  return { r with vehicles := r.vehicles ++ [v], rng := rng }

/-- `_make_vehicles` — roundabout_env.py:123-182.  The ego vehicle is built before the class attributes are assigned. -/
def makeVehicles (G : Globals) (cfg : RoundaboutConfig) (ord : Graph.SetOrder) (r : Road) : Py (Globals × Road) := do
  let v ← ego G cfg ord r.network
  let G := ladder G
  let any : Rng → Py (String × Rng) := fun rng => rng.choice destinations
  let r := { r with vehicles := r.vehicles ++ [v] }
  let r ← addVehicle G cfg.otherVehiclesType ord (incoming cfg) ⟨"we", "sx", 1⟩ 5 1 r
  let r ← addVehicle G cfg.otherVehiclesType ord any ⟨"we", "sx", 0⟩ (20 * 1) 2 r
  let r ← addVehicle G cfg.otherVehiclesType ord any ⟨"we", "sx", 0⟩ (20 * (-1)) 3 r
  let r ← addVehicle G cfg.otherVehiclesType ord any ⟨"eer", "ees", 0⟩ 50 4 r
  return (G, r)

/-- `reset` — abstract.py:157-168 with roundabout_env.py:51-53: it also returns the class attributes it leaves behind.  `ord` is the
iteration order of Python sets, on which the breadth-first search depends. -/
def reset (G : Globals) (cfg : RoundaboutConfig) (ord : Graph.SetOrder) (rng : Rng) : Py (Globals × Env) := do
  let _ ← cfg.sim.action.agent.init
  let (G, r) ← makeVehicles G cfg ord (makeRoad cfg rng)
  return (G, { road := r, controlled := [0], nextUid := 5 })

/-- `RoundaboutEnv` as an environment class; `_cost` is not implemented. -/
def cls (G : Globals) (cfg : RoundaboutConfig) : EnvClass where
  terminal := terminal cfg
  reward := reward G

end Roundabout
end HighwayEnv
