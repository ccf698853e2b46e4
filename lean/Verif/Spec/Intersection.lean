import Verif.Model.Envs.Intersection
import Verif.Spec.Roundabout

/-!
# Specification vocabulary: the intersection environment
-/

noncomputable section
open Classical
namespace HighwayEnv.Spec
open HighwayEnv

/-- A straight lane of 4 m, limited to 10 m/s, with a priority. -/
def roadLane (a b : Vec2) (priority : Int) : Lane := { shape := .straight a b, speedLimit := 10, priority := priority }

/-- A lane of 4 m along an arc, from angle `a` to angle `b` (degrees), limited to 10 m/s, with a priority. -/
def turnLane (center : Vec2) (radius a b : ℝ) (clockwise : Bool) (priority : Int) : Lane :=
  { shape := .circular center radius (a * (Real.pi / 180)) (b * (Real.pi / 180)) clockwise, speedLimit := 10, priority := priority }

/-- The map of the intersection.  Sides: 0 south (`y > 0`), 1 west, 2 north, 3 east.  Each side `k` has an access `ok → irk` of 100 m and an exit
`ilk → ok` of 100 m; from `irk` one can turn right, turn left or go straight to the `il` of the three other sides.  Going straight or turning right
has priority 3 on the horizontal road and 1 on the vertical one, turning left 2 and 0. -/
def interNet : Graph :=
  [("o0", [("ir0", [roadLane ⟨2, 111⟩ ⟨2, 11⟩ 1])]),
   ("ir0", [("il3", [turnLane ⟨11, 11⟩ 9 180 270 true 1]), ("il1", [turnLane ⟨-11, 11⟩ 13 0 (-90) false 0]), ("il2", [roadLane ⟨2, 11⟩ ⟨2, -11⟩ 1])]),
   ("il3", [("o3", [roadLane ⟨11, 2⟩ ⟨111, 2⟩ 1])]),
   ("o1", [("ir1", [roadLane ⟨-111, 2⟩ ⟨-11, 2⟩ 3])]),
   ("ir1", [("il0", [turnLane ⟨-11, 11⟩ 9 270 360 true 3]), ("il2", [turnLane ⟨-11, -11⟩ 13 90 0 false 2]), ("il3", [roadLane ⟨-11, 2⟩ ⟨11, 2⟩ 3])]),
   ("il0", [("o0", [roadLane ⟨-2, 11⟩ ⟨-2, 111⟩ 3])]),
   ("o2", [("ir2", [roadLane ⟨-2, -111⟩ ⟨-2, -11⟩ 1])]),
   ("ir2", [("il1", [turnLane ⟨-11, -11⟩ 9 360 450 true 1]), ("il3", [turnLane ⟨11, -11⟩ 13 180 90 false 0]), ("il0", [roadLane ⟨-2, -11⟩ ⟨-2, 11⟩ 1])]),
   ("il1", [("o1", [roadLane ⟨-11, -2⟩ ⟨-111, -2⟩ 1])]),
   ("o3", [("ir3", [roadLane ⟨111, -2⟩ ⟨11, -2⟩ 3])]),
   ("ir3", [("il2", [turnLane ⟨11, -11⟩ 9 450 540 true 3]), ("il0", [turnLane ⟨11, 11⟩ 13 270 180 false 2]), ("il1", [roadLane ⟨11, -2⟩ ⟨-11, -2⟩ 3])]),
   ("il2", [("o2", [roadLane ⟨2, -11⟩ ⟨2, -111⟩ 3])])]

/-- The names of the nodes: outer end of side `k`, entry and exit of the crossing. -/
def outer (k : Fin 4) : String := ["o0", "o1", "o2", "o3"][k]
/-- The node where the access of side `k` reaches the crossing. -/
def ingress (k : Fin 4) : String := ["ir0", "ir1", "ir2", "ir3"][k]
/-- The node where the exit towards side `k` leaves the crossing. -/
def leave (k : Fin 4) : String := ["il0", "il1", "il2", "il3"][k]

/-- The roads of a trip from side `a` to side `b`. -/
def crossing (lane : Int) (a b : Fin 4) : List RouteStep := [⟨outer a, ingress a, some lane⟩, ⟨ingress a, leave b, none⟩, ⟨leave b, outer b, none⟩]

/-- A vehicle is on the exit lane of side `k`, at least `d` metres after the crossing. -/
def OnExit (v : Vehicle) (d : ℝ) : Prop := ∃ k : Fin 4, v.laneIndex.src = leave k ∧ v.laneIndex.dst = outer k ∧ d ≤ (v.lane.localCoordinates v.pos).1

/-- The access lane of side `k`. -/
def accessLane (k : Fin 4) : Lane :=
  [roadLane ⟨2, 111⟩ ⟨2, 11⟩ 1, roadLane ⟨-111, 2⟩ ⟨-11, 2⟩ 3, roadLane ⟨-2, -111⟩ ⟨-2, -11⟩ 1, roadLane ⟨111, -2⟩ ⟨11, -2⟩ 3][k]

/-- A vehicle that has just been put among `others`: a new object on the access of side `a`, `s` metres after its start, at least 15 m away from all
others, bound for side `b`. -/
structure Newcomer (kind : VKind) (others : List Vehicle) (a b : Fin 4) (s speed : ℝ) (v : Vehicle) : Prop where
  kind : v.kind = kind
  fresh : ∀ w ∈ others, w.uid ≠ v.uid
  apart : ∀ w ∈ others, 15 ≤ (w.pos - v.pos).norm
  pos : v.pos = (accessLane a).position s 0
  heading : v.heading = (accessLane a).headingAt s
  speed : v.speed = speed
  attached : Attached interNet v
  target : v.targetLane = v.laneIndex
  elsewhere : a ≠ b
  routed : v.route.isSome = true
  route : RouteExists interNet v.route
  precise : RoutePrecise interNet v.route
  start : (v.route.getD []).head? = some v.laneIndex.toStep
  trip : 0 ≤ s → s < 100 → v.laneIndex = ⟨outer a, ingress a, 0⟩ ∧ v.route = some (crossing 0 a b)
  crashed : v.crashed = false
  calm : v.isYielding = false

/-- The score of one agent of the intersection: 1 once arrived; otherwise the collision reward if crashed, plus 1 at the highest speed level. -/
def interScore (collision : ℝ) (arrived crashed top : Prop) [Decidable arrived] [Decidable crashed] [Decidable top] : ℝ :=
  if arrived then 1 else (if crashed then collision else 0) + (if top then 1 else 0)

/-- The affine map that sends the collision reward to 0 and 1 to 1. -/
def normalised (collision x : ℝ) : ℝ := (x - collision) / (1 - collision)

/-- The score of one agent with the configuration: its speed level is the highest one when it is 2; normalised if so configured. -/
def agentScore (cfg : IntersectionConfig) (v : Vehicle) : ℝ :=
  let x := interScore cfg.collisionReward (OnExit v 25) (v.crashed = true) (v.speedIndex = 2)
  if cfg.normalizeReward then normalised cfg.collisionReward x else x

/-- The configured time is over. -/
def TimeOver (cfg : IntersectionConfig) (steps : ℕ) : Prop := cfg.duration * cfg.sim.policyFrequency ≤ steps

/-- The controlled vehicles of an environment, in order: vehicles of the road with these identities. -/
def Agents (e : Env) (vs : List Vehicle) : Prop := vs.map (·.uid) = e.controlled ∧ ∀ v ∈ vs, v ∈ e.road.vehicles

/-- The average of a list of numbers. -/
def mean (xs : List ℝ) : ℝ := xs.sum / xs.length

/-- Configurations of the intersection with which episodes can be played: meta-actions, one agent or several; IDM traffic; an integer simulation
frequency of at least 2 Hz; a collision penalty. -/
structure InterOk (cfg : IntersectionConfig) : Prop where
  action : ∃ lo la, (cfg.sim.action = .single (.discrete lo la) ∨ cfg.sim.action = .multi (.discrete lo la)) ∧ (lo = true ∨ la = true)
  traffic : cfg.otherVehiclesType.isIDM = true
  someone : 1 ≤ cfg.controlledVehicles
  frequency : ∃ n : ℕ, 2 ≤ n ∧ cfg.sim.simulationFrequency = n
  penalty : cfg.collisionReward ≤ 0

/-- A vehicle of the intersection: an agent or a vehicle of the traffic (of class `kind`), on the map, with a route along existing roads; agents have one
of the three speed levels. -/
structure InterVehicle (kind : VKind) (v : Vehicle) : Prop where
  kind : v.kind = .mdp ∨ v.kind = kind
  attached : Attached interNet v
  route : RouteExists interNet v.route
  precise : RoutePrecise interNet v.route
  yielding : v.isYielding = true → v.hasColor = true
  level : v.kind = .mdp → 0 ≤ v.speedIndex ∧ v.speedIndex < 3

/-- A road of the intersection: the map, with priority rules and without obstacles; its vehicles are distinct objects. -/
structure InterRoad (kind : VKind) (r : Road) : Prop where
  network : r.network = interNet
  regulated : r.regulated = true
  free : ∀ o ∈ r.objects, o.kind ≠ .obstacle
  distinct : (r.vehicles.map (·.uid)).Nodup
  fleet : ∀ v ∈ r.vehicles, InterVehicle kind v

/-- Destinations agents can get: the configured one, or one of the three other sides than the first. -/
def Bound (cfg : IntersectionConfig) (d : String) : Prop :=
  (∃ d', cfg.destination = some d' ∧ d' ≠ "" ∧ d = d') ∨ ((cfg.destination = none ∨ cfg.destination = some "") ∧ ∃ b : Fin 4, b ≠ 0 ∧ d = outer b)

/-- Agent number `k` at its start: on the access of side `k` modulo 4, around 60 m after its beginning (40 m before the crossing), at 10 m/s with the
highest of the three levels 0, 4.5 and 9 m/s, bound for an admissible destination. -/
structure InterAgent (cfg : IntersectionConfig) (k : Fin 4) (v : Vehicle) : Prop where
  kind : v.kind = .mdp
  speed : v.speed = 10
  level : v.speedIndex = 2
  targetSpeed : v.targetSpeed = 9
  crashed : v.crashed = false
  place : ∃ x d, Bound cfg d ∧ v.pos = (accessLane k).position (60 + 5 * x) 0 ∧ v.heading = (accessLane k).headingAt (60 + 5 * x) ∧
    (-12 ≤ x → x < 8 → v.laneIndex = ⟨outer k, ingress k, 0⟩ ∧ ∀ b, b ≠ k → d = outer b → v.route = some (crossing 0 k b))

/-- `ws` are the agents as they were created, in order, `us` their identities and `vs` the vehicles on the road at the end of the reset: every agent
on the road is unchanged, and an agent is missing only if a later one has been created within 20 m of it.  `draws` are the normal variates of the random
generator, which decide where they are. -/
structure Starts (cfg : IntersectionConfig) (draws : ℕ → ℝ) (us : List ℕ) (vs ws : List Vehicle) : Prop where
  identities : ws.map (·.uid) = us
  unchanged : ∀ v ∈ vs, v.uid ∈ us → v ∈ ws
  placed : ∀ (j : ℕ) (v : Vehicle), ws[j]? = some v → InterAgent cfg ⟨j % 4, Nat.mod_lt _ (by norm_num)⟩ v ∧
    (v ∈ vs ∨ ∃ (k : ℕ) (w : Vehicle), j < k ∧ ws[k]? = some w ∧ (v.pos - w.pos).norm < 20)
  drawn : ∀ (j : ℕ) (v : Vehicle), ws[j]? = some v → ∃ n, v.pos = (accessLane ⟨j % 4, Nat.mod_lt _ (by norm_num)⟩).position (60 + 5 * draws n) 0

/-- What `attempts` attempts to let traffic enter leave on an empty intersection, the attempts being made at equal distances along the 80 m behind the entrances, the last of `count` of which (the end of these
80 m) is left free: at most one vehicle per attempt, at least 15 m from each other; each on the access of a side `a`, bound for another side, its place (5 m further) and its speed of 8 m/s perturbed by noise. -/
structure InitialTraffic (kind : VKind) (count attempts : ℕ) (vs : List Vehicle) : Prop where
  atMost : vs.length ≤ attempts
  apart : vs.Pairwise fun w v => 15 ≤ (w.pos - v.pos).norm ∧ w.uid ≠ v.uid
  each : ∀ v ∈ vs, ∃ t < attempts, ∃ (a b : Fin 4) (x y : ℝ), Newcomer kind [] a b (80 * ((t : ℝ) / ((count : ℝ) - 1)) + 5 + x) (8 + y) v

end HighwayEnv.Spec
