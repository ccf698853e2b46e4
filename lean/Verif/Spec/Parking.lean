import Verif.Model.Envs.Summon
import Verif.Spec.Intersection

/-!
# Specification vocabulary: the parking and summon environments
-/

noncomputable section
open Classical
namespace HighwayEnv.Spec
open HighwayEnv

/-- How far a vehicle is from the goal: abscissas count for 1 per 100 m, ordinates for 0.3 per 100 m, and the two coordinates of the direction vectors for
0.02 each.  (Speeds do not count.) -/
def parkingGap (v : Vehicle) (o : RoadObject) : ℝ :=
  |v.pos.x - o.pos.x| / 100 + 3 / 10 * (|v.pos.y - o.pos.y| / 100) + 2 / 100 * |Real.cos v.heading - Real.cos o.heading| +
    2 / 100 * |Real.sin v.heading - Real.sin o.heading|

/-- The lane of spot `k` on one side (`y > 0` if `up`), `y0` being the distance from the middle of the parking to the spots: 4 m wide, 8 m long, spots of
one side next to each other. -/
def spotLane (y0 limit : ℝ) (spots k : ℕ) (up : Bool) : Lane :=
  let x : ℝ := 4 * ((k : ℝ) - (spots / 2 : ℕ)) - 2
  { shape := if up then .straight ⟨x, y0⟩ ⟨x, y0 + 8⟩ else .straight ⟨x, -y0⟩ ⟨x, -y0 - 8⟩, width := 4, speedLimit := limit }

/-- All spots of one side. -/
def side (y0 limit : ℝ) (spots : ℕ) (up : Bool) : List Lane := (List.range spots).map fun k => spotLane y0 limit spots k up

/-- The map of the parking. -/
def parkingNet (spots : ℕ) : Graph := [("a", [("b", side 10 20 spots true)]), ("b", [("c", side 10 20 spots false)])]

/-- A lane of the middle of the summon parking, from west to east. -/
def alleyLane (x y : ℝ) : Lane := { shape := .straight ⟨-x, y⟩ ⟨x, y⟩, width := 4, speedLimit := 5 }

/-- The map of the summon parking with 15 spots on each side: five alleys of 64 m between the two rows. -/
def summonNet : Graph :=
  [("a", [("b", side 12 5 15 true)]), ("b", [("c", side 12 5 15 false)]),
   ("d", [("e", [alleyLane 32 (-8), alleyLane 32 (-4), alleyLane 32 0, alleyLane 32 4, alleyLane 32 8])])]

/-- The goal of an environment. -/
def IsGoal (e : Env) (o : RoadObject) : Prop := o ∈ e.road.objects ∧ o.uid = e.goal

/-- Configurations of the parking with which episodes can be played: continuous actions (of one agent, or of all), the default features and scales. -/
structure ParkingOk (cfg : ParkingConfig) : Prop where
  action : ∃ c, (cfg.sim.action = .single (.continuous c) ∨ cfg.sim.action = .multi (.continuous c)) ∧ (c.longitudinal = true ∨ c.lateral = true)
  features : cfg.features = ["x", "y", "vx", "vy", "cos_h", "sin_h"]
  scales : cfg.scales = [100, 100, 5, 5, 1, 1]

/-- What stays true of a parking: the map, one goal, no obstacle. -/
structure ParkingScene (net : Graph) (o : RoadObject) (e : Env) : Prop where
  network : e.road.network = net
  goal : ∃ hit, e.road.objects = [{ o with hit := hit }]
  landmark : o.kind = .landmark
  pointer : e.goal = o.uid

/-- The vehicles whose goals are watched: all the agents with one observation per agent, and the first agent otherwise. -/
def Watched (cfg : ParkingConfig) (e : Env) (vs : List Vehicle) : Prop :=
  vs.map (·.uid) = (if cfg.severalObservers then e.controlled else e.controlled.take 1) ∧ ∀ v ∈ vs, v ∈ e.road.vehicles

/-- A vehicle is parked when its gap to the goal is below 0.0144. -/
def Parked (v : Vehicle) (o : RoadObject) : Prop := parkingGap v o < 144 / 10000

/-- Agent number `i` at its start in the parking. -/
structure ParkingStart (kind : VKind) (i : ℕ) (v : Vehicle) : Prop where
  uid : v.uid = i
  kind : v.kind = kind
  pos : v.pos = ⟨20 * i, 0⟩
  heading : 0 ≤ v.heading ∧ v.heading < 2 * Real.pi
  speed : v.speed = 0
  crashed : v.crashed = false

/-- Car number `i` of the initial traffic of the summon parking: parked in the middle of spot `i` of one of the two rows, or driving east at 2 m/s in one
of the five alleys, `5 i` or `5 i + 4` metres after its beginning. -/
structure SummonCar (kind : VKind) (i : ℕ) (v : Vehicle) : Prop where
  uid : v.uid = i + 1
  crashed : v.crashed = false
  place : (v.kind = .plain ∧ v.speed = 0 ∧ i < 15 ∧ ∃ up, v.pos = (spotLane 12 5 15 i up).position 4 0 ∧ v.heading = (spotLane 12 5 15 i up).headingAt 4) ∨
    (v.kind = kind ∧ v.speed = 2 ∧ v.heading = 0 ∧ ∃ k < 5, ∃ s : ℝ, (s = 5 * i ∨ s = 5 * i + 4) ∧ v.pos = ⟨-32 + s, 4 * (k : ℕ) - 8⟩)

/-- The agent of the summon parking at its start: in the last spot, in a random direction. -/
structure SummonEgo (kind : VKind) (v : Vehicle) : Prop where
  uid : v.uid = 0
  kind : v.kind = kind
  pos : v.pos = ⟨26, 16⟩
  heading : 0 ≤ v.heading ∧ v.heading < 2 * Real.pi
  speed : v.speed = 0
  crashed : v.crashed = false

/-- Configurations of the summon environment with which episodes can be played: at most as many cars as spots, and IDM traffic. -/
structure SummonOk (cfg : SummonConfig) : Prop where
  base : ParkingOk cfg.base
  count : cfg.vehiclesCount ≤ 15
  traffic : cfg.otherVehiclesType = .idm

end HighwayEnv.Spec
