import Verif.Model.Envs.LaneKeeping
import Verif.Spec.Episode

/-!
# Specification vocabulary: the lane-keeping environment
-/

noncomputable section
open Classical
namespace HighwayEnv.Spec
open HighwayEnv

/-- State of a single-track model: position, heading, forward speed, sideways speed, yaw rate. -/
@[ext] structure Bike where
  pos : Vec2
  heading : ℝ
  speed : ℝ
  sideways : ℝ
  yaw : ℝ

/-- The single-track state of a vehicle. -/
def bikeOf (v : Vehicle) : Bike := ⟨v.pos, v.heading, v.speed, v.lateralSpeed, v.yawRate⟩

/-- A number restricted to `[-b, b]`. -/
def restrict (b x : ℝ) : ℝ := max (-b) (min b x)

/-- The angle of the vector `(x, y)`. -/
def angle (x y : ℝ) : ℝ := Complex.arg ⟨x, y⟩

/-- The side forces on the front and rear axles (2.5 m before and after the centre), for a front wheel angle `d`: 30 N per radian between each wheel and
its direction of motion. -/
def Bike.forces (b : Bike) (d : ℝ) : ℝ × ℝ :=
  (30 * (d - angle b.speed (b.sideways + 5 / 2 * b.yaw)), -30 * angle b.speed (b.sideways - 5 / 2 * b.yaw))

/-- The derivative of sideways speed and yaw rate (mass 1, inertia 37/12). -/
def Bike.turning (b : Bike) (d : ℝ) : ℝ × ℝ :=
  ((b.forces d).1 + (b.forces d).2 - b.yaw * b.speed, ((b.forces d).1 - (b.forces d).2) * (5 / 2) / (37 / 12))

/-- The velocity in the plane. -/
def Bike.velocity (b : Bike) : Vec2 :=
  ⟨b.speed * Real.cos b.heading - b.sideways * Real.sin b.heading, b.speed * Real.sin b.heading + b.sideways * Real.cos b.heading⟩

/-- One Euler step of duration `dt` at constant forward speed; the wheel angle is restricted to a quarter turn and the yaw rate to one turn per second. -/
def Bike.euler (d dt : ℝ) (b : Bike) : Bike :=
  let b := { b with yaw := restrict (2 * Real.pi) b.yaw }
  let d := restrict (Real.pi / 2) d
  { pos := b.pos + dt • b.velocity
    heading := b.heading + dt * b.yaw
    speed := b.speed
    sideways := b.sideways + dt * (b.turning d).1
    yaw := b.yaw + dt * (b.turning d).2 }

/-- `n` Euler steps. -/
def Bike.drive (d dt : ℝ) (n : ℕ) (b : Bike) : Bike := (Bike.euler d dt)^[n] b

/-- The wheel angle ordered by an action `[x]`: `x`, restricted to `[-1, 1]` if the configuration clips, from `[-1, 1]` to the range. -/
def wheel (c : ContinuousConfig) (x : ℝ) : ℝ :=
  c.steeringRange.1 + ((if c.clip then restrict 1 x else x) + 1) / 2 * (c.steeringRange.2 - c.steeringRange.1)

/-- Configurations of the lane-keeping task: one agent that steers a bicycle vehicle and does not accelerate, and a decision per period. -/
structure KeepingOk (cfg : LaneKeepingConfig) (c : ContinuousConfig) : Prop where
  action : cfg.sim.action = .single (.continuous c)
  lateral : c.lateral = true
  longitudinal : c.longitudinal = false
  dynamical : c.dynamical = true
  policy : cfg.sim.policyFrequency ≠ 0

/-- The three lanes: the straight one where the vehicle starts, its prolongation, and the sine lane. -/
def keepingNet : Graph :=
  [("a", [("b", [LaneKeeping.sineLane])]), ("c", [("d", [LaneKeeping.otherLane])]), ("d", [("a", [LaneKeeping.lastLane])])]

/-- Where an episode starts: 50 m after the beginning of the straight lane, at lateral offset -4 m, in its direction, at 8.3 m/s. -/
def keepingStart : Bike := ⟨LaneKeeping.otherLane.position 50 (-4), LaneKeeping.otherLane.headingAt 0, 83 / 10, 0, 0⟩

/-- The lane tracked in the first phase (straight) and in the second phase (sine). -/
def phaseLane (second : Bool) : Lane := if second then LaneKeeping.sineLane else LaneKeeping.otherLane

/-- The task during an episode: one bicycle vehicle, in state `b`, at 8.3 m/s on an otherwise empty road, in the first or the second phase. -/
structure Keeping (s : LaneKeeping.State) (b : Bike) (second : Bool) : Prop where
  network : s.env.road.network = keepingNet
  objects : s.env.road.objects = []
  plainRoad : s.env.road.regulated = false
  agent : s.env.controlled = [0]
  running : s.env.done = false
  steps : s.env.steps = 0
  alone : ∃ v, s.env.road.vehicles = [v] ∧ v.uid = 0 ∧ v.kind = .bicycle ∧ v.crashed = false ∧ bikeOf v = b
  speed : b.speed = 83 / 10
  tracked : s.lane = some (phaseLane second)
  rest : s.lanes = if second then [] else [LaneKeeping.sineLane]

/-- States that can be reset: no vehicle yet, or an episode in progress, whatever lane is tracked. -/
def CanReset (s : LaneKeeping.State) : Prop :=
  s.env.controlled = [] ∨ ∃ b t, Keeping { s with lane := some (phaseLane t), lanes := if t then [] else [LaneKeeping.sineLane] } b t

/-- Numbers that are all within `a` of other numbers. -/
def Within (a : ℝ) (xs ys : List ℝ) : Prop := List.Forall₂ (fun x y => |x - y| ≤ a) xs ys

/-- Numbers with noise of amplitude `a`: each gets its own variate of the generator, from the `n`-th yet to be drawn on, scaled from [0, 1) to [-a, a). -/
def noisy (a : ℝ) (rng : Rng) : ℕ → List ℝ → List ℝ
  | _, [] => []
  | n, x :: xs => (x + a * (2 * Int.fract (rng.reals (rng.rpos + n)) - 1)) :: noisy a rng (n + 1) xs

/-- The generator after `n` more real variates. -/
def drawn (rng : Rng) (n : ℕ) : Rng := { rng with rpos := rng.rpos + n }

/-- The lateral part of a state: ordinate, heading, sideways speed, yaw rate. -/
def Bike.lateral (b : Bike) : List ℝ := [b.pos.y, b.heading, b.sideways, b.yaw]

/-- The derivative of the lateral part, for a wheel angle `d` (not restricted). -/
def Bike.lateralRate (b : Bike) (d : ℝ) : List ℝ := [b.velocity.y, b.yaw, (b.turning d).1, (b.turning d).2]

/-- The whole state as stored in the trajectory. -/
def Bike.full (b : Bike) : List ℝ := [b.pos.x, b.pos.y, b.heading, b.speed, b.sideways, b.yaw]

/-- The reference: the ordinate minus the offset to the lane, and the heading of the lane. -/
def keepingReference (l : Lane) (p : Vec2) : List ℝ := [p.y - (l.localCoordinates p).2, l.headingAt (l.localCoordinates p).1, 0, 0]

/-- The state after the decisions `xs`, from the start. -/
def keepingAt (cfg : LaneKeepingConfig) (c : ContinuousConfig) (xs : List ℝ) : Bike :=
  xs.foldl (fun b x => b.drive (wheel c x) (1 / cfg.sim.simulationFrequency) (period cfg.sim)) keepingStart

/-- At one of the first `i + 1` decisions, the vehicle was off the straight lane. -/
def LeftBy (cfg : LaneKeepingConfig) (c : ContinuousConfig) (xs : List ℝ) (i : ℕ) : Prop :=
  ∃ j ≤ i, LaneKeeping.otherLane.onLane (keepingAt cfg c (xs.take j)).pos = false

/-- Decisions played one after the other by `step`. -/
inductive KeepingRun (G : Globals) (cfg : LaneKeepingConfig) (s : LaneKeeping.State) :
    List AgentAction → List LaneKeeping.Result → LaneKeeping.State → Prop
  | start : KeepingRun G cfg s [] [] s
  | step {as : List AgentAction} {rs : List LaneKeeping.Result} {s1 s2 : LaneKeeping.State} {a : AgentAction} {res : LaneKeeping.Result} :
      KeepingRun G cfg s as rs s1 → LaneKeeping.step G cfg s1 a = .ok (s2, res) → KeepingRun G cfg s (as ++ [a]) (rs ++ [res]) s2

end HighwayEnv.Spec
