import Verif.Model.Interval
import Verif.Model.Behavior

/-!
# Model of `highway_env/vehicle/uncertainty/prediction.py` and of the structures of `LinearVehicle`

The interval observer and the interval predictor of a vehicle that keeps its target lane.  The vehicle class itself, the trajectories stored
for display, the recentring of the predictor when the target lane changes (prediction.py:191-211) and the lane change models "all" and
"right" are in `Model/IntervalVehicle.lean`.
-/

noncomputable section
open Classical Matrix

namespace HighwayEnv

/-- `heading` of a vehicle or object. -/
def Entity.heading : Entity → ℝ
  | .veh v => v.heading
  | .obj o => o.heading

/-- `VehicleInterval` — prediction.py:399-403. -/
structure VehicleInterval where
  position : Itv Vec2
  speed : Itv ℝ
  heading : Itv ℝ

/-- `VehicleInterval(vehicle)`: full certainty — prediction.py:399-403. -/
def VehicleInterval.certain (pos : Vec2) (speed heading : ℝ) : VehicleInterval := ⟨(pos, pos), (speed, speed), (heading, heading)⟩

/-- What `observer_step` reads besides the current interval: the parameter boxes, the attributes of the vehicle, the interval of the front
vehicle (`get_front_interval`, prediction.py:285-298), the heading of the lane of the vehicle at its position, the target lane and its
heading at the pursuit point. -/
structure Observer where
  thetaA : Itv (Fin 3 → ℝ)
  thetaB : Itv (Fin 2 → ℝ)
  targetSpeed : ℝ
  distanceWanted : ℝ
  timeWanted : ℝ
  front : Option VehicleInterval
  ownPsi : ℝ
  target : Lane
  targetPsi : ℝ

namespace Observer

/-- The observer of the vehicle `v` — prediction.py:99-130.  `front` is the front vehicle, `estimated` the interval of a front vehicle that
is estimated itself. -/
def of (G : Globals) (g : Graph) (v : Vehicle) (thetaA : Itv (Fin 3 → ℝ)) (thetaB : Itv (Fin 2 → ℝ)) (front : Option Entity)
    (estimated : Option VehicleInterval) : Py Observer := do
  let lane ← g.getLane v.targetLane
  return {
    thetaA := thetaA, thetaB := thetaB, targetSpeed := v.targetSpeed
    distanceWanted := G.distanceWanted v.kind
    timeWanted := Vehicle.timeWanted v.kind
    front := front.map fun f => estimated.getD (VehicleInterval.certain f.pos f.speed f.heading)
    ownPsi := v.lane.headingAt (v.lane.localCoordinates v.pos).1
    target := lane
    targetPsi := lane.headingAt ((lane.localCoordinates v.pos).1 + v.speed * Vehicle.PURSUIT_TAU) }

/-- The interval of the features of the acceleration (the first one is treated separately) — prediction.py:107-120. -/
def phiA (o : Observer) (i : VehicleInterval) : Itv (Fin 3 → ℝ) :=
  match o.front with
  | none => (![0, 0, 0], ![0, 0, 0])
  | some f =>
    let dv := Itv.negativePart (Itv.diff f.speed i.speed)
    let d := Itv.section' (f.position.1 - i.position.2, f.position.2 - i.position.1) ⟨Real.cos o.ownPsi, Real.sin o.ownPsi⟩
    let safe : Itv ℝ := (o.distanceWanted + o.timeWanted * i.speed.1, o.distanceWanted + o.timeWanted * i.speed.2)
    let dp := Itv.negativePart (Itv.diff d safe)
    (![0, dv.1, dp.1], ![0, dv.2, dp.2])

/-- The interval of the features of the steering — prediction.py:122-141.  A speed bound 0 gives an infinite feature in the code. -/
def phiB (o : Observer) (i : VehicleInterval) : Itv (Fin 2 → ℝ) :=
  let lat := (Itv.absoluteToLocal i.position o.target).2
  let q := Itv.product (· * ·) (-lat.2, -lat.1) (1 / i.speed.2, 1 / i.speed.1)
  (![0, q.1], ![0, q.2])

/-- The interval of the acceleration — prediction.py:142-153. -/
def dv (o : Observer) (i : VehicleInterval) : Itv ℝ :=
  let a := Itv.product (fun x y : Fin 3 → ℝ => x ⬝ᵥ y) o.thetaA (o.phiA i)
  let t := Itv.product (· * ·) (o.thetaA.1 0, o.thetaA.2 0) (o.targetSpeed - i.speed.2, o.targetSpeed - i.speed.1)
  (npClip (t.1 + a.1) (-Vehicle.ACC_MAX) Vehicle.ACC_MAX, npClip (t.2 + a.2) (-Vehicle.ACC_MAX) Vehicle.ACC_MAX)

/-- The interval of the yaw rate — prediction.py:144, 154-160. -/
def dpsi (o : Observer) (i : VehicleInterval) : Itv ℝ :=
  let b := Itv.product (fun x y : Fin 2 → ℝ => x ⬝ᵥ y) o.thetaB (o.phiB i)
  let delta : Itv ℝ := (wrapToPi (i.heading.1 - o.targetPsi), wrapToPi (i.heading.2 - o.targetPsi))
  let r := Itv.integrator delta (o.thetaB.1 0, o.thetaB.2 0)
  (r.1 + b.1, r.2 + b.2)

/-- The interval of the cosine of the heading — prediction.py:163-164. -/
def cosI (psi : Itv ℝ) : Itv ℝ :=
  (if psi.1 ≤ Real.pi ∧ Real.pi ≤ psi.2 then -1 else min (Real.cos psi.1) (Real.cos psi.2),
   if psi.1 ≤ 0 ∧ 0 ≤ psi.2 then 1 else max (Real.cos psi.1) (Real.cos psi.2))

/-- The interval of the sine of the heading — prediction.py:165-166. -/
def sinI (psi : Itv ℝ) : Itv ℝ :=
  (if psi.1 ≤ -Real.pi / 2 ∧ -Real.pi / 2 ≤ psi.2 then -1 else min (Real.sin psi.1) (Real.sin psi.2),
   if psi.1 ≤ Real.pi / 2 ∧ Real.pi / 2 ≤ psi.2 then 1 else max (Real.sin psi.1) (Real.sin psi.2))

/-- `observer_step` — prediction.py:93-180, with the noise bound 1. -/
def step (o : Observer) (dt : ℝ) (i : VehicleInterval) : VehicleInterval :=
  let dv := o.dv i
  let dpsi := o.dpsi i
  let dx := Itv.product (· * ·) i.speed (cosI i.heading)
  let dy := Itv.product (· * ·) i.speed (sinI i.heading)
  { speed := (i.speed.1 + dv.1 * dt, i.speed.2 + dv.2 * dt)
    heading := (i.heading.1 + dpsi.1 * dt + 1 * dt * (-1), i.heading.2 + dpsi.2 * dt + 1 * dt * 1)
    position := (⟨i.position.1.x + dx.1 * dt + 1 * dt * (-1), i.position.1.y + dy.1 * dt + 1 * dt * (-1)⟩,
                 ⟨i.position.2.x + dx.2 * dt + 1 * dt * 1, i.position.2.y + dy.2 * dt + 1 * dt * 1⟩) }

/-- `(1 - c) * a + c * b`. -/
def mix (c a b : ℝ) : ℝ := (1 - c) * a + c * b

/-- `partial_observer_step` — prediction.py:325-359: the lower and the upper part of the interval are stepped separately. -/
def partialStep (o : Observer) (dt alpha : ℝ) (i : VehicleInterval) : VehicleInterval :=
  let lower : VehicleInterval :=
    { position := (i.position.1, ⟨mix alpha i.position.1.x i.position.2.x, mix alpha i.position.1.y i.position.2.y⟩)
      speed := (i.speed.1, mix alpha i.speed.1 i.speed.2)
      heading := (i.heading.1, mix alpha i.heading.1 i.heading.2) }
  let upper : VehicleInterval :=
    { position := (⟨mix (1 - alpha) i.position.1.x i.position.2.x, mix (1 - alpha) i.position.1.y i.position.2.y⟩, i.position.2)
      speed := (mix (1 - alpha) i.speed.1 i.speed.2, i.speed.2)
      heading := (mix (1 - alpha) i.heading.1 i.heading.2, i.heading.2) }
  let m := o.step dt lower
  let p := o.step dt upper
  { position := (m.position.1, p.position.2)
    speed := (m.speed.1, p.speed.2)
    heading := (min m.heading.1 p.heading.1, max m.heading.2 p.heading.2) }

end Observer

/-- `longitudinal_structure` — behavior.py:397-440.  `front` is the speed of the front vehicle and the lane distance to it. -/
def longitudinalStructure (timeWanted distanceWanted speed : ℝ) (front : Option (ℝ × ℝ)) :
    Matrix (Fin 4) (Fin 4) ℝ × (Fin 3 → Matrix (Fin 4) (Fin 4) ℝ) :=
  let phi0 : Matrix (Fin 4) (Fin 4) ℝ := !![0, 0, 0, 0; 0, 0, 0, 0; 0, 0, -1, 0; 0, 0, 0, -1]
  let phi1 : Matrix (Fin 4) (Fin 4) ℝ := !![0, 0, 0, 0; 0, 0, 0, 0; 0, 0, -1, 1; 0, 0, 0, 0]
  let phi2 : Matrix (Fin 4) (Fin 4) ℝ := !![0, 0, 0, 0; 0, 0, 0, 0; -1, 1, -timeWanted, 0; 0, 0, 0, 0]
  let phi1 := match front with
    | none => 0
    | some (v, _) => if speed < v then 0 else phi1
  let phi2 := match front with
    | none => 0
    | some (_, d) => if d ≠ distanceWanted + timeWanted * speed then 0 else phi2
  (!![0, 0, 1, 0; 0, 0, 0, 1; 0, 0, 0, 0; 0, 0, 0, 0], ![phi0, phi1, phi2])

/-- `lateral_structure` — behavior.py:442-456. -/
def lateralStructure : Matrix (Fin 2) (Fin 2) ℝ × (Fin 2 → Matrix (Fin 2) (Fin 2) ℝ) :=
  (!![0, 1; 0, 0], ![!![0, 0; 0, -1], !![0, 0; -1, 0]])

/-- `parameter_box_to_polytope` — prediction.py:279-283. -/
def boxToPolytope {k : ℕ} {ι : Type} (box : Itv (Fin k → ℝ)) (s : Matrix ι ι ℝ × (Fin k → Matrix ι ι ℝ)) : Matrix ι ι ℝ × List (Matrix ι ι ℝ) :=
  let p := polytope (fun θ => s.1 + ∑ j, θ j • s.2 j) fun j => (box.1 j, box.2 j)
  (p.1, p.2.toList)

/-- The specification of the longitudinal predictor — prediction.py:236-258.  The state is (own position, front position, own speed, front
speed), along the target lane. -/
def longitudinalLpv (eig : Matrix (Fin 4) (Fin 4) ℝ → Option (Matrix (Fin 4) (Fin 4) ℝ × Matrix (Fin 4) (Fin 4) ℝ))
    (x0 : Fin 4 → ℝ) (distanceWanted timeWanted targetSpeed : ℝ) (theta : Itv (Fin 3 → ℝ))
    (s : Matrix (Fin 4) (Fin 4) ℝ × (Fin 3 → Matrix (Fin 4) (Fin 4) ℝ)) : LPV (Fin 4) (Fin 4) (Fin 1) :=
  let p := boxToPolytope theta s
  LPV.init eig x0 p.1 p.2 1 !![1; 0; 0; 0] (fun _ => -1, fun _ => 1) ![targetSpeed, targetSpeed, 0, 0] 0
    ![-distanceWanted - targetSpeed * timeWanted, 0, targetSpeed, targetSpeed]

/-- The specification of the lateral predictor — prediction.py:260-271.  The state is (lateral position, heading relative to the lane). -/
def lateralLpv (eig : Matrix (Fin 2) (Fin 2) ℝ → Option (Matrix (Fin 2) (Fin 2) ℝ × Matrix (Fin 2) (Fin 2) ℝ))
    (x0 : Fin 2 → ℝ) (theta : Itv (Fin 2 → ℝ)) : LPV (Fin 2) (Fin 2) (Fin 1) :=
  let p := boxToPolytope theta lateralStructure
  LPV.init eig x0 p.1 p.2 1 !![1; 0] (fun _ => -(1 / 2), fun _ => 1 / 2) 0 0 0

/-- `predictor_step` without change of the target lane — prediction.py:182-189, 213-226.  The heading relative to the lane is stored as
heading. -/
def predictorStep (lane : Lane) (dt : ℝ) (lon : LPV (Fin 4) (Fin 4) (Fin 1)) (lat : LPV (Fin 2) (Fin 2) (Fin 1)) :
    Py (LPV (Fin 4) (Fin 4) (Fin 1) × LPV (Fin 2) (Fin 2) (Fin 1) × VehicleInterval) := do
  let lon ← lon.step dt
  let lat ← lat.step dt
  let xl := lon.intervalBack lon.xit
  let xa := lat.intervalBack lat.xit
  return (lon, lat,
    { position := Itv.localToAbsolute (xl.1 0, xl.2 0) (xa.1 0, xa.2 0) lane
      speed := (xl.1 2, xl.2 2)
      heading := (xa.1 1, xa.2 1) })

end HighwayEnv
