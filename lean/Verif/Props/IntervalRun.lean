import Verif.Props.IntervalVehicle
import Verif.Lemmas.Level
import Verif.Props.Bicycle

/-!
# C94: what interval vehicles observe and predict
-/

noncomputable section
open Classical Matrix Real
namespace HighwayEnv.Props
open HighwayEnv Spec IntervalVehicle

/-! ## Copies -/

/-- **C94, copies.**  `create_from` a controlled vehicle, on a network with at least one lane, gives an interval vehicle at the same state with the same target lane and route,
the target speed and (for IDM vehicles) the timer unless they are 0, and the parameter boxes and data of the source.  It may always change lanes, even if the source may not. -/
theorem interval_copy (G : Globals) (g : Graph) (hg : WellFormed g) (hne : g ≠ []) (uid : ℕ) (v : Vehicle) (hc : v.kind.isControlled = true)
    (boxA : Itv (Fin 3 → ℝ)) (boxB : Itv (Fin 2 → ℝ)) (data : Option Regression.Records) :
    ∃ s, createFrom G g uid v (some boxA) (some boxB) data = .ok s ∧ s.v.uid = uid ∧ s.v.kind = .linear ∧ s.v.pos = v.pos ∧ s.v.heading = v.heading ∧ s.v.speed = v.speed ∧
      s.v.targetLane = v.targetLane ∧ s.previousTarget = v.targetLane ∧ s.v.route = v.route ∧ (v.targetSpeed ≠ 0 → s.v.targetSpeed = v.targetSpeed) ∧
      (v.targetSpeed = 0 → s.v.targetSpeed = v.speed) ∧ (v.kind.isIDM = true → v.timer ≠ 0 → s.v.timer = v.timer) ∧
      s.v.enableLaneChange = true ∧ s.thetaA = boxA ∧ s.thetaB = boxB ∧ s.data = data ∧ s.interval = VehicleInterval.certain v.pos v.speed v.heading ∧
      s.trajectory = [] ∧ s.intervals = [] ∧ s.lon = none ∧ s.lat = none ∧
      g.getClosestLaneIndex v.pos (some v.heading) = .ok s.v.laneIndex ∧ g.getLane s.v.laneIndex = .ok s.v.lane := by
  obtain ⟨w, hw, _, ha, hi⟩ := mk'_total G hg hne uid .linear v.pos v.heading v.speed
  unfold createFrom create Vehicle.mk'
  simp only [hi, ha.lane, bind, Except.bind, hc, if_true]
  refine ⟨_, rfl, rfl, rfl, rfl, rfl, rfl, rfl, rfl, rfl, ?_, ?_, ?_, rfl, rfl, rfl, rfl, rfl, rfl, rfl, rfl, rfl, rfl, ha.lane⟩
  · intro h; simp [Lane.optTruthy, truthy, h]
  · intro h; simp [Lane.optTruthy, truthy, h]
  · intro hk h; simp [Lane.optTruthy, truthy, hk, h]

/-- A copy of a car that keeps its lane may change lanes. -/
example (G : Globals) : ∃ s, createFrom G Sample.net 7 { Sample.car 1 .idm 10 0 20 with enableLaneChange := false } (some accelerationRange) (some steeringRange) none = .ok s ∧
    s.v.enableLaneChange = true ∧ s.v.targetSpeed = (Sample.car 1 .idm 10 0 20).targetSpeed := by
  obtain ⟨s, h, _, _, _, _, _, _, _, _, h1, _, _, h2, _⟩ := interval_copy G Sample.net Sample.net_wf (by simp [Sample.net]) 7
    { Sample.car 1 .idm 10 0 20 with enableLaneChange := false } rfl accelerationRange steeringRange none
  exact ⟨s, h, h2, h1 (by norm_num [Sample.car])⟩

/-! ## The observer of a vehicle -/

private theorem nb_self (lane : Lane) (x : ℝ) (w : Vehicle) (os : List Entity) : ∀ (vs : List Vehicle) (st : Road.NbState),
    (((vs.map fun u => if u.uid = w.uid then w else u).map Entity.veh ++ os).foldl (Road.nbStep lane x w.uid) st) =
    ((vs.map Entity.veh ++ os).foldl (Road.nbStep lane x w.uid) st) := by
  intro vs
  induction vs with
  | nil => intro st; rfl
  | cons u vs ih =>
    intro st
    simp only [List.map_cons, List.cons_append, List.foldl_cons]
    rw [ih]
    congr 1
    by_cases hu : u.uid = w.uid
    · rw [if_pos hu]
      unfold Road.nbStep
      rw [if_neg (by simp [Entity.uid]), if_neg (by simp [Entity.uid, hu])]
    · rw [if_neg hu]

/-- The vehicle and its copy see the same neighbours. -/
private theorem neighbours_copy (r : Road) (v w : Vehicle) (hu : w.uid = v.uid) (hp : w.pos = v.pos) (hl : w.laneIndex = v.laneIndex) :
    ({ r with vehicles := r.vehicles.map fun u => if u.uid = v.uid then w else u } : Road).neighbourVehicles w = r.neighbourVehicles v := by
  unfold Road.neighbourVehicles
  simp only [Option.getD_none, hl, hp]
  cases hg : r.network.getLane v.laneIndex with
  | error e => rfl
  | ok lane =>
    simp only [bind, Except.bind]
    rw [show ({ r with vehicles := r.vehicles.map fun u => if u.uid = v.uid then w else u } : Road).entities.foldl (Road.nbStep lane (lane.localCoordinates v.pos).1 w.uid) {} =
      r.entities.foldl (Road.nbStep lane (lane.localCoordinates v.pos).1 v.uid) {} from ?_]
    unfold Road.entities
    have := nb_self lane (lane.localCoordinates v.pos).1 w (r.objects.map .obj) r.vehicles {}
    rw [hu] at this ⊢
    exact this

private theorem entityInterval_total (g : Graph) (hg : WellFormed g) (hne : g ≠ []) (others : ℕ → Option VehicleInterval) (e : Entity) :
    entityInterval g others e = .ok ((others e.uid).getD (VehicleInterval.certain e.pos e.speed e.heading)) := by
  unfold entityInterval
  cases others e.uid with
  | some i => rfl
  | none =>
    obtain ⟨w, _, _, ha, hi⟩ := mk'_total { } hg hne 0 .linear e.pos e.heading e.speed
    simp only [hi, ha.lane, bind, Except.bind]
    rfl

private theorem frontInterval_eq (r : Road) (hg : WellFormed r.network) (hne : r.network ≠ []) (others : ℕ → Option VehicleInterval) (v : Vehicle)
    (f b : Option Entity) (hn : r.neighbourVehicles v = .ok (f, b)) :
    frontInterval r others v = .ok (f.map fun e => (others e.uid).getD (VehicleInterval.certain e.pos e.speed e.heading)) := by
  unfold frontInterval
  rw [hn]
  simp only [bind, Except.bind]
  cases f with
  | none => rfl
  | some e => simp only [entityInterval_total r.network hg hne others e]; rfl

/-- What the observer of a vehicle works with. -/
private theorem observer_reads (G : Globals) (r : Road) (hg : WellFormed r.network) (hne : r.network ≠ []) (others : ℕ → Option VehicleInterval) (s : IntervalVehicle)
    (hk : s.v.kind.isControlled = true) (hat : r.network.getLane s.v.laneIndex = .ok s.v.lane)
    (hcl : r.network.getClosestLaneIndex s.v.pos (some s.v.heading) = .ok s.v.laneIndex)
    (hts : s.v.targetSpeed ≠ 0) (target : Lane) (ht : r.network.getLane s.v.targetLane = .ok target) (f b : Option Entity) (hn : r.neighbourVehicles s.v = .ok (f, b)) :
    s.observer G r others = .ok {
      thetaA := s.thetaA, thetaB := s.thetaB, targetSpeed := s.v.targetSpeed, distanceWanted := G.distanceWanted .linear, timeWanted := Vehicle.timeWanted .linear
      front := f.map fun e => (others e.uid).getD (VehicleInterval.certain e.pos e.speed e.heading)
      ownPsi := s.v.lane.headingAt (s.v.lane.localCoordinates s.v.pos).1, target := target
      targetPsi := target.headingAt ((target.localCoordinates s.v.pos).1 + s.v.speed * Vehicle.PURSUIT_TAU) } := by
  obtain ⟨w, hw, c1, c2, c3, c4, c5, c6, _, _, c7, _, _, _, c8, c9, _, _, _, _, _, _, c10, c11⟩ :=
    interval_copy G r.network hg hne s.v.uid s.v hk s.thetaA s.thetaB s.data
  have hli : w.v.laneIndex = s.v.laneIndex := by rw [hcl] at c10; exact (Except.ok.inj c10).symm
  have hlane : w.v.lane = s.v.lane := by rw [hli, hat] at c11; exact (Except.ok.inj c11).symm
  unfold observer
  simp only [hw, bind, Except.bind]
  rw [frontInterval_eq ({ r with vehicles := r.vehicles.map fun u => if u.uid = s.v.uid then w.v else u } : Road) hg hne others w.v f b
    ((neighbours_copy r s.v w.v c1 c3 hli).trans hn)]
  simp only [c6, ht, c8, c9, c2, c7 hts, hlane, c3, c5]
  rfl

/-- **C94, the first step.**  A vehicle whose state is known exactly (upright on the closest lane, moving, aiming at a straight lane): the interval after the first step in the
default mode contains every next state that a linear driver with parameters of the boxes and the target speed of the vehicle can reach, up to a noise of 1, while the vehicle
ahead is where the estimate allows it to be. -/
theorem first_step_encloses (E : Eigs) (G : Globals) (r : Road) (hg : WellFormed r.network) (hne : r.network ≠ []) (others : ℕ → Option VehicleInterval) (dt : ℝ) (hdt : 0 ≤ dt)
    (s s' : IntervalVehicle) (hk : s.v.kind.isControlled = true) (hat : r.network.getLane s.v.laneIndex = .ok s.v.lane)
    (hcl : r.network.getClosestLaneIndex s.v.pos (some s.v.heading) = .ok s.v.laneIndex)
    (hts : s.v.targetSpeed ≠ 0) (target : Lane) (ht : r.network.getLane s.v.targetLane = .ok target) (a b : Vec2) (hl : target.shape = .straight a b)
    (hi : s.interval = VehicleInterval.certain s.v.pos s.v.speed s.v.heading) (hc : s.v.crashed = false) (hv0 : 0 < s.v.speed)
    (hk0 : 0 ≤ s.thetaB.1 0) (hdk : dt * s.thetaB.2 0 ≤ 1) (hh1 : -π ≤ s.v.heading) (hh2 : s.v.heading ≤ 3 * π / 2)
    (h : s.step E G r others dt .partial' = .ok s')
    (f back : Option Entity) (hn : r.neighbourVehicles s.v = .ok (f, back))
    (front : Option (Vec2 × ℝ)) (hfn : f = none → front = none)
    (hfs : ∀ e, f = some e → ∃ q vf, front = some (q, vf) ∧ (others e.uid = none → q = e.pos ∧ vf = e.speed) ∧
      ∀ i, others e.uid = some i → InBox q i.position ∧ InItv vf i.speed)
    (θa : Fin 3 → ℝ) (hθa : InItv θa s.thetaA) (θb : Fin 2 → ℝ) (hθb : InItv θb s.thetaB) (wx wy wh : ℝ) (hx : |wx| ≤ 1) (hy : |wy| ≤ 1) (hw : |wh| ≤ 1) :
    InVehicle ⟨s.v.pos.x + dt * (s.v.speed * cos s.v.heading + wx), s.v.pos.y + dt * (s.v.speed * sin s.v.heading + wy)⟩
      (s.v.speed + dt * linearAcceleration θa s.v.targetSpeed (G.distanceWanted .linear) (5 / 2) s.v.speed
        (front.map fun q => ((q.1.x - s.v.pos.x) * cos (s.v.lane.headingAt (s.v.lane.localCoordinates s.v.pos).1) +
          (q.1.y - s.v.pos.y) * sin (s.v.lane.headingAt (s.v.lane.localCoordinates s.v.pos).1), q.2)))
      (s.v.heading + dt * (linearYawRate θb (wrapToPi (s.v.heading - Lane.straightHeading a b)) (target.localCoordinates s.v.pos).2 s.v.speed + wh))
      s'.interval := by
  obtain ⟨w, t, h0, h1, h2, h3⟩ := step_parts h
  have ei : s'.interval = t.interval := by rw [h3]
  rw [ei]
  have ho := observer_reads G r hg hne others s hk hat hcl hts target ht f back hn
  have hstore : observer G r others { s with trajectory := s.trajectory ++ [w], intervals := s.intervals ++ [s.interval] } = observer G r others s := rfl
  unfold updateInterval at h1
  rw [if_neg (by simp [hc])] at h1
  dsimp only at h1
  rw [hstore, ho] at h1
  simp only [bind, Except.bind] at h1
  have h1 := Except.ok.inj h1
  rw [← h1]
  dsimp only
  rw [hi, partial_step_certain]
  have hpsi : ∀ x, target.headingAt x = Lane.straightHeading a b := by intro x; unfold Lane.headingAt; rw [hl]
  have htw : Vehicle.timeWanted .linear = 5 / 2 := rfl
  have key := observer_encloses
    { thetaA := s.thetaA, thetaB := s.thetaB, targetSpeed := s.v.targetSpeed, distanceWanted := G.distanceWanted .linear, timeWanted := Vehicle.timeWanted .linear
      front := f.map fun e => (others e.uid).getD (VehicleInterval.certain e.pos e.speed e.heading)
      ownPsi := s.v.lane.headingAt (s.v.lane.localCoordinates s.v.pos).1, target := target
      targetPsi := target.headingAt ((target.localCoordinates s.v.pos).1 + s.v.speed * Vehicle.PURSUIT_TAU) }
    (VehicleInterval.certain s.v.pos s.v.speed s.v.heading) a b hl dt hdt (by dsimp only; rw [htw]; norm_num) hk0 hdk hv0
    (by simp [VehicleInterval.certain]) hh1 hh2 s.v.pos s.v.speed s.v.heading ⟨⟨⟨le_rfl, le_rfl⟩, ⟨le_rfl, le_rfl⟩⟩, ⟨le_rfl, le_rfl⟩, ⟨le_rfl, le_rfl⟩⟩
    θa hθa θb hθb front ?_ ?_ wx wy wh hx hy hw
  · rw [hpsi, htw] at key ⊢
    exact key
  · intro fi hfi
    dsimp only at hfi
    cases f with
    | none => simp at hfi
    | some e =>
      obtain ⟨q, vf, e1, e2, e3⟩ := hfs e rfl
      refine ⟨q, vf, e1, ?_⟩
      simp only [Option.map_some, Option.some.injEq] at hfi
      cases ho' : others e.uid with
      | none =>
        obtain ⟨rfl, rfl⟩ := e2 ho'
        rw [ho'] at hfi
        rw [← hfi]
        exact ⟨⟨⟨le_rfl, le_rfl⟩, ⟨le_rfl, le_rfl⟩⟩, ⟨le_rfl, le_rfl⟩⟩
      | some i =>
        rw [ho'] at hfi
        rw [← hfi]
        exact e3 i ho'
  · intro hnone
    dsimp only at hnone
    cases f with
    | none => exact hfn rfl
    | some e => simp at hnone

/-- **C94, the default mode does not enclose.**  Whatever the road: if the heading of a vehicle is only known up to a quarter turn to either side, the interval after a step of the
default mode does not contain the position it reaches by driving straight on. -/
theorem default_step_not_enclosing (E : Eigs) (G : Globals) (r : Road) (others : ℕ → Option VehicleInterval) (dt : ℝ) (hdt : 0 < dt) (s s' : IntervalVehicle) (v : ℝ) (hv : 1 < v)
    (hi : s.interval = ⟨(s.v.pos, s.v.pos), (v, v), (-(π / 2), π / 2)⟩) (hc : s.v.crashed = false) (h : s.step E G r others dt .partial' = .ok s') :
    InVehicle s.v.pos v 0 s.interval ∧ ¬ InBox ⟨s.v.pos.x + dt * (v * cos 0), s.v.pos.y + dt * (v * sin 0)⟩ s'.interval.position := by
  have hp := pi_pos
  constructor
  · rw [hi]
    refine ⟨⟨⟨le_rfl, le_rfl⟩, ⟨le_rfl, le_rfl⟩⟩, ⟨le_rfl, le_rfl⟩, ⟨?_, ?_⟩⟩ <;> dsimp only <;> linarith
  obtain ⟨w, t, h0, h1, h2, h3⟩ := step_parts h
  have ei : s'.interval = t.interval := by rw [h3]
  unfold updateInterval at h1
  rw [if_neg (by simp [hc])] at h1
  obtain ⟨o, _, h5⟩ := bind_ok h1
  have h5 := Except.ok.inj h5
  rw [ei, ← h5]
  dsimp only
  rw [hi]
  rintro ⟨⟨_, h⟩, _⟩
  have hc : Observer.cosI (Observer.mix (1 - 0) (-(π / 2)) (π / 2), π / 2) = (0, 0) := by
    have e : Observer.mix (1 - 0) (-(π / 2)) (π / 2) = π / 2 := by unfold Observer.mix; ring
    rw [e]
    unfold Observer.cosI
    dsimp only
    rw [cos_pi_div_two, if_neg (by rintro ⟨_, h⟩; linarith), if_neg (by rintro ⟨h, _⟩; linarith), min_self, max_self]
  have h' : s.v.pos.x + dt * (v * cos 0) ≤ s.v.pos.x + (Itv.product (fun x y : ℝ => x * y) (Observer.mix (1 - 0) v v, v)
      (Observer.cosI (Observer.mix (1 - 0) (-(π / 2)) (π / 2), π / 2))).2 * dt + 1 * dt * 1 := h
  rw [hc, cos_zero] at h'
  simp only [Itv.product, Itv.p, Itv.n] at h'
  norm_num at h'
  nlinarith

/-! ## Prediction -/

private theorem local_point (p : Vec2) (l : Lane) (a b : Vec2) (hl : l.shape = .straight a b) :
    Itv.absoluteToLocal (p, p) l = (((l.localCoordinates p).1, (l.localCoordinates p).1), ((l.localCoordinates p).2, (l.localCoordinates p).2)) := by
  have h := absoluteToLocal_exact l a b hl (p, p) le_rfl le_rfl
  have hpt : ∀ q, InBox q (p, p) → q = p := by
    rintro q ⟨⟨h1, h2⟩, ⟨h3, h4⟩⟩
    ext
    · exact le_antisymm h2 h1
    · exact le_antisymm h4 h3
  obtain ⟨⟨⟨⟨q1, k1, e1⟩, _⟩, ⟨⟨q2, k2, e2⟩, _⟩⟩, ⟨⟨⟨q3, k3, e3⟩, _⟩, ⟨⟨q4, k4, e4⟩, _⟩⟩⟩ := h
  rw [hpt _ k1] at e1
  rw [hpt _ k2] at e2
  rw [hpt _ k3] at e3
  rw [hpt _ k4] at e4
  ext
  · exact e1
  · exact e2
  · exact e3
  · exact e4

/-- The step of a vehicle whose predictors exist and whose target has not changed. -/
private theorem predict_same {E : Eigs} {G : Globals} {r : Road} {others : ℕ → Option VehicleInterval} {dt : ℝ} {s s' : IntervalVehicle}
    {lon : LPV (Fin 4) (Fin 4) (Fin 1)} {lat : LPV (Fin 2) (Fin 2) (Fin 1)} {target : Lane} (ht : r.network.getLane s.v.targetLane = .ok target)
    (hlon : s.lon = some lon) (hlat : s.lat = some lat) (hp : s.v.targetLane = s.previousTarget) (h : s.predict E G r others dt = .ok s') :
    ∃ lon' lat' i, predictorStep target dt lon lat = .ok (lon', lat', i) ∧ s'.lon = some lon' ∧ s'.lat = some lat' ∧ s'.interval = i ∧ s'.previousTarget = s.v.targetLane ∧
      s'.thetaA = s.thetaA ∧ s'.thetaB = s.thetaB := by
  unfold predict predictorInit recentre at h
  simp only [ht, hlon, hlat, bind, Except.bind, pure, Except.pure, if_pos hp] at h
  cases hs : predictorStep target dt lon lat with
  | error e => rw [hs] at h; cases h
  | ok q =>
    rw [hs] at h
    have h := Except.ok.inj h
    exact ⟨q.1, q.2.1, q.2.2, rfl, by rw [← h], by rw [← h], by rw [← h], by rw [← h], by rw [← h], by rw [← h]⟩

/-- The first step: the predictors are created from the exact state. -/
private theorem predict_first {E : Eigs} {G : Globals} {r : Road} (hg : WellFormed r.network) (hne : r.network ≠ []) {others : ℕ → Option VehicleInterval} {dt : ℝ}
    {s s' : IntervalVehicle} {target : Lane} {a b : Vec2} (hl : target.shape = .straight a b) (ht : r.network.getLane s.v.targetLane = .ok target)
    (hlon : s.lon = none) (hlat : s.lat = none) (hp : s.v.targetLane = s.previousTarget) (hi : s.interval = VehicleInterval.certain s.v.pos s.v.speed s.v.heading)
    {f back : Option Entity} (hn : r.neighbourVehicles s.v = .ok (f, back)) (hf : ∀ e, f = some e → others e.uid = none) (h : s.predict E G r others dt = .ok s') :
    ∃ lon' lat' i, predictorStep target dt
        (longitudinalLpv E.four ![(target.localCoordinates s.v.pos).1, (f.map fun e => (target.localCoordinates e.pos).1).getD 0, s.v.speed, (f.map Entity.speed).getD 0]
          (G.distanceWanted s.v.kind) (Vehicle.timeWanted s.v.kind) s.v.targetSpeed s.thetaA
          (longitudinalStructure (Vehicle.timeWanted s.v.kind) (G.distanceWanted s.v.kind) s.v.speed (f.map fun e => (e.speed, s.v.laneDistanceTo e.pos))))
        (lateralLpv E.two ![(target.localCoordinates s.v.pos).2, s.v.heading - s.v.lane.headingAt (target.localCoordinates s.v.pos).1] s.thetaB) = .ok (lon', lat', i) ∧
      s'.lon = some lon' ∧ s'.lat = some lat' ∧ s'.interval = i ∧ s'.previousTarget = s.v.targetLane ∧ s'.thetaA = s.thetaA ∧ s'.thetaB = s.thetaB := by
  have hm : middle ((target.localCoordinates s.v.pos).1, (target.localCoordinates s.v.pos).1) = (target.localCoordinates s.v.pos).1 := by unfold middle; ring
  have hfi := frontInterval_eq r hg hne others s.v f back hn
  have hc : Itv.absoluteToLocal s.interval.position target =
      (((target.localCoordinates s.v.pos).1, (target.localCoordinates s.v.pos).1), ((target.localCoordinates s.v.pos).2, (target.localCoordinates s.v.pos).2)) := by
    rw [hi]; exact local_point s.v.pos target a b hl
  have hv : s.interval.speed.1 = s.v.speed := by rw [hi]; rfl
  have hh : s.interval.heading.1 = s.v.heading := by rw [hi]; rfl
  set lon := longitudinalLpv E.four ![(target.localCoordinates s.v.pos).1, (f.map fun e => (target.localCoordinates e.pos).1).getD 0, s.v.speed, (f.map Entity.speed).getD 0]
          (G.distanceWanted s.v.kind) (Vehicle.timeWanted s.v.kind) s.v.targetSpeed s.thetaA
          (longitudinalStructure (Vehicle.timeWanted s.v.kind) (G.distanceWanted s.v.kind) s.v.speed (f.map fun e => (e.speed, s.v.laneDistanceTo e.pos))) with hLon
  set lat := lateralLpv E.two ![(target.localCoordinates s.v.pos).2, s.v.heading - s.v.lane.headingAt (target.localCoordinates s.v.pos).1] s.thetaB with hLat
  have hinit : s.predictorInit E G r others = .ok { s with lon := some lon, lat := some lat } := by
    unfold predictorInit
    simp only [ht, hlon, hlat, bind, Except.bind, hfi, hn, hc, hv, hh, hm, Option.getD_none]
    cases f with
    | none => rfl
    | some e =>
      have he := hf e rfl
      have hlp := local_point e.pos target a b hl
      simp only [Option.map_some, he, Option.getD_none, VehicleInterval.certain, hlp]
      rfl
  unfold predict at h
  rw [hinit] at h
  unfold recentre at h
  simp only [bind, Except.bind, pure, Except.pure, ht, if_pos hp] at h
  cases hs : predictorStep target dt lon lat with
  | error e => rw [hs] at h; cases h
  | ok q =>
    rw [hs] at h
    have h := Except.ok.inj h
    exact ⟨q.1, q.2.1, q.2.2, rfl, by rw [← h], by rw [← h], by rw [← h], by rw [← h], by rw [← h], by rw [← h]⟩

/-- **C94, prediction.**  A vehicle whose state is known exactly aims at a straight lane, and is then predicted for any number of steps (`s t` is the vehicle before step `t`;
between the steps it may move, decide and collide, but keeps its target lane).  Then every interval contains every state that the vehicle can have reached: its own driver and
the one of the vehicle ahead adapt to the target speed, and it approaches its target lane, with parameters from the boxes that may change at each step. -/
theorem predictions_enclose (E : Eigs) (G : Globals) (r : ℕ → Road) (others : ℕ → ℕ → Option VehicleInterval) (dt : ℝ) (hdt : 0 ≤ dt)
    (s p : ℕ → IntervalVehicle) (hs : ∀ t, (s t).predict E G (r t) (others t) dt = .ok (p t))
    (hnext : ∀ t, (s (t + 1)).lon = (p t).lon ∧ (s (t + 1)).lat = (p t).lat ∧ (s (t + 1)).interval = (p t).interval ∧
      (s (t + 1)).previousTarget = (p t).previousTarget ∧ (s (t + 1)).v.targetLane = (s t).v.targetLane)
    (target : Lane) (ht : ∀ t, (r t).network.getLane (s t).v.targetLane = .ok target) (a b : Vec2) (hl : target.shape = .straight a b)
    (hg : WellFormed (r 0).network) (hne : (r 0).network ≠ [])
    (hlon : (s 0).lon = none) (hlat : (s 0).lat = none) (hp : (s 0).v.targetLane = (s 0).previousTarget)
    (hi : (s 0).interval = VehicleInterval.certain (s 0).v.pos (s 0).v.speed (s 0).v.heading)
    (f back : Option Entity) (hn : (r 0).neighbourVehicles (s 0).v = .ok (f, back)) (hf : ∀ e, f = some e → others 0 e.uid = none)
    (hpos : ∀ e, f = some e → (s 0).v.laneDistanceTo e.pos ≠ G.distanceWanted (s 0).v.kind + Vehicle.timeWanted (s 0).v.kind * (s 0).v.speed)
    (h1 : 0 ≤ (s 0).thetaA.1 1 + (s 0).thetaA.2 1)
    (hst : dt * (((s 0).thetaA.1 0 + (s 0).thetaA.2 0) / 2 + ((s 0).thetaA.1 1 + (s 0).thetaA.2 1) / 2) ≤ 1)
    (hb : 1 / 10 ^ 9 < ((s 0).thetaB.1 1 + (s 0).thetaB.2 1) / 2) (heig : E.two (boxToPolytope (s 0).thetaB lateralStructure).1 = none)
    (x : ℕ → Fin 4 → ℝ)
    (hx0 : x 0 = ![(target.localCoordinates (s 0).v.pos).1, (f.map fun e => (target.localCoordinates e.pos).1).getD 0, (s 0).v.speed, (f.map Entity.speed).getD 0])
    (hx : ∀ t, ∃ θ w, InItv θ (s 0).thetaA ∧ |w| ≤ 1 ∧ LongitudinalStep (s 0).v.targetSpeed dt (∃ e, f = some e ∧ e.speed ≤ (s 0).v.speed) θ w (x t) (x (t + 1)))
    (y : ℕ → Fin 2 → ℝ) (hy0 : y 0 = ![(target.localCoordinates (s 0).v.pos).2, (s 0).v.heading - (s 0).v.lane.headingAt (target.localCoordinates (s 0).v.pos).1])
    (hy : ∀ t, ∃ θ w, InItv θ (s 0).thetaB ∧ |w| ≤ 1 / 2 ∧ LateralStep dt θ w (y t) (y (t + 1))) (t : ℕ) :
    InVehicle (target.position (x (t + 1) 0) (y (t + 1) 0)) (x (t + 1) 2) (y (t + 1) 1) (s (t + 1)).interval := by
  set lon0 := longitudinalLpv E.four ![(target.localCoordinates (s 0).v.pos).1, (f.map fun e => (target.localCoordinates e.pos).1).getD 0, (s 0).v.speed, (f.map Entity.speed).getD 0]
          (G.distanceWanted (s 0).v.kind) (Vehicle.timeWanted (s 0).v.kind) (s 0).v.targetSpeed (s 0).thetaA
          (longitudinalStructure (Vehicle.timeWanted (s 0).v.kind) (G.distanceWanted (s 0).v.kind) (s 0).v.speed
            (f.map fun e => (e.speed, (s 0).v.laneDistanceTo e.pos))) with hlon0
  set lat0 := lateralLpv E.two ![(target.localCoordinates (s 0).v.pos).2, (s 0).v.heading - (s 0).v.lane.headingAt (target.localCoordinates (s 0).v.pos).1] (s 0).thetaB with hlat0
  -- the predictors before each step
  obtain ⟨L, hL0, hLs⟩ : ∃ L : ℕ → LPV (Fin 4) (Fin 4) (Fin 1), L 0 = lon0 ∧ ∀ t, L (t + 1) = (s (t + 1)).lon.getD lon0 :=
    ⟨fun t => if t = 0 then lon0 else (s t).lon.getD lon0, if_pos rfl, fun t => if_neg (by omega)⟩
  obtain ⟨A, hA0, hAs⟩ : ∃ A : ℕ → LPV (Fin 2) (Fin 2) (Fin 1), A 0 = lat0 ∧ ∀ t, A (t + 1) = (s (t + 1)).lat.getD lat0 :=
    ⟨fun t => if t = 0 then lat0 else (s t).lat.getD lat0, if_pos rfl, fun t => if_neg (by omega)⟩
  have key : ∀ t, predictorStep target dt (L t) (A t) = .ok (L (t + 1), A (t + 1), (s (t + 1)).interval) ∧ (s (t + 1)).lon = some (L (t + 1)) ∧
      (s (t + 1)).lat = some (A (t + 1)) ∧ (s (t + 1)).v.targetLane = (s (t + 1)).previousTarget := by
    intro t
    have fin : ∀ lon' lat' i, predictorStep target dt (L t) (A t) = .ok (lon', lat', i) → (p t).lon = some lon' → (p t).lat = some lat' → (p t).interval = i →
        (p t).previousTarget = (s t).v.targetLane → predictorStep target dt (L t) (A t) = .ok (L (t + 1), A (t + 1), (s (t + 1)).interval) ∧
        (s (t + 1)).lon = some (L (t + 1)) ∧ (s (t + 1)).lat = some (A (t + 1)) ∧ (s (t + 1)).v.targetLane = (s (t + 1)).previousTarget := by
      intro lon' lat' i e1 e2 e3 e4 e5
      obtain ⟨n1, n2, n3, n4, n5⟩ := hnext t
      have eL : L (t + 1) = lon' := by rw [hLs, n1, e2]; rfl
      have eA : A (t + 1) = lat' := by rw [hAs, n2, e3]; rfl
      rw [eL, eA, n1, n2, n3, n4, n5, e2, e3, e4, e5]
      exact ⟨e1, rfl, rfl, rfl⟩
    induction t with
    | zero =>
      obtain ⟨lon', lat', i, e1, e2, e3, e4, e5, _⟩ := predict_first hg hne hl (ht 0) hlon hlat hp hi hn hf (hs 0)
      exact fin lon' lat' i (by rw [hL0, hA0]; exact e1) e2 e3 e4 e5
    | succ t ih =>
      have ih := ih (by
        intro lon' lat' i e1 e2 e3 e4 e5
        obtain ⟨n1, n2, n3, n4, n5⟩ := hnext t
        have eL : L (t + 1) = lon' := by rw [hLs, n1, e2]; rfl
        have eA : A (t + 1) = lat' := by rw [hAs, n2, e3]; rfl
        rw [eL, eA, n1, n2, n3, n4, n5, e2, e3, e4, e5]
        exact ⟨e1, rfl, rfl, rfl⟩)
      obtain ⟨_, i2, i3, i4⟩ := ih
      obtain ⟨lon', lat', i, e1, e2, e3, e4, e5, _⟩ := predict_same (ht (t + 1)) i2 i3 i4 (hs (t + 1))
      exact fin lon' lat' i e1 e2 e3 e4 e5
  have hstep : ∀ t, (L t).step dt = .ok (L (t + 1)) ∧ (A t).step dt = .ok (A (t + 1)) := fun t =>
    ⟨(predictor_step_encloses target a b hl dt _ _ _ _ _ (key t).1).1, (predictor_step_encloses target a b hl dt _ _ _ _ _ (key t).1).2.1⟩
  have hL0' : L 0 = longitudinalLpv E.four (x 0) (G.distanceWanted (s 0).v.kind) (Vehicle.timeWanted (s 0).v.kind) (s 0).v.targetSpeed (s 0).thetaA
      (longitudinalStructure (Vehicle.timeWanted (s 0).v.kind) (G.distanceWanted (s 0).v.kind) (s 0).v.speed
        (f.map fun e => (e.speed, (s 0).v.laneDistanceTo e.pos))) := by rw [hL0, hlon0, hx0]
  have hA0' : A 0 = lateralLpv E.two (y 0) (s 0).thetaB := by rw [hA0, hlat0, hy0]
  clear_value lon0 lat0
  refine (predictor_step_encloses target a b hl dt _ _ _ _ _ (key t).1).2.2 _ _ ?_ ?_
  · obtain ⟨fr, hfr⟩ : ∃ fr : Option (ℝ × ℝ), fr = f.map fun e => (e.speed, (s 0).v.laneDistanceTo e.pos) := ⟨_, rfl⟩
    rw [← hfr] at hL0'
    refine longitudinal_encloses E.four (x 0) (G.distanceWanted (s 0).v.kind) (Vehicle.timeWanted (s 0).v.kind) (s 0).v.targetSpeed (s 0).v.speed (s 0).thetaA
      fr ?_ h1 dt hdt hst L hL0' (fun t => (hstep t).1) x rfl ?_ (t + 1)
    all_goals subst hfr
    · intro v d hvd
      cases f with
      | none => simp at hvd
      | some e =>
        simp only [Option.map_some, Option.some.injEq, Prod.mk.injEq] at hvd
        rw [← hvd.2]
        exact hpos e rfl
    · intro t
      obtain ⟨θ, w, q1, q2, q3⟩ := hx t
      refine ⟨θ, w, q1, q2, ?_⟩
      rw [show (∃ v d, (f.map fun e => (e.speed, (s 0).v.laneDistanceTo e.pos)) = some (v, d) ∧ v ≤ (s 0).v.speed) = (∃ e, f = some e ∧ e.speed ≤ (s 0).v.speed) from propext ?_]
      · exact q3
      · constructor
        · rintro ⟨v, d, e1, e2⟩
          cases f with
          | none => simp at e1
          | some e =>
            simp only [Option.map_some, Option.some.injEq, Prod.mk.injEq] at e1
            exact ⟨e, rfl, by rw [e1.1]; exact e2⟩
        · rintro ⟨e, rfl, e2⟩
          exact ⟨_, _, rfl, e2⟩
  · exact lateral_encloses E.two (y 0) (s 0).thetaB hb heig dt hdt A hA0' (fun t => (hstep t).2) y rfl hy (t + 1)

/-- **C94, changes of the target lane.**  A prediction step takes the change of the target lane since the last one into account, once: the predictors are recentred (see
`recentre_lateral_exact` and `recentre_longitudinal_exact`) exactly if the target lane differs from the remembered one, and afterwards the remembered one is the target lane. -/
theorem predict_lane_change (E : Eigs) (G : Globals) (r : Road) (others : ℕ → Option VehicleInterval) (dt : ℝ) (s s' : IntervalVehicle)
    (lon : LPV (Fin 4) (Fin 4) (Fin 1)) (lat : LPV (Fin 2) (Fin 2) (Fin 1)) (hlon : s.lon = some lon) (hlat : s.lat = some lat)
    (target previous : Lane) (ht : r.network.getLane s.v.targetLane = .ok target) (hpr : r.network.getLane s.previousTarget = .ok previous)
    (h : s.predict E G r others dt = .ok s') :
    s'.previousTarget = s'.v.targetLane ∧ s'.v = s.v ∧
    (s.v.targetLane = s.previousTarget → ∃ lon' lat', s'.lon = some lon' ∧ s'.lat = some lat' ∧ predictorStep target dt lon lat = .ok (lon', lat', s'.interval)) ∧
    (s.v.targetLane ≠ s.previousTarget → ∃ lon' lat', s'.lon = some lon' ∧ s'.lat = some lat' ∧
      predictorStep target dt (recentreLon target s.interval lon) (recentreLat previous target s.interval lat) = .ok (lon', lat', s'.interval)) := by
  unfold predict predictorInit recentre at h
  simp only [ht, hlon, hlat, hpr, bind, Except.bind, pure, Except.pure] at h
  by_cases hp : s.v.targetLane = s.previousTarget
  · rw [if_pos hp] at h
    dsimp only at h
    cases hs : predictorStep target dt lon lat with
    | error e => rw [hs] at h; cases h
    | ok q =>
      rw [hs] at h
      have h := Except.ok.inj h
      exact ⟨by rw [← h], by rw [← h], fun _ => ⟨q.1, q.2.1, by rw [← h], by rw [← h], by rw [← h]⟩, fun hne => absurd hp hne⟩
  · rw [if_neg hp] at h
    dsimp only at h
    cases hs : predictorStep target dt (recentreLon target s.interval lon) (recentreLat previous target s.interval lat) with
    | error e => rw [hs] at h; cases h
    | ok q =>
      rw [hs] at h
      have h := Except.ok.inj h
      exact ⟨by rw [← h], by rw [← h], fun he => absurd he hp, fun _ => ⟨q.1, q.2.1, by rw [← h], by rw [← h], by rw [← h]⟩⟩

/-! ## No exceptions -/

private theorem lpv_da {n : ℕ} (s s' : LPV (Fin n) (Fin n) (Fin 1)) (dt : ℝ) (h : s.step dt = .ok s') : s'.da = s.da := by
  unfold LPV.step at h
  split at h
  · cases h
  · cases h; rfl

private theorem predictorStep_total (lane : Lane) (dt : ℝ) (lon : LPV (Fin 4) (Fin 4) (Fin 1)) (lat : LPV (Fin 2) (Fin 2) (Fin 1)) (h1 : lon.da ≠ []) (h2 : lat.da ≠ []) :
    ∃ lon' lat' i, predictorStep lane dt lon lat = .ok (lon', lat', i) ∧ lon'.da ≠ [] ∧ lat'.da ≠ [] := by
  obtain ⟨l1, e1⟩ : ∃ l, lon.step dt = .ok l := ⟨_, by unfold LPV.step; rw [if_neg h1]⟩
  obtain ⟨l2, e2⟩ : ∃ l, lat.step dt = .ok l := ⟨_, by unfold LPV.step; rw [if_neg h2]⟩
  unfold predictorStep
  rw [e1, e2]
  exact ⟨l1, l2, _, rfl, by rw [lpv_da _ _ _ e1]; exact h1, by rw [lpv_da _ _ _ e2]; exact h2⟩

/-- A prediction step of a vehicle that is ready for it succeeds. -/
private theorem predict_ready (E : Eigs) (G : Globals) (r : Road) (hg : WellFormed r.network) (hne : r.network ≠ []) (others : ℕ → Option VehicleInterval) (dt : ℝ)
    (s : IntervalVehicle) (f b : Option Entity) (hfb : r.neighbourVehicles s.v = .ok (f, b)) (target : Lane) (ht : r.network.getLane s.v.targetLane = .ok target)
    (prev : Lane) (hpr : r.network.getLane s.previousTarget = .ok prev) (hvt : ValidIndex r.network s.v.targetLane)
    (hs : (s.lon = none ∧ s.lat = none) ∨ ∃ lon lat, s.lon = some lon ∧ s.lat = some lat ∧ lon.da ≠ [] ∧ lat.da ≠ []) :
    ∃ t, predict E G r others dt s = .ok t ∧ t.v = s.v ∧ ValidIndex r.network t.previousTarget ∧
      ((t.lon = none ∧ t.lat = none) ∨ ∃ lon lat, t.lon = some lon ∧ t.lat = some lat ∧ lon.da ≠ [] ∧ lat.da ≠ []) := by
  -- the predictors
  obtain ⟨s2, lon, lat, h2, hv2, hp2, hlon, hlat, d1, d2⟩ : ∃ s2 lon lat, predictorInit E G r others s = .ok s2 ∧ s2.v = s.v ∧ s2.previousTarget = s.previousTarget ∧
      s2.lon = some lon ∧ s2.lat = some lat ∧ lon.da ≠ [] ∧ lat.da ≠ [] := by
    unfold predictorInit
    have hfi := frontInterval_eq r hg hne others s.v f b hfb
    rcases hs with ⟨p1, p2⟩ | ⟨lon, lat, p1, p2, p3, p4⟩
    · simp only [ht, p1, p2, bind, Except.bind, hfi, hfb]
      refine ⟨_, _, _, rfl, rfl, rfl, rfl, rfl, ?_, ?_⟩
      · unfold longitudinalLpv LPV.init
        dsimp only
        rw [Ne, List.map_eq_nil_iff]
        exact boxToPolytope_ne_nil _ _
      · simp only [Option.getD_none]
        unfold lateralLpv LPV.init
        dsimp only
        rw [Ne, List.map_eq_nil_iff]
        exact boxToPolytope_ne_nil _ _
    · simp only [ht, p1, bind, Except.bind]
      exact ⟨_, lon, lat, rfl, rfl, rfl, p1, p2, p3, p4⟩
  obtain ⟨lon2, lat2, h3, d3, d4⟩ : ∃ lon2 lat2, recentre r.network s2 lon lat = .ok (lon2, lat2) ∧ lon2.da ≠ [] ∧ lat2.da ≠ [] := by
    unfold recentre
    split
    · exact ⟨_, _, rfl, d1, d2⟩
    · simp only [hv2, hp2, ht, hpr, bind, Except.bind]
      exact ⟨_, _, rfl, d1, d2⟩
  obtain ⟨lon3, lat3, i, h4, d5, d6⟩ := predictorStep_total target dt lon2 lat2 d3 d4
  unfold predict
  simp only [h2, bind, Except.bind, hlon, hlat, h3, hv2, ht, h4]
  exact ⟨_, rfl, rfl, hvt, .inr ⟨_, _, rfl, rfl, d5, d6⟩⟩

/-- What `step` needs: the vehicle is attached to the network, the remembered target lane exists, and both predictors exist, with uncertain matrices, or none does. -/
structure IntervalReady (g : Graph) (s : IntervalVehicle) : Prop where
  attached : Attached g s.v
  controlled : s.v.kind.isControlled = true
  previous : ValidIndex g s.previousTarget
  predictors : (s.lon = none ∧ s.lat = none) ∨ ∃ lon lat, s.lon = some lon ∧ s.lat = some lat ∧ lon.da ≠ [] ∧ lat.da ≠ []

/-- **C94, no exceptions.**  On any network, `step` of an interval vehicle succeeds in every mode, whatever the other vehicles and their intervals, and the same holds of the next
step.  A new interval vehicle is ready. -/
theorem interval_step_never_raises (E : Eigs) (G : Globals) (r : Road) (hg : WellFormed r.network) (others : ℕ → Option VehicleInterval) (dt : ℝ) (mode : StepMode)
    (s : IntervalVehicle) (hs : IntervalReady r.network s) : ∃ s', s.step E G r others dt mode = .ok s' ∧ IntervalReady r.network s' := by
  have hne : r.network ≠ [] := by
    rintro h0
    obtain ⟨k, l, _, ls, ⟨d, hd, _⟩, _⟩ := hs.attached.here
    rw [h0] at hd
    exact absurd hd (List.not_mem_nil)
  obtain ⟨target, ht⟩ := Graph.getLane_of_valid hg.toIsPyGraph hs.attached.target
  obtain ⟨prev, hpr⟩ := Graph.getLane_of_valid hg.toIsPyGraph hs.previous
  obtain ⟨f, b, hfb, _⟩ := neighbours_nearest r s.v none s.v.lane (by simpa using hs.attached.lane)
  -- the trajectories
  obtain ⟨w, hw⟩ : ∃ w, Vehicle.createFrom G r.network s.v.uid .linear s.v = .ok w := by
    obtain ⟨w0, _, _, ha, hi⟩ := mk'_total G hg hne s.v.uid .linear s.v.pos s.v.heading s.v.speed
    unfold Vehicle.createFrom Vehicle.mk'
    rw [if_pos (show VKind.linear.isControlled = true from rfl), if_pos hs.controlled]
    simp only [hi, ha.lane, bind, Except.bind]
    exact ⟨_, rfl⟩
  have hstore : s.store G r.network = .ok { s with trajectory := s.trajectory ++ [w], intervals := s.intervals ++ [s.interval] } := by
    unfold store
    simp only [hw, bind, Except.bind]
    rfl
  set s1 : IntervalVehicle := { s with trajectory := s.trajectory ++ [w], intervals := s.intervals ++ [s.interval] } with hs1
  have key : ∃ t, updateInterval E G r others dt mode s1 = .ok t ∧ t.v = s.v ∧ ValidIndex r.network t.previousTarget ∧
      ((t.lon = none ∧ t.lat = none) ∨ ∃ lon lat, t.lon = some lon ∧ t.lat = some lat ∧ lon.da ≠ [] ∧ lat.da ≠ []) := by
    unfold updateInterval
    split
    · exact ⟨_, rfl, rfl, hs.previous, hs.predictors⟩
    · cases mode with
      | other => exact ⟨_, rfl, rfl, hs.previous, hs.predictors⟩
      | partial' =>
        obtain ⟨o, ho⟩ : ∃ o, observer G r others s1 = .ok o := by
          obtain ⟨c, hc, c1, _, c3, _, _, c6, _, _, _, _, _, _, _, _, _, _, _, _, _, _, c10, c11⟩ :=
            interval_copy G r.network hg hne s.v.uid s.v hs.controlled s.thetaA s.thetaB s.data
          obtain ⟨f', b', hfb', _⟩ := neighbours_nearest
            ({ r with vehicles := r.vehicles.map fun u => if u.uid = s.v.uid then c.v else u } : Road) c.v none c.v.lane (by simpa using c11)
          have hfi := frontInterval_eq ({ r with vehicles := r.vehicles.map fun u => if u.uid = s.v.uid then c.v else u } : Road) hg hne others c.v f' b' hfb'
          unfold observer
          simp only [hs1, hc, bind, Except.bind, hfi, c6, ht]
          exact ⟨_, rfl⟩
        dsimp only
        rw [ho]
        exact ⟨_, rfl, rfl, hs.previous, hs.predictors⟩
      | predictor =>
        dsimp only
        exact predict_ready E G r hg hne others dt s1 f b hfb target ht prev hpr hs.attached.target hs.predictors
  obtain ⟨t, h1, hv1, hp1, hl1⟩ := key
  obtain ⟨v', hv'⟩ := vstep_total hg hs.attached r.recordHistory dt
  have hat' := (step_attached hs.attached hv').1
  unfold IntervalVehicle.step
  simp only [hstore, bind, Except.bind]
  rw [h1]
  simp only [hv1, hv']
  refine ⟨_, rfl, hat', ?_, hp1, hl1⟩
  show v'.kind.isControlled = true
  rw [(Vehicle.step_mind hv').kind]
  exact hs.controlled

/-! ## Concrete vehicles -/

/-- A vehicle alone on a two-lane road, known exactly. -/
def _root_.HighwayEnv.Sample.known : IntervalVehicle :=
  { v := Sample.car 1 .linear 10 0 20, thetaA := accelerationRange, thetaB := steeringRange, data := none
    interval := VehicleInterval.certain ⟨10, 0⟩ 20 0, previousTarget := ⟨"0", "1", 0⟩ }

private theorem known_ready : IntervalReady Sample.net Sample.known :=
  ⟨⟨⟨0, _, rfl, Sample.net_has0⟩, Graph.getLane_of_hasLane Sample.net_py rfl Sample.net_has0, ⟨0, _, rfl, Sample.net_has0⟩⟩, rfl, ⟨0, _, rfl, Sample.net_has0⟩, .inl ⟨rfl, rfl⟩⟩

private theorem known_closest : Sample.net.getClosestLaneIndex ⟨10, 0⟩ (some 0) = .ok ⟨"0", "1", 0⟩ := by
  refine closest_strict Sample.net_wf Sample.net_has0 ?_
  rintro a b k l ⟨ls, ⟨d, h1, h2⟩, h3⟩ hle
  simp only [Sample.net, List.mem_singleton, Prod.mk.injEq] at h1
  obtain ⟨rfl, rfl⟩ := h1
  simp only [List.mem_singleton, Prod.mk.injEq] at h2
  obtain ⟨rfl, rfl⟩ := h2
  refine ⟨rfl, rfl, ?_⟩
  rcases k with _ | _ | k
  · rfl
  · exfalso
    obtain rfl : Sample.lane 1 = l := by simpa using h3
    have hd : ∀ k : ℕ, (Sample.lane k).distanceWithHeading ⟨10, 0⟩ (some 0) = 4 * k := by
      intro k
      have hh : (Sample.lane k).headingAt 10 = 0 := by simp [Sample.lane, Lane.headingAt, Lane.straightHeading, arctan2_pos]
      simp only [Lane.distanceWithHeading, Sample.lane_local, Sample.lane_length, hh, sub_self, wrap_zero]
      norm_num [abs_of_nonneg]
    rw [hd, hd] at hle
    norm_num at hle
  · simp at h3

/-- The hypotheses of `first_step_encloses` are met: steps of 1/15 s of a vehicle alone. -/
example (E : Eigs) (G : Globals) (rng : Rng) : ∃ s', Sample.known.step E G { network := Sample.net, rng := rng } (fun _ => none) (1 / 15) .partial' = .ok s' ∧
    InVehicle ⟨10 + 1 / 15 * (20 * cos 0 + 1 / 2), 0 + 1 / 15 * (20 * sin 0 + 0)⟩ (20 + 1 / 15 * (3 / 10 * (20 - 20))) (0 + 1 / 15 * (0 + 1)) s'.interval := by
  obtain ⟨s', h, _⟩ := interval_step_never_raises E G { network := Sample.net, rng := rng } Sample.net_wf (fun _ => none) (1 / 15) .partial' Sample.known known_ready
  refine ⟨s', h, ?_⟩
  have hp := pi_pos
  have key := first_step_encloses E G { network := Sample.net, rng := rng } Sample.net_wf (by simp [Sample.net]) (fun _ => none) (1 / 15) (by norm_num) Sample.known s' rfl
    known_ready.attached.lane known_closest (by norm_num [Sample.known, Sample.car]) (Sample.lane 0) known_ready.attached.lane ⟨0, 4 * (0 : ℕ)⟩ ⟨100, 4 * (0 : ℕ)⟩ rfl rfl rfl
    (by norm_num [Sample.known, Sample.car]) (by norm_num [Sample.known, steeringRange]) (by norm_num [Sample.known, steeringRange])
    (show -π ≤ 0 by linarith) (show (0 : ℝ) ≤ 3 * π / 2 by linarith) h none none (by
      have hl := known_ready.attached.lane
      show Road.neighbourVehicles _ _ none = _
      unfold Road.neighbourVehicles
      simp only [Option.getD_none, hl, bind, Except.bind]
      rfl) none (fun _ => rfl) (by rintro e ⟨⟩)
    ![3 / 10, 3 / 10, 2] (by constructor <;> intro j <;> fin_cases j <;> simp [Sample.known, accelerationRange] <;> norm_num)
    ![5, 25 / 3] (by constructor <;> intro j <;> fin_cases j <;> simp [Sample.known, steeringRange] <;> norm_num) (1 / 2) 0 1 (by norm_num [abs_of_pos]) (by norm_num) (by norm_num)
  have hsh : Lane.straightHeading ⟨0, 4 * (0 : ℕ)⟩ ⟨100, 4 * (0 : ℕ)⟩ = 0 := by simp [Lane.straightHeading, arctan2_pos]
  rw [hsh] at key
  have hy : linearYawRate ![5, 25 / 3] (wrapToPi (Sample.known.v.heading - 0)) ((Sample.lane 0).localCoordinates Sample.known.v.pos).2 Sample.known.v.speed = 0 := by
    show linearYawRate _ (wrapToPi (0 - 0)) ((Sample.lane 0).localCoordinates ⟨10, 0⟩).2 20 = 0
    rw [sub_self, wrap_zero, Sample.lane_local]
    norm_num [linearYawRate]
  have ha : linearAcceleration ![3 / 10, 3 / 10, 2] Sample.known.v.targetSpeed (G.distanceWanted .linear) (5 / 2) Sample.known.v.speed none = 3 / 10 * (20 - 20) := by
    show min (max (3 / 10 * (20 - 20)) (-6)) 6 = (3 / 10 * (20 - 20) : ℝ)
    norm_num
  rw [hy, Option.map_none, ha] at key
  exact key

/-- The hypotheses of `predictions_enclose` are met by the same vehicle, predicted for ever. -/
example (E : Eigs) (hE : E.two (boxToPolytope steeringRange lateralStructure).1 = none) (G : Globals) (rng : Rng) :
    ∃ s : ℕ → IntervalVehicle, s 0 = Sample.known ∧ (∀ t, (s t).predict E G { network := Sample.net, rng := rng } (fun _ => none) (1 / 15) = .ok (s (t + 1))) ∧
      ∀ t, InItv (20 : ℝ) (s t).interval.speed := by
  have tot : ∀ s : {s : IntervalVehicle // IntervalReady Sample.net s ∧ s.v = Sample.known.v}, ∃ s' : {s : IntervalVehicle // IntervalReady Sample.net s ∧ s.v = Sample.known.v},
      s.1.predict E G { network := Sample.net, rng := rng } (fun _ => none) (1 / 15) = .ok s'.1 := by
    rintro ⟨s, hs, hv⟩
    obtain ⟨target, ht⟩ := Graph.getLane_of_valid Sample.net_py hs.attached.target
    obtain ⟨prev, hpr⟩ := Graph.getLane_of_valid Sample.net_py hs.previous
    obtain ⟨f, b, hfb, _⟩ := neighbours_nearest ({ network := Sample.net, rng := rng } : Road) s.v none s.v.lane (by simpa using hs.attached.lane)
    obtain ⟨t, h1, h2, h3, h4⟩ := predict_ready E G { network := Sample.net, rng := rng } Sample.net_wf (by simp [Sample.net]) (fun _ => none) (1 / 15) s f b hfb target ht prev hpr
      hs.attached.target hs.predictors
    exact ⟨⟨t, ⟨by rw [h2]; exact hs.attached, by rw [h2]; exact hs.controlled, h3, h4⟩, h2.trans hv⟩, h1⟩
  choose F hF using tot
  let S : ℕ → {s : IntervalVehicle // IntervalReady Sample.net s ∧ s.v = Sample.known.v} := fun t => F^[t] ⟨Sample.known, known_ready, rfl⟩
  have hS : ∀ t, (S t).1.predict E G { network := Sample.net, rng := rng } (fun _ => none) (1 / 15) = .ok (S (t + 1)).1 := by
    intro t
    rw [hF]
    simp only [S, Function.iterate_succ_apply']
  refine ⟨fun t => (S t).1, rfl, hS, fun t => ?_⟩
  rcases t with _ | t
  · exact ⟨le_rfl, le_rfl⟩
  have hv : ∀ t, (S t).1.v = Sample.known.v := fun t => (S t).2.2
  have hl := known_ready.attached.lane
  have hc : (Sample.lane 0).localCoordinates Sample.known.v.pos = (10, 0) := by
    show (Sample.lane 0).localCoordinates ⟨10, 0⟩ = _
    rw [Sample.lane_local]; norm_num
  have hh : Sample.known.v.lane.headingAt 10 = 0 := by
    show (Sample.lane 0).headingAt 10 = 0
    simp [Sample.lane, Lane.headingAt, Lane.straightHeading, arctan2_pos]
  have hth : (S 0).1.thetaA = accelerationRange := rfl
  have hth' : (S 0).1.thetaB = steeringRange := rfl
  -- the vehicle "ahead" of an empty road speeds up from 0 to the target speed
  obtain ⟨x, hx0, hxs⟩ : ∃ x : ℕ → Fin 4 → ℝ, x 0 = ![10, 0, 20, 0] ∧ ∀ t, x (t + 1) =
      ![x t 0 + 1 / 15 * (x t 2 + 0), x t 1 + 1 / 15 * x t 3, x t 2 + 1 / 15 * (3 / 10 * (20 - x t 2)), x t 3 + 1 / 15 * (3 / 10 * (20 - x t 3))] :=
    ⟨fun t => Nat.rec ![10, 0, 20, 0] (fun _ x => ![x 0 + 1 / 15 * (x 2 + 0), x 1 + 1 / 15 * x 3, x 2 + 1 / 15 * (3 / 10 * (20 - x 2)),
      x 3 + 1 / 15 * (3 / 10 * (20 - x 3))]) t, rfl, fun t => rfl⟩
  have hx2 : ∀ t, x t 2 = 20 := by
    intro t
    induction t with
    | zero => rw [hx0]; rfl
    | succ t ih => rw [hxs]; show x t 2 + 1 / 15 * (3 / 10 * (20 - x t 2)) = 20; rw [ih]; norm_num
  have key := predictions_enclose E G (fun _ => { network := Sample.net, rng := rng }) (fun _ _ => none) (1 / 15) (by norm_num) (fun t => (S t).1) (fun t => (S (t + 1)).1) hS
    (fun t => ⟨rfl, rfl, rfl, rfl, by rw [hv, hv]⟩) (Sample.lane 0) (fun t => by rw [hv]; exact hl) ⟨0, 4 * (0 : ℕ)⟩ ⟨100, 4 * (0 : ℕ)⟩ rfl Sample.net_wf (by simp [Sample.net])
    rfl rfl rfl rfl none none (by
      show Road.neighbourVehicles _ _ none = _
      unfold Road.neighbourVehicles
      simp only [hv, Option.getD_none, hl, bind, Except.bind]
      rfl) (by rintro e ⟨⟩) (by rintro e ⟨⟩)
    (show 0 ≤ accelerationRange.1 1 + accelerationRange.2 1 by norm_num [accelerationRange])
    (show 1 / 15 * ((accelerationRange.1 0 + accelerationRange.2 0) / 2 + (accelerationRange.1 1 + accelerationRange.2 1) / 2) ≤ 1 by norm_num [accelerationRange])
    (show 1 / 10 ^ 9 < (steeringRange.1 1 + steeringRange.2 1) / 2 by norm_num [steeringRange]) hE x
    (by
      show x 0 = ![((Sample.lane 0).localCoordinates Sample.known.v.pos).1, 0, 20, 0]
      rw [hc, hx0])
    (fun t => ⟨![3 / 10, 3 / 10, 2], 0, by constructor <;> intro j <;> fin_cases j <;> norm_num [hth, accelerationRange], by norm_num, by
      rw [hxs]
      exact ⟨rfl, rfl, (by rintro ⟨e, ⟨⟩, _⟩), fun _ => rfl, rfl⟩⟩)
    (fun _ => ![0, 0]) (by
      show ![0, 0] = ![((Sample.lane 0).localCoordinates Sample.known.v.pos).2, 0 - Sample.known.v.lane.headingAt ((Sample.lane 0).localCoordinates Sample.known.v.pos).1]
      rw [hc, hh, sub_zero])
    (fun t => ⟨![5, 25 / 3], 0, by constructor <;> intro j <;> fin_cases j <;> norm_num [hth', steeringRange], by norm_num, by
      constructor <;> simp⟩) t
  have := key.2.1
  rw [hx2] at this
  exact this

end HighwayEnv.Props
