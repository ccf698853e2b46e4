import Verif.Lemmas.Translate
import Verif.Lemmas.Num
import Verif.Props.EnvSafe
import Mathlib.Analysis.Real.Pi.Bounds

/-!
# C109 — moving the whole world does not change the simulation
-/

noncomputable section
open Classical
namespace HighwayEnv.Props
open HighwayEnv Spec

/-- **C109.** Displacing every lane, vehicle and object by the same vector displaces every later state by that vector and changes
nothing else: same crash flags, lane indices, speeds, headings, decisions, random draws, and the same exceptions. -/
theorem moved_world (t : Vec2) (G : Globals) (dt : ℝ) (r : Road) (cmds : List (List (ℕ × VAction))) :
    frames G dt (r.translate t) cmds = (frames G dt r cmds).map (Road.translate t) := by
  refine foldlM_equiv (Road.translate t) _ _ (fun s c => ?_) cmds r
  unfold frame
  have h := foldlM_equiv (Road.translate t) (fun r (c : ℕ × VAction) => r.actAt G c.2 c.1)
    (fun r (c : ℕ × VAction) => r.actAt G c.2 c.1) (fun r c => Road.actAt_tr t G c.2 r c.1) c s
  rw [h]
  cases List.foldlM (fun r (c : ℕ × VAction) => r.actAt G c.2 c.1) s c with
  | error e => rfl
  | ok s1 =>
    show (do let r ← (s1.translate t).act G; r.step dt) = _
    rw [Road.act_tr]
    simp only [bind, Except.bind]
    cases s1.act G with
    | error e => rfl
    | ok s2 => exact Road.step_tr t s2 dt

/-- **C109.** What a user can read off the moved world after any number of frames: each vehicle has the same speed, heading, lane and
crash flag as in the original one, and its position is displaced by exactly `t`. -/
theorem moved_vehicles (t : Vec2) (G : Globals) (dt : ℝ) (r r' : Road) (cmds : List (List (ℕ × VAction))) (h : frames G dt r cmds = .ok r') :
    ∃ s, frames G dt (r.translate t) cmds = .ok s ∧ s.vehicles.length = r'.vehicles.length ∧
      ∀ (i : ℕ) (v : Vehicle), r'.vehicles[i]? = some v → ∃ w, s.vehicles[i]? = some w ∧ w.pos = v.pos + t ∧ w.heading = v.heading ∧
        w.speed = v.speed ∧ w.laneIndex = v.laneIndex ∧ w.crashed = v.crashed ∧ w.targetLane = v.targetLane ∧
        w.targetSpeed = v.targetSpeed ∧ w.steering = v.steering ∧ w.acceleration = v.acceleration := by
  refine ⟨r'.translate t, by rw [moved_world, h]; rfl, by simp, fun i v hv => ⟨v.translate t, by simp [hv], rfl, rfl, rfl, rfl, rfl, rfl, rfl, rfl, rfl⟩⟩

/-- **C109.** An exception raised by the simulation is raised in the moved world too, and no other. -/
theorem moved_raises (t : Vec2) (G : Globals) (dt : ℝ) (r : Road) (cmds : List (List (ℕ × VAction))) (e : PyErr) :
    frames G dt (r.translate t) cmds = .error e ↔ frames G dt r cmds = .error e := by
  rw [moved_world]
  cases frames G dt r cmds with
  | error e' => exact Iff.rfl
  | ok r' => constructor <;> intro h <;> cases h

/-- **C109, creation.** Constructing a vehicle in the moved world gives the moved vehicle, except for the lane-change timer, which the
code seeds with the absolute position: `(sum(position) * pi) % 1`. -/
theorem moved_creation (t : Vec2) (G : Globals) (g : Graph) (uid : ℕ) (kind : VKind) (p : Vec2) (heading speed : ℝ)
    (tl : Option LaneIndex) (ts : Option ℝ) (route : Option (List RouteStep)) (elc : Bool) :
    Vehicle.mk' G (g.translate t) uid kind (p + t) heading speed tl ts route elc =
      (Vehicle.mk' G g uid kind p heading speed tl ts route elc).map fun v =>
        { v.translate t with timer := pyMod (((p + t).x + (p + t).y) * Real.pi) 1 } := by
  unfold Vehicle.mk'
  rw [Graph.getClosestLaneIndex_tr]
  cases g.getClosestLaneIndex p (some heading) with
  | error e => rfl
  | ok i =>
    simp only [bind, Except.bind, Graph.getLane_tr]
    cases g.getLane i with
    | error e => rfl
    | ok l => rfl

/-- **C109, creation.** With an explicit non-zero timer construction commutes with the displacement altogether. -/
theorem moved_creation_timer (t : Vec2) (G : Globals) (g : Graph) (uid : ℕ) (kind : VKind) (p : Vec2) (heading speed : ℝ)
    (tl : Option LaneIndex) (ts : Option ℝ) (route : Option (List RouteStep)) (elc : Bool) (timer : ℝ) (ht : timer ≠ 0) :
    Vehicle.mk' G (g.translate t) uid kind (p + t) heading speed tl ts route elc (some timer) =
      (Vehicle.mk' G g uid kind p heading speed tl ts route elc (some timer)).map (Vehicle.translate t) := by
  unfold Vehicle.mk'
  have h : Lane.optTruthy (some timer) = true := by simp [Lane.optTruthy, truthy, ht]
  rw [Graph.getClosestLaneIndex_tr, h]
  cases g.getClosestLaneIndex p (some heading) with
  | error e => rfl
  | ok i =>
    simp only [bind, Except.bind, Graph.getLane_tr]
    cases g.getLane i with
    | error e => rfl
    | ok l => rfl

/-- The timer does differ: created at the origin a vehicle starts with timer 0; created in the same place of a world moved by 0.1 m it
starts with timer π/10, so it will consider its first lane change earlier. -/
theorem moved_timer_differs : pyMod (((⟨0, 0⟩ : Vec2).x + (⟨0, 0⟩ : Vec2).y) * Real.pi) 1 = 0 ∧
    pyMod (((⟨0, 0⟩ + ⟨1 / 10, 0⟩ : Vec2).x + (⟨0, 0⟩ + ⟨1 / 10, 0⟩ : Vec2).y) * Real.pi) 1 = Real.pi / 10 := by
  have h1 := Real.pi_gt_three
  have h2 := Real.pi_lt_four
  constructor
  · simp [pyMod]
  · have : ⌊(10 : ℝ)⁻¹ * Real.pi⌋ = 0 := by
      rw [Int.floor_eq_zero_iff]
      constructor <;> linarith
    simp [pyMod, this]
    ring

/-- Non-vacuity of C109: the regulated sample road with a discrete-action vehicle behind a traffic vehicle, driven for a frame with a
lane change, runs; moved by a kilometre it runs too and every vehicle is exactly one kilometre away from its original. -/
example : ∃ r', frames {} (1 / 15) sampleEnv.road [[(0, .laneRight)]] = .ok r' ∧
    frames {} (1 / 15) (sampleEnv.road.translate ⟨1000, 0⟩) [[(0, .laneRight)]] = .ok (r'.translate ⟨1000, 0⟩) := by
  have h0 : Healthy sampleEnv.road := sample_healthy true
  obtain ⟨r1, h1⟩ := (never_raises {} _ _ h0 (.refl _)).1 0 (Sample.car 0 .mdp 10 0 20) .laneRight rfl (.inl rfl)
  have hr1 : RoadRun {} sampleEnv.road r1 := .tail (.refl _) (.actAt 0 .laneRight h1)
  obtain ⟨r2, h2⟩ := (never_raises {} _ _ h0 hr1).2.1
  have hr2 : RoadRun {} sampleEnv.road r2 := .tail hr1 (.act h2)
  obtain ⟨r3, h3⟩ := (never_raises {} _ _ h0 hr2).2.2 (1 / 15) (fun _ => ⟨by norm_num, by norm_num⟩)
  have h : frames {} (1 / 15) sampleEnv.road [[(0, .laneRight)]] = .ok r3 := by
    simp only [frames, frame, List.foldlM_cons, List.foldlM_nil, bind, Except.bind, pure, Except.pure, h1, h2, h3]
  exact ⟨r3, h, by rw [moved_world, h]; rfl⟩

end HighwayEnv.Props
