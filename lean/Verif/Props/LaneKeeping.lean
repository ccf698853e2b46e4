import Verif.Spec.LaneKeeping
import Verif.Props.EnvSafe
import Verif.Props.Highway
import Verif.Lemmas.Segment
import Verif.Lemmas.Place

/-!
# C89 — the lane-keeping task
-/

noncomputable section
open Classical
namespace HighwayEnv.Props
open HighwayEnv HighwayEnv.Spec Graph

/-! ## The map -/

theorem keeping_network : LaneKeeping.network = keepingNet := by
  unfold LaneKeeping.network keepingNet
  simp [addLane, Dict.get?, Dict.setItem]

theorem keepingNet_wf : WellFormed keepingNet where
  outer := by simp [keepingNet]
  inner := by simp [keepingNet]
  nonemptyNode := by simp [keepingNet]
  nonemptyEdge := by simp [keepingNet]

/-! ## One frame -/

private theorem restrict_clip {b x : ℝ} (hb : 0 ≤ b) : npClip x (-b) b = restrict b x := by
  unfold npClip restrict
  rcases le_total x (-b) with h | h
  · rw [max_eq_right h, min_eq_left (by linarith : -b ≤ b), min_eq_right (by linarith : x ≤ b), max_eq_left h]
  · rw [max_eq_left h, min_comm, max_eq_right (le_min (by linarith) h)]

theorem restrict_idem {b x : ℝ} : restrict b (restrict b x) = restrict b x := by
  unfold restrict
  rcases le_total b (-b) with h | h
  · rw [min_eq_left (le_max_of_le_left h : b ≤ max (-b) (min b x)), max_eq_left h, max_eq_left ((min_le_left _ _).trans h)]
  · rw [min_eq_right (max_le h (min_le_left _ _)), max_eq_right (le_max_left _ _)]

private theorem turning_eq {v : Vehicle} (hs : 1 ≤ |v.speed|) : v.bicycleLateral = (bikeOf v).turning v.steering := by
  unfold Vehicle.bicycleLateral Bike.turning Bike.forces bikeOf angle arctan2 Vehicle.INERTIA_Z Vehicle.LENGTH Vehicle.WIDTH
  dsimp only
  rw [if_neg (by linarith)]
  norm_num
  ring

/-- The bicycle vehicle without acceleration, at 8.3 m/s, follows the Euler steps of the single-track model. -/
private theorem bike_step {g : Graph} (hg : WellFormed g) (hne : g ≠ []) (rec : Bool) (dt : ℝ) (v : Vehicle) (hk : v.kind = .bicycle) (hc : v.crashed = false)
    (hs : v.speed = 83 / 10) (ha : v.acceleration = 0) :
    ∃ w, v.step g rec dt = .ok w ∧ w.uid = v.uid ∧ w.kind = .bicycle ∧ w.crashed = false ∧ w.acceleration = 0 ∧
      w.steering = restrict (Real.pi / 2) v.steering ∧ bikeOf w = (bikeOf v).euler v.steering dt := by
  have hpi := Real.pi_pos
  obtain ⟨a, b, k, l, hl⟩ := HighwayEnv.WellFormed.hasLane hg hne
  obtain ⟨i, hi⟩ := closest_ok_of_exists hl (v.move dt).pos (some (v.move dt).heading)
  obtain ⟨li, hli⟩ := getLane_of_valid hg.toIsPyGraph (closest_spec hi)
  have hbase : v.clipActionsBase = v := by
    unfold Vehicle.clipActionsBase
    rw [hc]
    simp only [Bool.false_eq_true, if_false]
    have hm : v.kind.maxSpeed = 15 := by rw [hk]; rfl
    rw [hm, hs, if_neg (by norm_num), if_neg (by norm_num)]
  have hclip : v.clipActions = { v with steering := restrict (Real.pi / 2) v.steering, yawRate := restrict (2 * Real.pi) v.yawRate } := by
    unfold Vehicle.clipActions
    rw [hbase]
    dsimp only
    rw [if_pos hk, neg_div, restrict_clip (by linarith), restrict_clip (by linarith)]
  have hmove : v.move dt = v.clipActions.integrateBicycle dt := by
    unfold Vehicle.move
    have h1 : v.kind.isIDM = false := by rw [hk]; rfl
    simp only [h1, Bool.false_eq_true, if_false]
    rw [if_pos (by rw [hclip]; exact hk)]
  refine ⟨{ v.move dt with laneIndex := i, lane := li, history := if rec then (⟨(v.move dt).pos, (v.move dt).heading, (v.move dt).speed⟩ :: (v.move dt).history).take 30 else (v.move dt).history }, ?_, ?_, ?_, ?_, ?_, ?_, ?_⟩
  · unfold Vehicle.step Vehicle.onStateUpdate
    simp only [hi, hli, bind, Except.bind]
    rfl
  · dsimp only; rw [hmove, hclip]; rfl
  · dsimp only; rw [hmove, hclip]; exact hk
  · dsimp only; rw [hmove, hclip]; exact hc
  · dsimp only; rw [hmove, hclip]; exact ha
  · dsimp only; rw [hmove, hclip]; rfl
  · unfold bikeOf
    dsimp only
    rw [hmove]
    unfold Vehicle.integrateBicycle
    dsimp only
    rw [turning_eq (by rw [hclip]; dsimp only; rw [hs, abs_of_nonneg] <;> norm_num), hclip]
    unfold Bike.euler Bike.velocity Vec2.rot
    dsimp only
    ext
    · simp only [Vec2.add_x, Vec2.smul_x, bikeOf]; ring
    · simp only [Vec2.add_y, Vec2.smul_y, bikeOf]; ring
    · simp only; ring
    · simp only; rw [ha]; ring
    · simp only [bikeOf]; ring
    · simp only [bikeOf]; ring

/-- A road with one bicycle vehicle and nothing else. -/
private structure Lone (r : Road) (v : Vehicle) (d : ℝ) : Prop where
  network : r.network = keepingNet
  objects : r.objects = []
  plainRoad : r.regulated = false
  alone : r.vehicles = [v]
  uid : v.uid = 0
  kind : v.kind = .bicycle
  crashed : v.crashed = false
  speed : v.speed = 83 / 10
  acc : v.acceleration = 0
  steer : restrict (Real.pi / 2) v.steering = restrict (Real.pi / 2) d

private theorem euler_restrict {d d' dt : ℝ} (h : restrict (Real.pi / 2) d = restrict (Real.pi / 2) d') (b : Bike) : b.euler d dt = b.euler d' dt := by
  unfold Bike.euler
  rw [h]

private theorem lone_frame (G : Globals) (c : SimConfig) (k : Int) (e : Env) (v : Vehicle) (d : ℝ) (h : Lone e.road v d) :
    ∃ w, e.frame G c k none = .ok { e with road := { e.road with vehicles := [w] }, time := e.time + 1 } ∧
      Lone { e.road with vehicles := [w] } w d ∧ bikeOf w = (bikeOf v).euler d (1 / c.simulationFrequency) := by
  obtain ⟨w, h1, h2, h3, h4, h5, h6, h7⟩ := bike_step keepingNet_wf (by simp [keepingNet]) e.road.recordHistory (1 / c.simulationFrequency) v h.kind h.crashed
    h.speed h.acc
  refine ⟨w, ?_, ⟨h.network, h.objects, h.plainRoad, rfl, h2.trans h.uid, h3, h4, ?_, h5, ?_⟩, h7.trans (euler_restrict h.steer _)⟩
  · have hact : e.road.act G = .ok e.road := by
      unfold Road.act
      rw [h.alone, show List.range [v].length = [0] from rfl, List.foldlM_cons]
      unfold Road.actAt
      rw [h.alone]
      simp only [List.getElem?_cons_zero]
      unfold Vehicle.act
      rw [h.kind]
      simp only [bind, Except.bind, pure, Except.pure, List.set_cons_zero, List.foldlM_nil]
      rw [← h.alone]
    have hstep : e.road.step (1 / c.simulationFrequency) = .ok { e.road with vehicles := [w] } := by
      unfold Road.step
      rw [h.plainRoad]
      simp only [Bool.false_eq_true, if_false]
      unfold Road.stepBase Road.moveAll
      rw [h.alone, List.mapM_cons, List.mapM_nil, h.network, h1]
      simp only [bind, Except.bind, pure, Except.pure]
      rw [h.objects]
      congr 1
    unfold Env.frame Env.forward
    dsimp only [bind, Except.bind]
    rw [hact]
    dsimp only
    rw [hstep]
    rfl
  · have := congrArg Bike.speed h7
    exact this.trans h.speed
  · rw [h6, restrict_idem]; exact h.steer

private theorem lone_loop (G : Globals) (c : SimConfig) (k : Int) (n : ℕ) (e : Env) (hd : e.done = false) (v : Vehicle) (d : ℝ) (h : Lone e.road v d) :
    ∃ w, Env.simulateLoop G c LaneKeeping.cls k none n e = .ok { e with road := { e.road with vehicles := [w] }, time := e.time + n } ∧
      Lone { e.road with vehicles := [w] } w d ∧ bikeOf w = (bikeOf v).drive d (1 / c.simulationFrequency) n := by
  induction n generalizing e v with
  | zero =>
    refine ⟨v, ?_, ?_, rfl⟩
    · unfold Env.simulateLoop
      rw [← h.alone]; rfl
    · rw [← h.alone]; exact h
  | succ n ih =>
    obtain ⟨w, h1, h2, h3⟩ := lone_frame G c k e v d h
    obtain ⟨u, q1, q2, q3⟩ := ih { e with road := { e.road with vehicles := [w] }, time := e.time + 1 } hd w h2
    refine ⟨u, ?_, q2, ?_⟩
    · unfold Env.simulateLoop
      rw [h1]
      have hstop : Env.stops LaneKeeping.cls { e with road := { e.road with vehicles := [w] }, time := e.time + 1 } = .ok false := by
        unfold Env.stops
        rw [if_neg (by simp [hd])]
        rfl
      simp only [bind, Except.bind]
      rw [hstop]
      simp only [Bool.false_eq_true, if_false]
      rw [q1]
      congr 2
      dsimp only; ring
    · rw [q3, h3]
      unfold Bike.drive
      rw [Function.iterate_succ_apply]

/-! ## Observation -/

private theorem uniform_abs (rng : Rng) (a : ℝ) : |(rng.uniform (-a) a).1| ≤ |a| := by
  unfold Rng.uniform Rng.uniform01
  dsimp only
  have h0 := Int.fract_nonneg (rng.reals rng.rpos)
  have h1 := Int.fract_lt_one (rng.reals rng.rpos)
  generalize Int.fract (rng.reals rng.rpos) = u at h0 h1
  have : -a + u * (a - -a) = a * (2 * u - 1) := by ring
  rw [this, abs_mul]
  have : |2 * u - 1| ≤ 1 := abs_le.2 ⟨by linarith, by linarith⟩
  nlinarith [abs_nonneg a]

private theorem noise_within (a : ℝ) (xs : List ℝ) (rng : Rng) : Within |a| (LaneKeeping.addNoise a xs rng).1 xs := by
  induction xs generalizing rng with
  | nil => exact .nil
  | cons x xs ih =>
    refine .cons ?_ (ih _)
    rw [add_sub_cancel_left]
    exact uniform_abs rng a

private theorem noise_exact (a : ℝ) (rng : Rng) (xs : List ℝ) : ∀ n : ℕ, LaneKeeping.addNoise a xs (drawn rng n) = (noisy a rng n xs, drawn rng (n + xs.length)) := by
  induction xs with
  | nil => intro n; rfl
  | cons x xs ih =>
    intro n
    have h : (drawn rng n).uniform (-a) a = (a * (2 * Int.fract (rng.reals (rng.rpos + n)) - 1), drawn rng (n + 1)) := by
      unfold Rng.uniform Rng.uniform01 drawn
      refine Prod.ext ?_ rfl
      dsimp only
      ring
    unfold LaneKeeping.addNoise
    dsimp only
    rw [h, ih (n + 1)]
    refine Prod.ext rfl ?_
    show drawn rng (n + 1 + xs.length) = drawn rng (n + (xs.length + 1))
    congr 1
    omega

private theorem noise_twice (a d : ℝ) (rng : Rng) (xs ys : List ℝ) (hx : xs.length = 4) (hy : ys.length = 4) :
    (LaneKeeping.addNoise a xs rng).1 = noisy a rng 0 xs ∧ (LaneKeeping.addNoise d ys (LaneKeeping.addNoise a xs rng).2).1 = noisy d rng 4 ys ∧
      (LaneKeeping.addNoise d ys (LaneKeeping.addNoise a xs rng).2).2 = drawn rng 8 := by
  have h := noise_exact a rng xs 0
  have h' : drawn rng 0 = rng := rfl
  rw [h', hx] at h
  rw [h]
  dsimp only
  rw [Nat.zero_add, noise_exact d rng ys 4, hy]
  exact ⟨rfl, rfl, rfl⟩

private theorem vehicle_of {e : Env} {v : Vehicle} (h1 : e.controlled = [0]) (h2 : e.road.vehicles = [v]) (h3 : v.uid = 0) : e.vehicle = .ok v := by
  unfold Env.vehicle
  rw [h1]
  dsimp only
  have : e.road.vehicle? 0 = some v := by
    unfold Road.vehicle?
    rw [h2]
    simp [h3]
  rw [this]

private theorem lateral6 (a b c d e f : ℝ) : LaneKeeping.lateralPart [a, b, c, d, e, f] = .ok [b, c, e, f] := rfl

private theorem state_of {v : Vehicle} (h : v.kind = .bicycle) : LaneKeeping.vehicleState v = .ok (bikeOf v).full := by
  unfold LaneKeeping.vehicleState
  rw [if_pos h]; rfl

private theorem rate_of {v : Vehicle} (h : v.kind = .bicycle) (hs : v.speed = 83 / 10) :
    ∃ a d, LaneKeeping.vehicleDerivative v = .ok d ∧ LaneKeeping.lateralPart d = .ok ((bikeOf v).lateralRate v.steering) ∧ d.head? = some a := by
  unfold LaneKeeping.vehicleDerivative
  rw [if_pos h, turning_eq (by rw [hs, abs_of_nonneg] <;> norm_num)]
  refine ⟨_, _, rfl, ?_, rfl⟩
  rw [lateral6]
  unfold Bike.lateralRate Bike.velocity Vec2.rot bikeOf
  dsimp only
  congr 2
  ring

private theorem observe_exact (cfg : LaneKeepingConfig) (s : LaneKeeping.State) {v : Vehicle} (h1 : s.env.controlled = [0]) (h2 : s.env.road.vehicles = [v])
    (h3 : v.uid = 0) (hk : v.kind = .bicycle) (hs : v.speed = 83 / 10) :
    ∃ o rng, LaneKeeping.observe cfg s = .ok (o, rng) ∧ Within |cfg.stateNoise| o.state (bikeOf v).lateral ∧
      Within |cfg.derivativeNoise| o.derivative ((bikeOf v).lateralRate v.steering) ∧
      (∀ l, s.lane = some l → o.reference = keepingReference l v.pos) ∧
      o.state = noisy cfg.stateNoise s.env.road.rng 0 (bikeOf v).lateral ∧
      o.derivative = noisy cfg.derivativeNoise s.env.road.rng 4 ((bikeOf v).lateralRate v.steering) ∧ rng = drawn s.env.road.rng 8 := by
  obtain ⟨_, d, hd, hd', _⟩ := rate_of hk hs
  have href : ∃ r, LaneKeeping.reference s.lane v = .ok r ∧ ∀ l, s.lane = some l → r = keepingReference l v.pos := by
    unfold LaneKeeping.reference
    cases hl : s.lane with
    | none => exact ⟨_, rfl, by simp⟩
    | some l =>
      dsimp only
      rw [state_of hk]
      refine ⟨keepingReference l v.pos, rfl, ?_⟩
      intro l' h
      cases h; rfl
  obtain ⟨r, hr, hr'⟩ := href
  have hv := vehicle_of h1 h2 h3
  unfold LaneKeeping.observe
  rw [h1]
  dsimp only
  simp only [hv, state_of hk, bind, Except.bind, Bike.full, lateral6, hd, hd', hr]
  obtain ⟨n1, n2, n3⟩ := noise_twice cfg.stateNoise cfg.derivativeNoise s.env.road.rng (bikeOf v).lateral ((bikeOf v).lateralRate v.steering) rfl rfl
  exact ⟨_, _, rfl, noise_within _ _ _, noise_within _ _ _, hr', n1, n2, n3⟩

private theorem observe_of (cfg : LaneKeepingConfig) (s : LaneKeeping.State) {v : Vehicle} (h1 : s.env.controlled = [0]) (h2 : s.env.road.vehicles = [v])
    (h3 : v.uid = 0) (hk : v.kind = .bicycle) (hs : v.speed = 83 / 10) :
    ∃ o rng, LaneKeeping.observe cfg s = .ok (o, rng) ∧ Within |cfg.stateNoise| o.state (bikeOf v).lateral ∧
      Within |cfg.derivativeNoise| o.derivative ((bikeOf v).lateralRate v.steering) ∧
      ∀ l, s.lane = some l → o.reference = keepingReference l v.pos := by
  obtain ⟨o, rng, q1, q2, q3, q4, _⟩ := observe_exact cfg s h1 h2 h3 hk hs
  exact ⟨o, rng, q1, q2, q3, q4⟩

/-! ## One decision -/

private theorem wheel_eq (c : ContinuousConfig) (x : ℝ) (h1 : c.lateral = true) (h2 : c.longitudinal = false) :
    (AgentType.continuous c).command (.vector [x]) = .ok (.control (wheel c x) 0) := by
  unfold AgentType.command AgentType.continuousCommand
  dsimp only
  rw [h1, h2]
  have hx : AgentType.clipVector c [x] = [if c.clip then restrict 1 x else x] := by
    unfold AgentType.clipVector
    split
    · rw [List.map_cons, List.map_nil, restrict_clip (by norm_num)]
    · rfl
  rw [hx]
  simp only [Bool.false_and, Bool.false_eq_true, if_false, bind, Except.bind, pyIndex]
  norm_num [lmap, wheel, pure, Except.pure]
  ring

private theorem frames_eq {c : SimConfig} (h : c.policyFrequency ≠ 0) : ∃ k, Env.framesPerStep c = .ok k ∧ k.toNat = period c := by
  unfold Env.framesPerStep
  rw [if_neg h]
  refine ⟨_, rfl, ?_⟩
  unfold pyInt period
  have : ∀ z : ℤ, (if (0 : ℝ) ≤ (z : ℝ) then ⌊(z : ℝ)⌋ else ⌈(z : ℝ)⌉) = z := by
    intro z
    split
    · exact Int.floor_intCast z
    · exact Int.ceil_intCast z
  rw [this]
  rfl

private theorem bike_act (G : Globals) (r : Road) (v : Vehicle) (d a : ℝ) (h : v.kind = .bicycle) :
    v.act G r (.control d a) = .ok ({ v with steering := d, acceleration := a }, r.rng) := by
  unfold Vehicle.act
  split
  · rfl
  · rfl
  · rename_i h'; rw [h] at h'; cases h'
  · rename_i h'; rw [h] at h'; cases h'
  · rename_i h1 h2 h3 h4; exact absurd h h2

private theorem env_act (G : Globals) (cfg : LaneKeepingConfig) (c : ContinuousConfig) (hc : KeepingOk cfg c) (e : Env) (v : Vehicle) (h : e.controlled = [0])
    (v1 : e.road.vehicles = [v]) (v2 : v.uid = 0) (v3 : v.kind = .bicycle) (x : ℝ) :
    e.road.envAct G cfg.sim.action e.controlled (.vector [x]) = .ok { e.road with vehicles := [{ v with steering := wheel c x, acceleration := 0 }] } := by
  unfold Road.envAct
  rw [hc.action, h]
  dsimp only
  unfold Road.agentAct
  rw [wheel_eq c x hc.lateral hc.longitudinal]
  simp only [bind, Except.bind]
  have hi : e.road.indexOf 0 = some 0 := by
    unfold Road.indexOf
    rw [v1]
    simp [v2]
  rw [hi]
  dsimp only
  unfold Road.actAt
  rw [v1]
  simp only [List.getElem?_cons_zero, bind, Except.bind]
  rw [bike_act G _ v (wheel c x) 0 v3]
  rfl

private theorem keeping_step' (G : Globals) (cfg : LaneKeepingConfig) (c : ContinuousConfig) (hc : KeepingOk cfg c) (s : LaneKeeping.State) (b : Bike) (t : Bool)
    (h : Keeping s b t) (x : ℝ) :
    ∃ s' res t', LaneKeeping.step G cfg s (.vector [x]) = .ok (s', res) ∧ t' = (t || !LaneKeeping.otherLane.onLane b.pos) ∧
      Keeping s' (b.drive (wheel c x) (1 / cfg.sim.simulationFrequency) (period cfg.sim)) t' ∧
      s'.env.time = s.env.time + period cfg.sim ∧ s'.trajectory = s.trajectory ++ [b.full] ∧
      Within |cfg.stateNoise| res.obs.state b.lateral ∧ Within |cfg.derivativeNoise| res.obs.derivative (b.lateralRate (wheel c x)) ∧
      res.obs.reference = keepingReference (phaseLane t') b.pos ∧ res.terminal = false ∧
      res.reward = 1 - (((phaseLane t').localCoordinates (b.drive (wheel c x) (1 / cfg.sim.simulationFrequency) (period cfg.sim)).pos).2 / 10) ^ 2 ∧
      res.obs.state = noisy cfg.stateNoise s.env.road.rng 0 b.lateral ∧ res.obs.derivative = noisy cfg.derivativeNoise s.env.road.rng 4 (b.lateralRate (wheel c x)) ∧
      s'.env.road.rng = drawn s.env.road.rng 8 := by
  obtain ⟨v, v1, v2, v3, v4, v5⟩ := h.alone
  have hv := vehicle_of h.agent v1 v2
  have hpos : v.pos = b.pos := congrArg Bike.pos v5
  have hspeed : v.speed = 83 / 10 := (congrArg Bike.speed v5).trans h.speed
  set t' := (t || !LaneKeeping.otherLane.onLane b.pos) with ht'
  -- tracked lane
  have hswitch : LaneKeeping.switchLane s = .ok { s with lane := some (phaseLane t'), lanes := if t' then [] else [LaneKeeping.sineLane] } := by
    unfold LaneKeeping.switchLane
    rw [h.rest, h.tracked]
    cases t with
    | true =>
      simp only [if_true, ht', Bool.true_or]
      have h1 := h.rest
      have h2 := h.tracked
      simp only [if_true] at h1 h2
      rw [← h2, ← h1]
    | false =>
      simp only [Bool.false_eq_true, if_false, hv, bind, Except.bind, hpos]
      have h1 := h.rest
      have h2 := h.tracked
      simp only [Bool.false_eq_true, if_false] at h1 h2
      have h3 : phaseLane false = LaneKeeping.otherLane := rfl
      have h4 : phaseLane true = LaneKeeping.sineLane := rfl
      cases hon : LaneKeeping.otherLane.onLane b.pos with
      | true =>
        have : t' = false := by rw [ht', hon]; rfl
        rw [this, h3, hon]
        simp only [if_true, Bool.false_eq_true, if_false]
        rw [← h1, ← h3, ← h2]; rfl
      | false =>
        have : t' = true := by rw [ht', hon]; rfl
        rw [this, h3, h4, hon]
        simp only [if_true, Bool.false_eq_true, if_false]
        rfl
  set s1 : LaneKeeping.State := { s with lane := some (phaseLane t'), lanes := if t' then [] else [LaneKeeping.sineLane] } with hs1
  have hstore : LaneKeeping.storeData s1 = .ok { s1 with trajectory := s.trajectory ++ [b.full] } := by
    unfold LaneKeeping.storeData
    have hv1 : s1.env.vehicle = .ok v := hv
    simp only [hv1, bind, Except.bind, state_of v3, v5]
    rfl
  -- the action
  set w : Vehicle := { v with steering := wheel c x, acceleration := 0 } with hw
  have hact := env_act G cfg c hc s.env v h.agent v1 v2 v3 x
  set s2 : LaneKeeping.State := { s1 with trajectory := s.trajectory ++ [b.full], env := { s.env with road := { s.env.road with vehicles := [w] } } } with hs2
  have hwb : bikeOf w = b := v5
  obtain ⟨o, rng, ho, ho1, ho2, ho3, ho4, ho5, ho6⟩ := observe_exact cfg s2 (v := w) h.agent rfl v2 v3 hspeed
  rw [hwb] at ho1 ho2 ho4 ho5
  -- the simulation
  obtain ⟨k, hk1, hk2⟩ := frames_eq hc.policy
  have hlone : Lone (LaneKeeping.withRng s2 rng).env.road w (wheel c x) := ⟨h.network, h.objects, h.plainRoad, rfl, v2, v3, v4, hspeed, rfl, rfl⟩
  obtain ⟨u, hu, hl, hb⟩ := lone_loop G cfg.sim k (period cfg.sim) (LaneKeeping.withRng s2 rng).env h.running w (wheel c x) hlone
  rw [hwb] at hb
  set b' := b.drive (wheel c x) (1 / cfg.sim.simulationFrequency) (period cfg.sim) with hb'
  set s3 : LaneKeeping.State := { LaneKeeping.withRng s2 rng with
    env := { (LaneKeeping.withRng s2 rng).env with road := { (LaneKeeping.withRng s2 rng).env.road with vehicles := [u] }, time := s.env.time + period cfg.sim } } with hs3
  have hu3 : s3.env.vehicle = .ok u := vehicle_of h.agent rfl hl.uid
  have hrew : LaneKeeping.reward s3 = .ok (1 - (((phaseLane t').localCoordinates b'.pos).2 / 10) ^ 2) := by
    unfold LaneKeeping.reward
    have : s3.lane = some (phaseLane t') := rfl
    rw [this]
    have hwid : (phaseLane t').width = 10 := by cases t' <;> rfl
    have hpu : u.pos = b'.pos := congrArg Bike.pos hb
    simp only [hu3, bind, Except.bind, hwid, hpu]
    rw [if_neg (by norm_num)]
    rfl
  refine ⟨s3, ⟨o, 1 - (((phaseLane t').localCoordinates b'.pos).2 / 10) ^ 2, false⟩, t', ?_, rfl,
    ⟨h.network, h.objects, h.plainRoad, h.agent, h.running, h.steps, ⟨u, rfl, hl.uid, hl.kind, hl.crashed, hb⟩, ?_, rfl, rfl⟩, rfl, rfl, ho1, ho2, ?_, rfl, rfl, ho4, ho5, ho6⟩
  · unfold LaneKeeping.step
    rw [hswitch]
    simp only [bind, Except.bind]
    rw [hstore]
    dsimp only
    have hact' : s1.env.road.envAct G cfg.sim.action s1.env.controlled (.vector [x]) = .ok { s.env.road with vehicles := [w] } := hact
    rw [hact']
    dsimp only
    have ho' := ho
    rw [hs2] at ho'
    rw [ho']
    dsimp only
    unfold Env.simulate
    rw [hk1]
    simp only [bind, Except.bind, hk2]
    rw [hu]
    dsimp only
    change (LaneKeeping.reward s3 >>= fun x => pure (s3, (⟨o, x, false⟩ : LaneKeeping.Result))) = _
    rw [hrew]
    rfl
  · rw [← hb]; exact hl.speed
  · rw [ho3 _ rfl, ← hpos]

/-- **C89, one decision.**  In any state of an episode, `step([x])` succeeds.  The vehicle then makes the Euler steps of the single-track model with the
wheel angle ordered by `x`, at its constant speed.  The observation is, up to the noise, the state and rate *before* this motion, and the reference of
the tracked lane there; the reward is one minus the square of the offset to the tracked lane after the motion, in widths of the lane.  The sine
lane is tracked from the first decision made off the straight lane on.  The state before the decision is appended to the trajectory.  The clock
advances by one period (the counter of decisions does not: it stays 0 in `Keeping`), and the episode is never over. -/
theorem keeping_step (G : Globals) (cfg : LaneKeepingConfig) (c : ContinuousConfig) (hc : KeepingOk cfg c) (s : LaneKeeping.State) (b : Bike) (t : Bool)
    (h : Keeping s b t) (x : ℝ) :
    ∃ s' res t', LaneKeeping.step G cfg s (.vector [x]) = .ok (s', res) ∧ t' = (t || !LaneKeeping.otherLane.onLane b.pos) ∧
      Keeping s' (b.drive (wheel c x) (1 / cfg.sim.simulationFrequency) (period cfg.sim)) t' ∧
      s'.env.time = s.env.time + period cfg.sim ∧ s'.trajectory = s.trajectory ++ [b.full] ∧
      Within |cfg.stateNoise| res.obs.state b.lateral ∧ Within |cfg.derivativeNoise| res.obs.derivative (b.lateralRate (wheel c x)) ∧
      res.obs.reference = keepingReference (phaseLane t') b.pos ∧ res.terminal = false ∧
      res.reward = 1 - (((phaseLane t').localCoordinates (b.drive (wheel c x) (1 / cfg.sim.simulationFrequency) (period cfg.sim)).pos).2 / 10) ^ 2 := by
  obtain ⟨s', res, t', q1, q2, q3, q4, q5, q6, q7, q8, q9, q10, _⟩ := keeping_step' G cfg c hc s b t h x
  exact ⟨s', res, t', q1, q2, q3, q4, q5, q6, q7, q8, q9, q10⟩

/-! ## Reset and construction -/

/-- Where an episode starts: 50 m after the beginning of the straight lane, 4 m to its left, along it, at 8.3 m/s. -/
private theorem start_vehicle (G : Globals) {g : Graph} (hg : WellFormed g) (hne : g ≠ []) (p : Vec2) (h x : ℝ) :
    ∃ v, Vehicle.mk' G g 0 .bicycle p h x = .ok v ∧ v.uid = 0 ∧ v.kind = .bicycle ∧ v.crashed = false ∧ bikeOf v = ⟨p, h, x, 0, 0⟩ ∧ v.steering = 0 := by
  obtain ⟨a, b, k, l, hl⟩ := HighwayEnv.WellFormed.hasLane hg hne
  obtain ⟨i, hi⟩ := closest_ok_of_exists hl p (some h)
  obtain ⟨_, l', hl', _⟩ := Props.closestLane_minimal g hg.toIsPyGraph p _ i hi
  unfold Vehicle.mk'
  simp only [hi, hl', bind, Except.bind]
  exact ⟨_, rfl, rfl, rfl, rfl, rfl, rfl⟩

private theorem make_vehicles (G : Globals) (cfg : LaneKeepingConfig) (c : ContinuousConfig) (hc : KeepingOk cfg c) (rng : Rng) :
    ∃ v, LaneKeeping.makeVehicles G cfg (LaneKeeping.makeRoad cfg rng) = .ok { LaneKeeping.makeRoad cfg rng with vehicles := [v] } ∧ v.uid = 0 ∧
      v.kind = .bicycle ∧ v.crashed = false ∧ bikeOf v = keepingStart ∧ v.steering = 0 := by
  obtain ⟨v, h1, h2, h3, h4, h5, h6⟩ := start_vehicle G keepingNet_wf (by simp [keepingNet]) (LaneKeeping.otherLane.position 50 (-4))
    (LaneKeeping.otherLane.headingAt 0) (83 / 10)
  refine ⟨v, ?_, h2, h3, h4, h5, h6⟩
  unfold LaneKeeping.makeVehicles
  have hnet : (LaneKeeping.makeRoad cfg rng).network = keepingNet := keeping_network
  have hl : keepingNet.getLane ⟨"c", "d", 0⟩ = .ok LaneKeeping.otherLane := by
    unfold getLane getLaneStep lanesOf keepingNet
    simp [Dict.getItem, Dict.get?, LaneIndex.toStep, bind, Except.bind, pyIndex]
  have hkind : cfg.sim.action.agent.vehicleClass = .bicycle := by
    rw [hc.action]
    unfold ActionType.agent AgentType.vehicleClass
    dsimp only
    rw [hc.dynamical]; rfl
  rw [hnet, hl, hkind]
  simp only [bind, Except.bind]
  rw [h1]
  rfl

private theorem space_total (cfg : LaneKeepingConfig) (s : LaneKeeping.State) (h : CanReset s) : ∃ rng, LaneKeeping.space cfg s = .ok rng := by
  unfold LaneKeeping.space
  rcases h with h | ⟨b, t, h⟩
  · unfold LaneKeeping.observe
    rw [h]
    exact ⟨_, rfl⟩
  · obtain ⟨v, v1, v2, v3, v4, v5⟩ := h.alone
    obtain ⟨o, rng, ho, _⟩ := observe_of cfg s h.agent v1 v2 v3 ((congrArg Bike.speed v5).trans h.speed)
    rw [ho]
    exact ⟨_, rfl⟩

/-- During an episode, the environment can be reset. -/
theorem keeping_canReset {s : LaneKeeping.State} {b : Bike} {t : Bool} (h : Keeping s b t) : CanReset s := by
  right
  refine ⟨b, t, ?_⟩
  rw [← h.rest, ← h.tracked]
  exact h

/-- **C89, reset.**  A reset succeeds and puts the vehicle at its start, tracking the straight lane.  The trajectory of the previous episodes is kept. -/
theorem keeping_reset (G : Globals) (cfg : LaneKeepingConfig) (c : ContinuousConfig) (hc : KeepingOk cfg c) (s : LaneKeeping.State) (hs : CanReset s) :
    ∃ s' o, LaneKeeping.reset G cfg s = .ok (s', o) ∧ Keeping s' keepingStart false ∧ s'.env.time = 0 ∧ s'.trajectory = s.trajectory ∧
      Within |cfg.stateNoise| o.state keepingStart.lateral ∧ Within |cfg.derivativeNoise| o.derivative (keepingStart.lateralRate 0) ∧
      o.reference = keepingReference LaneKeeping.otherLane keepingStart.pos := by
  obtain ⟨rng, h1⟩ := space_total cfg s hs
  obtain ⟨v, h2, v2, v3, v4, v5, v6⟩ := make_vehicles G cfg c hc rng
  set s1 : LaneKeeping.State := { s with
    env := { road := { LaneKeeping.makeRoad cfg rng with vehicles := [v] }, controlled := [0], nextUid := 1 }
    lane := some LaneKeeping.otherLane
    lanes := [LaneKeeping.sineLane] } with hs1
  have hk1 : Keeping s1 keepingStart false := ⟨keeping_network, rfl, rfl, rfl, rfl, rfl, ⟨v, rfl, v2, v3, v4, v5⟩, rfl, rfl, rfl⟩
  obtain ⟨rng2, h3⟩ := space_total cfg s1 (keeping_canReset hk1)
  have hspeed : v.speed = 83 / 10 := congrArg Bike.speed v5
  obtain ⟨o, rng3, h4, o1, o2, o3⟩ := observe_of cfg (LaneKeeping.withRng s1 rng2) (v := v) rfl rfl v2 v3 hspeed
  have hinit : ∃ t, cfg.sim.action.agent.init = .ok t := by
    rw [hc.action]
    unfold ActionType.agent AgentType.init
    simp [hc.lateral]
  obtain ⟨t, ht⟩ := hinit
  refine ⟨LaneKeeping.withRng s1 rng3, o, ?_, ?_, rfl, rfl, by rw [← v5]; exact o1, ?_, ?_⟩
  · unfold LaneKeeping.reset
    rw [ht]
    simp only [bind, Except.bind]
    rw [h1]
    dsimp only
    rw [h2]
    dsimp only
    have h3' := h3
    rw [hs1] at h3'
    rw [h3']
    dsimp only
    rw [h4]
    rfl
  · exact ⟨keeping_network, rfl, rfl, rfl, rfl, rfl, ⟨v, rfl, v2, v3, v4, v5⟩, rfl, rfl, rfl⟩
  · rw [← v5, ← v6]; exact o2
  · rw [o3 _ rfl, ← v5]; rfl

/-- **C89, construction.**  A built environment must be reset before the first step: the constructor forgets the lane, and `step` raises `AttributeError`. -/
theorem keeping_make (G : Globals) (cfg : LaneKeepingConfig) (c : ContinuousConfig) (hc : KeepingOk cfg c) (rng : Rng) :
    ∃ s, LaneKeeping.make G cfg rng = .ok s ∧ CanReset s ∧ s.trajectory = [] ∧ ∀ x, LaneKeeping.step G cfg s (.vector [x]) = .error .attributeError := by
  set s0 : LaneKeeping.State := { env := { road := { network := [], rng := rng }, controlled := [] } } with hs0
  obtain ⟨rng1, h1⟩ := space_total cfg s0 (.inl rfl)
  obtain ⟨s', o, h2, h3, _⟩ := keeping_reset G cfg c hc (LaneKeeping.withRng s0 rng1) (.inl rfl)
  refine ⟨{ s' with lane := none, lanes := [], trajectory := [] }, ?_, .inr ⟨keepingStart, false, ?_⟩, rfl, ?_⟩
  · unfold LaneKeeping.make
    have h1' := h1
    rw [hs0] at h1'
    simp only [bind, Except.bind]
    rw [h1']
    dsimp only
    have h2' := h2
    rw [hs0] at h2'
    rw [h2']
    rfl
  · exact ⟨h3.network, h3.objects, h3.plainRoad, h3.agent, h3.running, h3.steps, h3.alone, h3.speed, rfl, rfl⟩
  · intro x
    obtain ⟨s2, res, t', hstep, _⟩ := keeping_step G cfg c hc s' keepingStart false h3 x
    -- the same decision with a lane would succeed: only the reward needs the lane
    obtain ⟨v, v1, v2, v3, v4, v5⟩ := h3.alone
    have hspeed : v.speed = 83 / 10 := congrArg Bike.speed v5
    have hv := vehicle_of h3.agent v1 v2
    unfold LaneKeeping.step LaneKeeping.switchLane
    simp only [bind, Except.bind]
    unfold LaneKeeping.storeData
    simp only [bind, Except.bind, hv, state_of v3, pure, Except.pure]
    rw [env_act G cfg c hc s'.env v h3.agent v1 v2 v3 x]
    dsimp only
    set w : Vehicle := { v with steering := wheel c x, acceleration := 0 } with hw
    set s4 : LaneKeeping.State := { env := { s'.env with road := { s'.env.road with vehicles := [w] } }, trajectory := [] ++ [(bikeOf v).full] } with hs4
    obtain ⟨o, rng, ho, _⟩ := observe_of cfg s4 (v := w) h3.agent rfl v2 v3 hspeed
    rw [ho]
    dsimp only
    obtain ⟨k, hk1, hk2⟩ := frames_eq hc.policy
    have hlone : Lone (LaneKeeping.withRng s4 rng).env.road w (wheel c x) :=
      ⟨h3.network, h3.objects, h3.plainRoad, rfl, v2, v3, v4, hspeed, rfl, rfl⟩
    obtain ⟨u, hu, _⟩ := lone_loop G cfg.sim k (period cfg.sim) (LaneKeeping.withRng s4 rng).env h3.running w (wheel c x) hlone
    unfold Env.simulate
    simp only [hk1, bind, Except.bind, hk2]
    rw [hu]
    rfl

/-! ## Episodes -/

private theorem keeping_run (G : Globals) (cfg : LaneKeepingConfig) (c : ContinuousConfig) (hc : KeepingOk cfg c) (s : LaneKeeping.State)
    (h : Keeping s keepingStart false) (xs : List ℝ) :
    ∃ rs s' t, KeepingRun G cfg s (xs.map fun x => .vector [x]) rs s' ∧ rs.length = xs.length ∧ Keeping s' (keepingAt cfg c xs) t ∧
      (t = true ↔ ∃ j < xs.length, LaneKeeping.otherLane.onLane (keepingAt cfg c (xs.take j)).pos = false) ∧
      s'.env.time = s.env.time + period cfg.sim * xs.length ∧
      s'.trajectory = s.trajectory ++ (List.range xs.length).map (fun i => (keepingAt cfg c (xs.take i)).full) ∧
      ∀ (i : ℕ) (res : LaneKeeping.Result), rs[i]? = some res → ∃ x t', xs[i]? = some x ∧ (t' = true ↔ LeftBy cfg c xs i) ∧
        Within |cfg.stateNoise| res.obs.state (keepingAt cfg c (xs.take i)).lateral ∧
        Within |cfg.derivativeNoise| res.obs.derivative ((keepingAt cfg c (xs.take i)).lateralRate (wheel c x)) ∧
        res.obs.reference = keepingReference (phaseLane t') (keepingAt cfg c (xs.take i)).pos ∧ res.terminal = false ∧
        res.reward = 1 - (((phaseLane t').localCoordinates (keepingAt cfg c (xs.take (i + 1))).pos).2 / 10) ^ 2 := by
  induction xs using List.reverseRecOn with
  | nil => exact ⟨[], s, false, .start, rfl, h, by simp, by simp, by simp, by simp⟩
  | append_singleton xs x ih =>
    obtain ⟨rs, s1, t, h1, h2, h3, h4, h5, h6, h7⟩ := ih
    obtain ⟨s2, res, t', q1, q2, q3, q4, q5, q6, q7, q8, q9, q10⟩ := keeping_step G cfg c hc s1 _ t h3 x
    have htake : ∀ j ≤ xs.length, (xs ++ [x]).take j = xs.take j := fun j hj => by rw [List.take_append_of_le_length hj]
    have hall : (xs ++ [x]).take (xs.length + 1) = xs ++ [x] := List.take_of_length_le (by simp)
    have hnext : keepingAt cfg c (xs ++ [x]) = (keepingAt cfg c xs).drive (wheel c x) (1 / cfg.sim.simulationFrequency) (period cfg.sim) := by
      unfold keepingAt
      rw [List.foldl_append]; rfl
    have ht' : t' = true ↔ ∃ j < xs.length + 1, LaneKeeping.otherLane.onLane (keepingAt cfg c ((xs ++ [x]).take j)).pos = false := by
      rw [q2, Bool.or_eq_true, h4, Bool.not_eq_true']
      constructor
      · rintro (⟨j, hj, hj'⟩ | hj)
        · exact ⟨j, by omega, by rw [htake j hj.le]; exact hj'⟩
        · exact ⟨xs.length, by omega, by rw [htake _ le_rfl, List.take_length]; exact hj⟩
      · rintro ⟨j, hj, hj'⟩
        rw [htake j (by omega)] at hj'
        rcases Nat.lt_or_ge j xs.length with hlt | hge
        · exact .inl ⟨j, hlt, hj'⟩
        · right
          rw [List.take_of_length_le hge] at hj'
          exact hj'
    refine ⟨rs ++ [res], s2, t', ?_, by simp [h2], by rw [hnext]; exact q3, ?_, ?_, ?_, ?_⟩
    · rw [List.map_append]
      exact .step h1 q1
    · rw [ht', List.length_append]; rfl
    · rw [q4, h5, List.length_append]; simp only [List.length_singleton]; ring
    · rw [q5, h6, List.length_append, List.length_singleton, List.range_succ, List.map_append, List.append_assoc]
      congr 2
      · apply List.map_congr_left
        intro i hi
        rw [htake i (List.mem_range.1 hi).le]
      · simp only [List.map_cons, List.map_nil]
        rw [htake _ le_rfl, List.take_length]
    · intro i r hr
      rcases Nat.lt_or_ge i xs.length with hlt | hge
      · rw [List.getElem?_append_left (by omega)] at hr
        obtain ⟨y, t1, a1, a2, a3, a4, a5, a6, a7⟩ := h7 i r hr
        rw [htake i hlt.le, htake (i + 1) hlt]
        refine ⟨y, t1, by rw [List.getElem?_append_left hlt]; exact a1, ?_, a3, a4, a5, a6, a7⟩
        rw [a2]
        unfold LeftBy
        constructor
        · rintro ⟨j, hj, hj'⟩; exact ⟨j, hj, by rw [htake j (by omega)]; exact hj'⟩
        · rintro ⟨j, hj, hj'⟩; exact ⟨j, hj, by rw [htake j (by omega)] at hj'; exact hj'⟩
      · have hi : i = xs.length := by
          have := (List.getElem?_eq_some_iff.1 hr).1
          simp at this; omega
        subst hi
        rw [← h2, List.getElem?_concat_length] at hr
        cases hr
        rw [htake _ le_rfl, List.take_length, hall, hnext]
        refine ⟨x, t', List.getElem?_concat_length, ?_, q6, q7, q8, q9, q10⟩
        rw [ht']
        unfold LeftBy
        constructor
        · rintro ⟨j, hj, hj'⟩; exact ⟨j, by omega, hj'⟩
        · rintro ⟨j, hj, hj'⟩; exact ⟨j, by omega, hj'⟩

/-- **C89, whole episodes.**  After a reset, any sequence of decisions can be played.  With `keepingAt … (xs.take i)` the single-track state after the first
`i` of them: the observation of decision `i` is the state before it, up to the noise; the reward is one minus the squared offset, in widths, of the
state after it to the tracked lane — the sine lane once a decision was made off the straight lane; the episode never ends; the trajectory gets the
states before each decision, after those of all previous episodes; the counter of decisions stays 0. -/
theorem keeping_episode (G : Globals) (cfg : LaneKeepingConfig) (c : ContinuousConfig) (hc : KeepingOk cfg c) (s0 : LaneKeeping.State) (h0 : CanReset s0)
    (xs : List ℝ) :
    ∃ s o rs s', LaneKeeping.reset G cfg s0 = .ok (s, o) ∧ KeepingRun G cfg s (xs.map fun x => .vector [x]) rs s' ∧ rs.length = xs.length ∧ CanReset s' ∧
      (∃ v, s'.env.road.vehicles = [v] ∧ v.crashed = false ∧ bikeOf v = keepingAt cfg c xs) ∧
      s'.env.steps = 0 ∧ s'.env.time = period cfg.sim * xs.length ∧
      s'.trajectory = s0.trajectory ++ (List.range xs.length).map (fun i => (keepingAt cfg c (xs.take i)).full) ∧
      ∀ (i : ℕ) (res : LaneKeeping.Result), rs[i]? = some res → ∃ x t', xs[i]? = some x ∧ (t' = true ↔ LeftBy cfg c xs i) ∧
        Within |cfg.stateNoise| res.obs.state (keepingAt cfg c (xs.take i)).lateral ∧
        Within |cfg.derivativeNoise| res.obs.derivative ((keepingAt cfg c (xs.take i)).lateralRate (wheel c x)) ∧
        res.obs.reference = keepingReference (phaseLane t') (keepingAt cfg c (xs.take i)).pos ∧ res.terminal = false ∧
        res.reward = 1 - (((phaseLane t').localCoordinates (keepingAt cfg c (xs.take (i + 1))).pos).2 / 10) ^ 2 := by
  obtain ⟨s, o, h1, h2, h3, h4, _⟩ := keeping_reset G cfg c hc s0 h0
  obtain ⟨rs, s', t, q1, q2, q3, _, q5, q6, q7⟩ := keeping_run G cfg c hc s h2 xs
  obtain ⟨v, v1, _, _, v4, v5⟩ := q3.alone
  refine ⟨s, o, rs, s', h1, q1, q2, keeping_canReset q3, ⟨v, v1, v4, v5⟩, q3.steps, ?_, ?_, q7⟩
  · rw [q5, h3, Nat.zero_add]
  · rw [q6, h4]

/-- **C89, noise.**  The noise of different decisions comes from different variates: the observation of decision `i` of an episode uses the variates `8 i`, …, `8 i + 7` of the
generator, each once, four for the state and four for its derivative. -/
theorem keeping_noise (G : Globals) (cfg : LaneKeepingConfig) (c : ContinuousConfig) (hc : KeepingOk cfg c) (s s' : LaneKeeping.State) (h : Keeping s keepingStart false)
    (xs : List ℝ) (rs : List LaneKeeping.Result) (hrun : KeepingRun G cfg s (xs.map fun x => .vector [x]) rs s') :
    s'.env.road.rng = drawn s.env.road.rng (8 * xs.length) ∧ rs.length = xs.length ∧
      ∀ (i : ℕ) (res : LaneKeeping.Result), rs[i]? = some res → ∃ x, xs[i]? = some x ∧
        res.obs.state = noisy cfg.stateNoise s.env.road.rng (8 * i) (keepingAt cfg c (xs.take i)).lateral ∧
        res.obs.derivative = noisy cfg.derivativeNoise s.env.road.rng (8 * i + 4) ((keepingAt cfg c (xs.take i)).lateralRate (wheel c x)) := by
  have shift : ∀ (a : ℝ) (rng : Rng) (n m : ℕ) (ys : List ℝ), noisy a (drawn rng n) m ys = noisy a rng (n + m) ys := by
    intro a rng n m ys
    induction ys generalizing m with
    | nil => rfl
    | cons y ys ih =>
      unfold noisy
      rw [ih (m + 1)]
      show (_ + _ * (2 * Int.fract (rng.reals (rng.rpos + n + m)) - 1)) :: _ = _
      rw [Nat.add_assoc, Nat.add_assoc]
  suffices H : ∀ as, KeepingRun G cfg s as rs s' → ∀ xs : List ℝ, as = xs.map (fun x => .vector [x]) → (∃ t, Keeping s' (keepingAt cfg c xs) t) ∧
      s'.env.road.rng = drawn s.env.road.rng (8 * xs.length) ∧ rs.length = xs.length ∧
      ∀ (i : ℕ) (res : LaneKeeping.Result), rs[i]? = some res → ∃ x, xs[i]? = some x ∧
        res.obs.state = noisy cfg.stateNoise s.env.road.rng (8 * i) (keepingAt cfg c (xs.take i)).lateral ∧
        res.obs.derivative = noisy cfg.derivativeNoise s.env.road.rng (8 * i + 4) ((keepingAt cfg c (xs.take i)).lateralRate (wheel c x)) from
    (H _ hrun xs rfl).2
  clear hrun xs
  intro as hr
  induction hr with
  | start =>
    intro xs hx
    have : xs = [] := by simpa using hx.symm
    subst this
    exact ⟨⟨false, h⟩, rfl, rfl, by simp⟩
  | @step as rs s1 s2 a res hr hstep ih =>
    intro xs hx
    obtain ⟨ys, x, rfl⟩ : ∃ ys x, xs = ys ++ [x] := by
      rcases List.eq_nil_or_concat xs with rfl | ⟨ys, x, rfl⟩
      · simp at hx
      · exact ⟨ys, x, by simp⟩
    rw [List.map_append, List.map_singleton] at hx
    obtain ⟨e1, e2⟩ := List.append_inj' hx rfl
    obtain ⟨⟨t, hk⟩, i1, i2, i3⟩ := ih ys e1
    obtain rfl : a = .vector [x] := by simpa using e2
    obtain ⟨s2', res', t', q1, q2, q3, q4, q5, q6, q7, q8, q9, q10, q11, q12, q13⟩ := keeping_step' G cfg c hc s1 _ t hk x
    rw [hstep] at q1
    cases q1
    have htake : ∀ j ≤ ys.length, (ys ++ [x]).take j = ys.take j := fun j hj => by rw [List.take_append_of_le_length hj]
    refine ⟨⟨t', ?_⟩, ?_, by simp [i2], ?_⟩
    · unfold keepingAt
      rw [List.foldl_append]
      exact q3
    · rw [q13, i1, List.length_append]
      show drawn (drawn _ _) 8 = drawn _ (8 * (ys.length + 1))
      unfold drawn
      congr 1
    · intro i r hi
      rcases Nat.lt_or_ge i ys.length with hlt | hge
      · rw [List.getElem?_append_left (by omega)] at hi
        obtain ⟨y, a1, a2, a3⟩ := i3 i r hi
        rw [htake i hlt.le]
        exact ⟨y, by rw [List.getElem?_append_left hlt]; exact a1, a2, a3⟩
      · have hil : i = ys.length := by
          have := (List.getElem?_eq_some_iff.1 hi).1
          simp at this; omega
        subst hil
        rw [← i2, List.getElem?_concat_length] at hi
        cases hi
        rw [htake _ le_rfl, List.take_length]
        refine ⟨x, List.getElem?_concat_length, ?_, ?_⟩
        · rw [q11, i1, shift]; rfl
        · rw [q12, i1, shift]

/-- The speed is 8.3 m/s throughout. -/
theorem keeping_speed (cfg : LaneKeepingConfig) (c : ContinuousConfig) (xs : List ℝ) : (keepingAt cfg c xs).speed = 83 / 10 := by
  have hd : ∀ (d dt : ℝ) (n : ℕ) (b : Bike), (b.drive d dt n).speed = b.speed := by
    intro d dt n
    induction n with
    | zero => intro b; rfl
    | succ n ih =>
      intro b
      unfold Bike.drive at ih ⊢
      rw [Function.iterate_succ_apply, ih]; rfl
  unfold keepingAt
  have : ∀ b : Bike, (xs.foldl (fun b x => b.drive (wheel c x) (1 / cfg.sim.simulationFrequency) (period cfg.sim)) b).speed = b.speed := by
    induction xs with
    | nil => intro b; rfl
    | cons x xs ih => intro b; rw [List.foldl_cons, ih, hd]
  rw [this]; rfl

/-- The default configuration. -/
theorem keeping_default_ok : ∃ c, KeepingOk {} c ∧ c.steeringRange = (-Real.pi / 3, Real.pi / 3) ∧ period ({} : LaneKeepingConfig).sim = 1 := by
  refine ⟨_, ⟨rfl, rfl, rfl, rfl, by norm_num⟩, rfl, ?_⟩
  unfold period
  norm_num

/-! ## Reward and reference -/

/-- The reward of a state with offset `y`: at most 1, equal to 1 exactly on the centre line, at least 3/4 exactly within the width of the lane. -/
theorem keeping_reward (y : ℝ) : 1 - (y / 10) ^ 2 ≤ 1 ∧ (1 - (y / 10) ^ 2 = 1 ↔ y = 0) ∧ (3 / 4 ≤ 1 - (y / 10) ^ 2 ↔ |y| ≤ 5) := by
  refine ⟨by nlinarith [sq_nonneg (y / 10)], ?_, ?_⟩
  · constructor
    · intro h
      have : (y / 10) ^ 2 = 0 := by linarith
      have := pow_eq_zero_iff (two_ne_zero) |>.1 this
      linarith
    · rintro rfl; norm_num
  · have : |y| ≤ 5 ↔ y ^ 2 ≤ 5 ^ 2 := by
      rw [sq_le_sq, abs_of_pos (by norm_num : (0 : ℝ) < 5)]
    rw [this]
    constructor <;> intro h <;> nlinarith

private theorem otherAlong : Along ⟨50, 50⟩ ⟨115, 15⟩ ⟨13 / Real.sqrt 218, -7 / Real.sqrt 218⟩ (5 * Real.sqrt 218) := by
  have h : (0 : ℝ) < Real.sqrt 218 := Real.sqrt_pos.2 (by norm_num)
  have h2 : Real.sqrt 218 ^ 2 = 218 := Real.sq_sqrt (by norm_num)
  refine ⟨?_, ?_, ?_, by positivity⟩
  · dsimp only; field_simp; norm_num
  · dsimp only; field_simp; norm_num
  · dsimp only
    rw [div_pow, div_pow, h2]; norm_num

/-- On the sine lane, the first number of the reference is the ordinate of the centre line at the abscissa of the vehicle, and the second its direction
there. -/
theorem keeping_reference_sine (p : Vec2) :
    keepingReference LaneKeeping.sineLane p =
      [5 * Real.sin (2 * Real.pi / 100 * p.x), Real.arctan (5 * (2 * Real.pi / 100) * Real.cos (2 * Real.pi / 100 * p.x)), 0, 0] ∧
      LaneKeeping.sineLane.position p.x 0 = ⟨p.x, 5 * Real.sin (2 * Real.pi / 100 * p.x)⟩ := by
  have ha : Along ⟨0, 0⟩ ⟨500, 0⟩ ⟨1, 0⟩ 500 := ⟨by norm_num, by norm_num, by norm_num, by norm_num⟩
  unfold keepingReference LaneKeeping.sineLane Lane.localCoordinates Lane.headingAt Lane.position
  dsimp only
  rw [ha.straightLocal, ha.heading, arctan2_east, ha.straightPosition]
  dsimp only
  simp

/-- **Defect**: on the straight lane, which is not parallel to the abscissas, the first number of the reference is neither the ordinate of the closest point
of the centre line nor that of the centre line at the abscissa of the vehicle, unless the vehicle is on the centre line. -/
theorem keeping_reference_biased (p : Vec2) (y : ℝ) (hy : (keepingReference LaneKeeping.otherLane p).head? = some y) :
    let c := LaneKeeping.otherLane.localCoordinates p
    (y = (LaneKeeping.otherLane.position c.1 0).y ↔ c.2 = 0) ∧ ∀ s, (LaneKeeping.otherLane.position s 0).x = p.x →
      (y = (LaneKeeping.otherLane.position s 0).y ↔ c.2 = 0) := by
  have hpos : (0 : ℝ) < Real.sqrt 218 := Real.sqrt_pos.2 (by norm_num)
  have hsq : Real.sqrt 218 * Real.sqrt 218 = 218 := Real.mul_self_sqrt (by norm_num)
  have h14 : 14 < Real.sqrt 218 := by
    rw [show (14 : ℝ) = Real.sqrt (14 ^ 2) from (Real.sqrt_sq (by norm_num)).symm]
    exact Real.sqrt_lt_sqrt (by norm_num) (by norm_num)
  have hloc : LaneKeeping.otherLane.localCoordinates p = _ := otherAlong.straightLocal p
  have hp : ∀ s r, LaneKeeping.otherLane.position s r = _ := fun s r => otherAlong.straightPosition s r
  unfold keepingReference at hy
  simp only [List.head?_cons, Option.some.injEq] at hy
  intro c
  have hc1 : c.1 = ((p.x - 50) * 13 - (p.y - 50) * 7) / Real.sqrt 218 := by
    change (LaneKeeping.otherLane.localCoordinates p).1 = _
    rw [hloc]; dsimp only; ring
  have hc2 : c.2 = ((p.y - 50) * 13 + (p.x - 50) * 7) / Real.sqrt 218 := by
    change (LaneKeeping.otherLane.localCoordinates p).2 = _
    rw [hloc]; dsimp only; ring
  have hyc : y = p.y - c.2 := hy.symm
  set q := Real.sqrt 218 with hq
  constructor
  · rw [hp, hyc]
    dsimp only
    have e : 50 + c.1 * (-7 / q) + 0 * (13 / q) = p.y - c.2 * (13 / q) := by
      rw [hc1, hc2]
      field_simp
      linear_combination -(p.y - 50) * hsq
    rw [e]
    constructor
    · intro h
      have : c.2 * (q - 13) = 0 := by
        have h' : c.2 = c.2 * (13 / q) := by linarith
        have : c.2 * q = c.2 * 13 := by
          calc c.2 * q = c.2 * (13 / q) * q := by rw [← h']
            _ = c.2 * 13 := by field_simp
        linarith
      rcases mul_eq_zero.1 this with h | h
      · exact h
      · linarith
    · intro h; rw [h]; ring
  · intro s hs
    rw [hp] at hs ⊢
    dsimp only at hs ⊢
    rw [hyc]
    have hs' : s * 13 = (p.x - 50) * q := by
      have : 50 + s * (13 / q) = p.x := by linarith
      field_simp at this
      linarith
    have e : 50 + s * (-7 / q) + 0 * (13 / q) = p.y - c.2 * q / 13 := by
      have : s = (p.x - 50) * q / 13 := by linarith
      rw [hc2, this]
      field_simp
      ring
    rw [e]
    constructor
    · intro h
      have : c.2 * (q - 13) = 0 := by linarith
      rcases mul_eq_zero.1 this with h | h
      · exact h
      · linarith
    · intro h; rw [h]; ring

/-! ## The map -/

/-- The straight lane is prolonged by 20·√218/13 m, in the same direction; the end of the prolongation is 20 cm from the centre line of the sine lane, at
abscissa 135 — but not near the start of the sine lane, which comes next in the graph. -/
theorem keeping_lanes (s r : ℝ) :
    LaneKeeping.lastLane.position s r = LaneKeeping.otherLane.position (LaneKeeping.otherLane.length + s) r ∧
      LaneKeeping.lastLane.position LaneKeeping.lastLane.length 0 = ⟨135, 55 / 13⟩ ∧
      (LaneKeeping.sineLane.localCoordinates ⟨135, 55 / 13⟩).1 = 135 ∧ |(LaneKeeping.sineLane.localCoordinates ⟨135, 55 / 13⟩).2| < 1 / 5 ∧
      LaneKeeping.sineLane.position 0 0 = ⟨0, 0⟩ := by
  have h : (0 : ℝ) < Real.sqrt 218 := Real.sqrt_pos.2 (by norm_num)
  have h2 : Real.sqrt 218 ^ 2 = 218 := Real.sq_sqrt (by norm_num)
  have hlast : Along ⟨115, 15⟩ ⟨115 + 20, 15 + 20 * (15 - 50) / (115 - 50)⟩ ⟨13 / Real.sqrt 218, -7 / Real.sqrt 218⟩ (20 / 13 * Real.sqrt 218) := by
    refine ⟨?_, ?_, ?_, by positivity⟩
    · dsimp only; field_simp
    · dsimp only; field_simp; norm_num
    · dsimp only
      rw [div_pow, div_pow, h2]; norm_num
  have hl1 : LaneKeeping.otherLane.length = 5 * Real.sqrt 218 := otherAlong.norm
  have hl2 : LaneKeeping.lastLane.length = 20 / 13 * Real.sqrt 218 := hlast.norm
  have ha : Along ⟨0, 0⟩ ⟨500, 0⟩ ⟨1, 0⟩ 500 := ⟨by norm_num, by norm_num, by norm_num, by norm_num⟩
  have p1 : ∀ s r, LaneKeeping.otherLane.position s r = _ := fun s r => otherAlong.straightPosition s r
  have p2 : ∀ s r, LaneKeeping.lastLane.position s r = _ := fun s r => hlast.straightPosition s r
  have hs5 : (2236 / 1000 : ℝ) < Real.sqrt 5 ∧ Real.sqrt 5 < 2237 / 1000 := by
    constructor
    · rw [Real.lt_sqrt (by norm_num)]; norm_num
    · rw [Real.sqrt_lt' (by norm_num)]; norm_num
  have hsin : Real.sin (2 * Real.pi / 100 * 135 + 0) = (1 + Real.sqrt 5) / 4 := by
    rw [show 2 * Real.pi / 100 * 135 + 0 = (Real.pi / 5 + Real.pi / 2) + 2 * Real.pi by ring, Real.sin_add_two_pi, Real.sin_add_pi_div_two,
      Real.cos_pi_div_five]
  refine ⟨?_, ?_, ?_, ?_, ?_⟩
  · rw [p1, p2, hl1]
    ext
    · dsimp only; field_simp; ring
    · dsimp only; field_simp; ring
  · rw [p2, hl2]
    ext
    · dsimp only; field_simp; norm_num
    · dsimp only; field_simp; norm_num
  · unfold LaneKeeping.sineLane Lane.localCoordinates
    dsimp only
    rw [ha.straightLocal]
    norm_num
  · unfold LaneKeeping.sineLane Lane.localCoordinates
    dsimp only
    rw [ha.straightLocal]
    dsimp only
    rw [show ((135 : ℝ) - 0) * 1 + (55 / 13 - 0) * 0 = 135 by norm_num, hsin, abs_lt]
    constructor <;> linarith [hs5.1, hs5.2]
  · unfold LaneKeeping.sineLane Lane.position
    dsimp only
    rw [ha.straightPosition]
    simp

/-- The hypotheses are met: the default configuration, a built environment, and the decisions "straight on, then full left". -/
example (G : Globals) (rng : Rng) : ∃ c s0, KeepingOk {} c ∧ LaneKeeping.make G {} rng = .ok s0 ∧ CanReset s0 ∧
    ∃ s o rs s', LaneKeeping.reset G {} s0 = .ok (s, o) ∧ KeepingRun G {} s ([0, -1].map fun x => .vector [x]) rs s' ∧ rs.length = 2 := by
  obtain ⟨c, hc, _⟩ := keeping_default_ok
  obtain ⟨s0, h0, h1, _⟩ := keeping_make G {} c hc rng
  obtain ⟨s, o, rs, s', e1, e2, e3, _⟩ := keeping_episode G {} c hc s0 h1 [0, -1]
  exact ⟨c, s0, hc, h0, h1, s, o, rs, s', e1, e2, e3⟩

end HighwayEnv.Props
