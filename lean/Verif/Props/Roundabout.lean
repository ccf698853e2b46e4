import Verif.Props.RoundMap
import Verif.Props.Highway
import Verif.Props.Controller
import Verif.Props.Routes

/-!
# C56, C61, C62: the roundabout environment
-/

noncomputable section
open Classical
namespace HighwayEnv.Props
open HighwayEnv HighwayEnv.Spec Graph

/-! ## C61 — the trip of the ego vehicle -/

private theorem walk_step {g : Graph} {a b : String} {p : List String} (h : WalkFromTo g a b p) (hab : a ≠ b) :
    ∃ c q, p = a :: q ∧ Edge g a c ∧ WalkFromTo g c b q := by
  obtain ⟨h1, h2, h3⟩ := h
  rcases p with _ | ⟨x, q⟩
  · simp at h2
  · simp only [List.head?_cons, Option.some.injEq] at h2
    subst h2
    rcases q with _ | ⟨c, q⟩
    · simp at h3; exact absurd h3 hab
    · simp only [IsWalk, List.isChain_cons_cons] at h1
      exact ⟨c, c :: q, rfl, h1.1, h1.2, rfl, by simpa using h3⟩

private theorem edges_from (a c : String) : Edge roundNet a c ↔ (a, c) ∈ [("se", "ex"), ("ex", "ee"), ("ex", "exs"), ("ee", "nx"), ("nx", "ne"), ("nx", "nxs"),
    ("ne", "wx"), ("wx", "we"), ("wx", "wxs"), ("we", "sx"), ("sx", "se"), ("sx", "sxs"), ("ser", "ses"), ("ses", "se"), ("sxs", "sxr"), ("eer", "ees"),
    ("ees", "ee"), ("exs", "exr"), ("ner", "nes"), ("nes", "ne"), ("nxs", "nxr"), ("wer", "wes"), ("wes", "we"), ("wxs", "wxr")] := by
  unfold Edge RoadLanes roundNet
  simp
  constructor
  · rintro ⟨ls, d, h1, h2⟩
    rcases h1 with ⟨rfl, rfl⟩ | ⟨rfl, rfl⟩ | ⟨rfl, rfl⟩ | ⟨rfl, rfl⟩ | ⟨rfl, rfl⟩ | ⟨rfl, rfl⟩ | ⟨rfl, rfl⟩ | ⟨rfl, rfl⟩ | ⟨rfl, rfl⟩ | ⟨rfl, rfl⟩ |
      ⟨rfl, rfl⟩ | ⟨rfl, rfl⟩ | ⟨rfl, rfl⟩ | ⟨rfl, rfl⟩ | ⟨rfl, rfl⟩ | ⟨rfl, rfl⟩ | ⟨rfl, rfl⟩ | ⟨rfl, rfl⟩ | ⟨rfl, rfl⟩ | ⟨rfl, rfl⟩ <;>
      simp at h2 <;> first | (obtain ⟨rfl, _⟩ := h2; simp; done) | (rcases h2 with ⟨rfl, _⟩ | ⟨rfl, _⟩ <;> simp)
  · intro h
    rcases h with ⟨rfl, rfl⟩ | ⟨rfl, rfl⟩ | ⟨rfl, rfl⟩ | ⟨rfl, rfl⟩ | ⟨rfl, rfl⟩ | ⟨rfl, rfl⟩ | ⟨rfl, rfl⟩ | ⟨rfl, rfl⟩ | ⟨rfl, rfl⟩ | ⟨rfl, rfl⟩ |
      ⟨rfl, rfl⟩ | ⟨rfl, rfl⟩ | ⟨rfl, rfl⟩ | ⟨rfl, rfl⟩ | ⟨rfl, rfl⟩ | ⟨rfl, rfl⟩ | ⟨rfl, rfl⟩ | ⟨rfl, rfl⟩ | ⟨rfl, rfl⟩ | ⟨rfl, rfl⟩ |
      ⟨rfl, rfl⟩ | ⟨rfl, rfl⟩ | ⟨rfl, rfl⟩ | ⟨rfl, rfl⟩ <;> simp

/-- The only shortest way from the access to the northern exit. -/
private theorem only_way (p : List String) (h : WalkFromTo roundNet "ses" "nxs" p) (hl : p.length ≤ 6) :
    p = ["ses", "se", "ex", "ee", "nx", "nxs"] := by
  obtain ⟨c, q, rfl, e, h⟩ := walk_step h (by simp)
  simp [edges_from] at e; subst e
  obtain ⟨c, q, rfl, e, h⟩ := walk_step h (by simp)
  simp [edges_from] at e; subst e
  obtain ⟨c, q, rfl, e, h⟩ := walk_step h (by simp)
  simp [edges_from] at e
  rcases e with rfl | rfl
  swap
  · obtain ⟨c, q, rfl, e, h⟩ := walk_step h (by simp)
    simp [edges_from] at e; subst e
    obtain ⟨c, q, rfl, e, h⟩ := walk_step h (by simp)
    simp [edges_from] at e
  obtain ⟨c, q, rfl, e, h⟩ := walk_step h (by simp)
  simp [edges_from] at e; subst e
  obtain ⟨c, q, rfl, e, h⟩ := walk_step h (by simp)
  simp [edges_from] at e
  rcases e with rfl | rfl
  · obtain ⟨c, q, rfl, e, h⟩ := walk_step h (by simp)
    simp [edges_from] at e; subst e
    obtain ⟨c, q, rfl, e, h⟩ := walk_step h (by simp)
    simp only [List.length_cons] at hl
    omega
  · obtain ⟨_, h2, h3⟩ := h
    rcases q with _ | ⟨x, q⟩
    · simp at h2
    · simp at h2
      simp only [List.length_cons] at hl
      have : q = [] := List.length_eq_zero_iff.1 (by omega)
      subst this; subst h2; rfl

/-- **C61, roundabout**: the route planned for a vehicle on the access from the south to the northern exit is the documented trip, whatever the
order in which Python enumerates sets. -/
theorem round_trip (ord : SetOrder) (v : Vehicle) (hv : v.laneIndex = ⟨"ser", "ses", 0⟩) :
    v.planRouteTo roundNet ord "nxs" = .ok { v with route := some egoTrip } := by
  have way : WalkFromTo roundNet "ses" "nxs" ["ses", "se", "ex", "ee", "nx", "nxs"] := by
    refine ⟨?_, rfl, rfl⟩
    simp [IsWalk, edges_from]
  obtain ⟨route, h, _, h2⟩ := planRoute_spec roundNet roundNet_wf.toIsPyGraph ord v "nxs"
  rw [hv] at h2
  obtain ⟨p, rfl, _, h4, h5⟩ := h2 ⟨by simp, _, way⟩
  have := only_way p h4 (h5 _ way)
  subst this
  rw [h, hv]
  rfl

/-! ## C56 — reward -/

/-- **C56.**  The reward is the documented score of the ego vehicle and of the action. -/
theorem round_reward (G : Globals) (cfg : RoundaboutConfig) (hl : G.speedMin ≠ G.speedMax) (e : Env) (v : Vehicle) (hv : e.vehicle = .ok v)
    (hk : v.kind = .mdp) (k : Int) :
    (Roundabout.cls G cfg).reward e (some (.index k)) = .ok (roundScore v.crashed ((v.speedIndex : ℝ) / (max ((G.speedCount : Int) - 1) 1 : Int)) k) := by
  have hl' : G.speedMax - G.speedMin ≠ 0 := fun h => hl (by linarith)
  simp only [Roundabout.cls, Roundabout.reward, Roundabout.laneChange, hv, Roundabout.getSpeedIndex, if_neg hl', hk, if_true, bind, Except.bind,
    pure, Except.pure]
  congr 1
  unfold lmap roundScore Roundabout.COLLISION_REWARD Roundabout.HIGH_SPEED_REWARD Roundabout.LANE_CHANGE_REWARD Highway.ofBool
  by_cases h : k = 0 ∨ k = 2
  · cases v.crashed <;> simp only [h, decide_true, if_true, Bool.false_eq_true, if_false] <;> norm_num <;> ring
  · cases v.crashed <;> simp only [h, decide_false, if_true, Bool.false_eq_true, if_false] <;> norm_num <;> ring

/-- **C56.**  Whatever the state and the action, the score is in [0, 1]: at most 0.2 after a crash and at least 0.8 before. -/
theorem round_score_range (crashed : Bool) (share : ℝ) (h0 : 0 ≤ share) (h1 : share ≤ 1) (k : Int) :
    0 ≤ roundScore crashed share k ∧ roundScore crashed share k ≤ 1 ∧
    (crashed = true → roundScore crashed share k ≤ 0.2) ∧ (crashed = false → 0.8 ≤ roundScore crashed share k) := by
  unfold roundScore
  cases crashed <;> by_cases h : k = 0 ∨ k = 2 <;> simp only [h, if_true, if_false, Bool.false_eq_true] <;>
    refine ⟨?_, ?_, ?_, ?_⟩ <;> first | (intro h; cases h; done) | (norm_num; linarith)

/-- The extreme scores: 1 exactly at the highest level without crash nor lane change; 0 exactly at the lowest level with both. -/
theorem round_score_extreme (crashed : Bool) (share : ℝ) (h0 : 0 ≤ share) (h1 : share ≤ 1) (k : Int) :
    (roundScore crashed share k = 1 ↔ crashed = false ∧ share = 1 ∧ ¬ (k = 0 ∨ k = 2)) ∧
    (roundScore crashed share k = 0 ↔ crashed = true ∧ share = 0 ∧ (k = 0 ∨ k = 2)) := by
  have e1 : roundScore crashed share k = 1 ↔ (if crashed then -1 else 0) + 0.2 * share + (if k = 0 ∨ k = 2 then -0.05 else 0) = 0.2 := by
    unfold roundScore
    constructor <;> intro h <;> norm_num at h ⊢ <;> linarith
  have e0 : roundScore crashed share k = 0 ↔ (if crashed then -1 else 0) + 0.2 * share + (if k = 0 ∨ k = 2 then -0.05 else 0) = -1.05 := by
    unfold roundScore
    constructor <;> intro h <;> norm_num at h ⊢ <;> linarith
  rw [e1, e0]
  by_cases h : k = 0 ∨ k = 2
  · simp only [if_pos h, h, not_true_eq_false, and_false, and_true]
    cases crashed
    · simp only [Bool.false_eq_true, if_false, false_and]
      exact ⟨⟨fun h => by norm_num at h; linarith, fun h => h.elim⟩, ⟨fun h => by norm_num at h; linarith, fun h => h.elim⟩⟩
    · simp only [if_true, true_and]
      exact ⟨⟨fun h => by norm_num at h; linarith, fun h => h.elim⟩, ⟨fun h => by norm_num at h; linarith, fun h => by rw [h]; norm_num⟩⟩
  · simp only [if_neg h, h, not_false_eq_true, and_false, and_true]
    cases crashed
    · simp only [Bool.false_eq_true, if_false, true_and]
      exact ⟨⟨fun h => by norm_num at h; linarith, fun h => by rw [h]; norm_num⟩, ⟨fun h => by norm_num at h; linarith, fun h => h.elim⟩⟩
    · simp only [if_true, Bool.true_eq_false, false_and]
      exact ⟨⟨fun h => by norm_num at h; linarith, fun h => h.elim⟩, ⟨fun h => by norm_num at h; linarith, fun h => h.elim⟩⟩

/-- **C56, exact termination**: a crash, or the configured number of decisions. -/
theorem round_terminal_iff (G : Globals) (cfg : RoundaboutConfig) (e : Env) (v : Vehicle) (hv : e.vehicle = .ok v) (b : Bool)
    (h : (Roundabout.cls G cfg).terminal e = .ok b) : b = true ↔ v.crashed = true ∨ cfg.duration ≤ e.steps := by
  simp only [Roundabout.cls, Roundabout.terminal, hv, bind, Except.bind] at h
  cases h
  simp

/-- With tuples of actions (several agents), or without an action, the reward is that of an action which is not a lane change. -/
theorem round_reward_tuple (G : Globals) (cfg : RoundaboutConfig) (e : Env) (acts : List AgentAction) (k : Int) (h0 : k ≠ 0) (h2 : k ≠ 2) :
    (Roundabout.cls G cfg).reward e (some (.tuple acts)) = (Roundabout.cls G cfg).reward e (some (.index k)) ∧
    (Roundabout.cls G cfg).reward e none = (Roundabout.cls G cfg).reward e (some (.index k)) := by
  have : decide (k = 0 ∨ k = 2) = false := by simp [h0, h2]
  simp only [Roundabout.cls, Roundabout.reward, Roundabout.laneChange, this]
  exact ⟨trivial, trivial⟩

/-- The roundabout cannot be played with continuous actions on both axes: its reward raises `ValueError`. -/
theorem round_continuous_raises (G : Globals) (cfg : RoundaboutConfig) (e : Env) (x y : ℝ) :
    (Roundabout.cls G cfg).reward e (some (.vector [x, y])) = .error .valueError := rfl

/-! ## Reset -/

/-- What never changes in the roundabout, and keeps its reward in range. -/
structure RoundState (e : Env) : Prop where
  network : e.road.network = roundNet
  free : e.road.regulated = false
  ladder : ∀ v ∈ e.road.vehicles, v.kind = .mdp → 0 ≤ v.speedIndex ∧ v.speedIndex < 3

/-- A vehicle of the initial traffic: `m` metres along lane `l` of the map. -/
structure RoundTraffic (kind : VKind) (l : Lane) (s : ℝ) (uid : ℕ) (v : Vehicle) : Prop where
  uid : v.uid = uid
  kind : v.kind = kind
  place : ∃ x : ℝ, v.pos = l.position (s + 2 * x) 0 ∧ v.heading = l.headingAt (s + 2 * x)
  speed : ∃ y : ℝ, v.speed = 16 + 2 * y
  attached : Attached roundNet v
  route : RouteExists roundNet v.route
  final : RouteEnd roundNet v.route
  start : (v.route.getD []).head? = some v.laneIndex.toStep
  destination : ∃ d ∈ ["exr", "sxr", "nxr"], (∃ q, WalkFromTo roundNet v.laneIndex.dst d q) → (v.route.getD []).getLast?.map RouteStep.dst = some d
  crashed : v.crashed = false
  target : v.targetLane = v.laneIndex

private theorem randomized (v : Vehicle) (rng : Rng) : ∃ a s, (Env.randomizeVehicle v rng).1 = { v with accParams := a, steerParams := s } := by
  unfold Env.randomizeVehicle
  split
  · exact ⟨_, _, rfl⟩
  · exact ⟨v.accParams, v.steerParams, rfl⟩

/-- The roads out of the roundabout have one lane. -/
private theorem exit_single {d : String} (hd : d ∈ ["exr", "sxr", "nxr"]) (a : String) (ls : List Lane) (h : RoadLanes roundNet a d ls) : ls.length = 1 := by
  have hk : ∀ k l, ls[k]? = some l → k = 0 := by
    intro k l hl
    have := roundNet_lanes.1 ⟨ls, h, hl⟩
    simp only [List.mem_cons, List.not_mem_nil, or_false] at hd
    rcases hd with rfl | rfl | rfl <;> simp at this <;> exact this.2.1
  rcases ls with _ | ⟨x, _ | ⟨y, ls⟩⟩
  · exfalso
    obtain ⟨m, hm, hx⟩ := h
    exact roundNet_wf.nonemptyEdge _ hm _ hx rfl
  · rfl
  · exact absurd (hk 1 y rfl) (by norm_num)

private theorem add_ok (G : Globals) {kind : VKind} (hidm : kind.isIDM = true) (ord : SetOrder) (pick : Rng → Py (String × Rng))
    (hpick : ∀ rng, ∃ d rng', pick rng = .ok (d, rng') ∧ d ∈ ["exr", "sxr", "nxr"]) {a b : String} {k : ℕ} {l : Lane} (hl : HasLane roundNet a b k l)
    (s : ℝ) (uid : ℕ) (r : Road) (hr : r.network = roundNet) :
    ∃ v rng', Roundabout.addVehicle G kind ord pick ⟨a, b, (k : Int)⟩ s uid r = .ok { r with vehicles := r.vehicles ++ [v], rng := rng' } ∧
      RoundTraffic kind l s uid v := by
  have hwf := roundNet_wf
  obtain ⟨v, h1, h2, h3, h4, h5, h6, _, h8, h9, h10, h11, _⟩ := makeOnLane_spec G roundNet hwf uid kind ⟨a, b, (k : Int)⟩ l
    (getLane_of_hasLane hwf.toIsPyGraph rfl hl) (s + r.rng.normal.1 * 2) (some (16 + r.rng.normal.2.normal.1 * 2))
  obtain ⟨d, rng1, hd, hmem⟩ := hpick r.rng.normal.2.normal.2
  obtain ⟨route, hp, _, _⟩ := planRoute_spec roundNet hwf.toIsPyGraph ord v d
  obtain ⟨hq1, _, hq3⟩ := planRoute_route roundNet hwf.toIsPyGraph ord v _ d h8.here hp
  set w : Vehicle := { v with route := some (v.laneIndex.toStep :: route) } with hw
  obtain ⟨ap, sp, hrand⟩ := randomized w rng1
  refine ⟨(Env.randomizeVehicle w rng1).1, (Env.randomizeVehicle w rng1).2, ?_, ?_⟩
  · unfold Roundabout.addVehicle Roundabout.prepare
    rw [hr]
    simp only [h1, hd, hp, bind, Except.bind, pure, Except.pure]
    rw [h3, hidm]
    rfl
  · rw [hrand]
    exact ⟨h2, h3, ⟨r.rng.normal.1, by rw [mul_comm]; exact h4, by rw [mul_comm]; exact h5⟩, ⟨r.rng.normal.2.normal.1, by rw [mul_comm]; exact h6 _ rfl⟩,
      ⟨h8.here, h8.lane, h8.target⟩, hq1, planRoute_end roundNet hwf.toIsPyGraph ord v w d h8.here (exit_single hmem) hp, rfl, ⟨d, hmem, fun hq => hq3 (.inr hq)⟩, h11, h9⟩

private theorem any_ok (rng : Rng) : ∃ d rng', rng.choice Roundabout.destinations = .ok (d, rng') ∧ d ∈ ["exr", "sxr", "nxr"] :=
  choice_ok rng (l := Roundabout.destinations) (by simp [Roundabout.destinations])

private theorem incoming_ok {G : Globals} {cfg : RoundaboutConfig} (hc : RoundOk G cfg) (rng : Rng) :
    ∃ d rng', Roundabout.incoming cfg rng = .ok (d, rng') ∧ d ∈ ["exr", "sxr", "nxr"] := by
  unfold Roundabout.incoming
  cases hd : cfg.incomingVehicleDestination with
  | none => exact any_ok rng
  | some k =>
    obtain ⟨h0, h1⟩ := hc.incoming k hd
    have : k = -3 ∨ k = -2 ∨ k = -1 ∨ k = 0 ∨ k = 1 ∨ k = 2 := by omega
    rcases this with rfl | rfl | rfl | rfl | rfl | rfl
    all_goals exact ⟨_, rng, rfl, by simp⟩

/-- The ego vehicle of the roundabout: 45 m south of the centre, heading north at 8 m/s, with the level of the ladder *found* by the reset. -/
structure RoundEgo (G : Globals) (v : Vehicle) : Prop where
  uid : v.uid = 0
  kind : v.kind = .mdp
  pos : v.pos = ⟨2, 45⟩
  heading : v.heading = -(Real.pi / 2)
  speed : v.speed = 8
  lane : v.laneIndex = ⟨"ser", "ses", 0⟩
  target : v.targetLane = ⟨"ser", "ses", 0⟩
  route : v.route = some egoTrip
  level : v.speedIndex = Vehicle.speedToIndex G 8 ∧ v.targetSpeed = level G v.speedIndex
  attached : Attached roundNet v
  crashed : v.crashed = false

private theorem ego_ok {G : Globals} {cfg : RoundaboutConfig} (hclass : cfg.sim.action.agent.vehicleClass = .mdp) (ord : SetOrder) :
    ∃ v, Roundabout.ego G cfg ord roundNet = .ok v ∧ RoundEgo G v := by
  have hwf := roundNet_wf
  have hser : Along ⟨2, 170⟩ ⟨2, 42.5⟩ ⟨0, -1⟩ 127.5 := by constructor <;> norm_num
  have hl : HasLane roundNet "ser" "ses" 0 (plainLane ⟨2, 170⟩ ⟨2, 42.5⟩) := roundNet_lanes.2 (by simp)
  have hp : (plainLane ⟨2, 170⟩ ⟨2, 42.5⟩).position 125 0 = ⟨2, 45⟩ := by
    have := hser.straightPosition 125 0
    change Lane.straightPosition _ _ 125 0 = _
    rw [this]; ext <;> norm_num
  have hh : (plainLane ⟨2, 170⟩ ⟨2, 42.5⟩).headingAt 140 = -(Real.pi / 2) := by
    change Lane.straightHeading _ _ = _
    rw [hser.heading]; exact arctan2_south
  obtain ⟨v, h1, h2, h3, h4⟩ := mk'_total G hwf (by simp [roundNet]) 0 .mdp ⟨2, 45⟩ (-(Real.pi / 2)) 8
  rw [round_ego_lane] at h4
  have hlane : v.laneIndex = ⟨"ser", "ses", 0⟩ := (Except.ok.inj h4).symm
  refine ⟨{ v with route := some egoTrip }, ?_, ⟨h2.uid, h2.kind, h2.pos, h2.heading, h2.speed, hlane, h2.target.trans hlane, rfl, ?_,
    ⟨h3.here, h3.lane, h3.target⟩, h2.crashed⟩⟩
  · unfold Roundabout.ego
    rw [getLane_of_hasLane hwf.toIsPyGraph (i := ⟨"ser", "ses", 0⟩) rfl hl, hclass]
    simp only [bind, Except.bind]
    rw [hp, hh, h1]
    dsimp only
    unfold Roundabout.planEgo
    rw [if_pos (by rw [h2.kind]; rfl)]
    exact round_trip ord v hlane
  · obtain ⟨e1, e2⟩ := h2.ladder rfl
    exact ⟨e1, e2.trans (indexToSpeed_level G _)⟩

private theorem made_ok {G : Globals} {cfg : RoundaboutConfig} {ord : SetOrder} {r r1 r2 r3 r4 : Road} {v : Vehicle}
    (h0 : Roundabout.ego G cfg ord r.network = .ok v)
    (h1 : Roundabout.addVehicle (Roundabout.ladder G) cfg.otherVehiclesType ord (Roundabout.incoming cfg) ⟨"we", "sx", 1⟩ 5 1
      { r with vehicles := r.vehicles ++ [v] } = .ok r1)
    (h2 : Roundabout.addVehicle (Roundabout.ladder G) cfg.otherVehiclesType ord (fun rng => rng.choice Roundabout.destinations) ⟨"we", "sx", 0⟩
      (20 * 1) 2 r1 = .ok r2)
    (h3 : Roundabout.addVehicle (Roundabout.ladder G) cfg.otherVehiclesType ord (fun rng => rng.choice Roundabout.destinations) ⟨"we", "sx", 0⟩
      (20 * (-1)) 3 r2 = .ok r3)
    (h4 : Roundabout.addVehicle (Roundabout.ladder G) cfg.otherVehiclesType ord (fun rng => rng.choice Roundabout.destinations) ⟨"eer", "ees", 0⟩
      50 4 r3 = .ok r4) : Roundabout.makeVehicles G cfg ord r = .ok (Roundabout.ladder G, r4) := by
  unfold Roundabout.makeVehicles
  simp only [h0, h1, h2, h3, h4, bind, Except.bind, pure, Except.pure]

/-- **Reset of the roundabout.**  Whatever the seed, the ego vehicle is always the same and is sent to the northern exit; the traffic consists of three
vehicles on the circle and one on the eastern access, all with existing routes from where they are; the ladder of speeds of *all* discrete-action
vehicles becomes 0, 8, 16 m/s. -/
theorem round_reset (G : Globals) (cfg : RoundaboutConfig) (hc : RoundOk G cfg) (ord : SetOrder) (rng : Rng) :
    ∃ e ego v1 v2 v3 v4, Roundabout.reset G cfg ord rng = .ok ({ G with speedMin := 0, speedMax := 16, speedCount := 3 }, e) ∧
      Ready cfg.sim e ∧ RoundState e ∧ e.steps = 0 ∧ e.time = 0 ∧ e.done = false ∧ e.controlled = [0] ∧
      e.road.vehicles = [ego, v1, v2, v3, v4] ∧ RoundEgo G ego ∧
      RoundTraffic cfg.otherVehiclesType (ringLane 1 156 114) 5 1 v1 ∧ RoundTraffic cfg.otherVehiclesType (ringLane 0 156 114) 20 2 v2 ∧
      RoundTraffic cfg.otherVehiclesType (ringLane 0 156 114) (-20) 3 v3 ∧
      RoundTraffic cfg.otherVehiclesType (plainLane ⟨170, -2⟩ ⟨42.5, -2⟩) 50 4 v4 := by
  obtain ⟨lo, la, hact, hlola⟩ := hc.action
  have hagent : cfg.sim.action.agent = .discrete lo la := by rw [hact]; rfl
  have hinit : AgentType.init (.discrete lo la) = .ok (.discrete lo la) := by
    rcases hlola with rfl | rfl
    · cases la <;> rfl
    · cases lo <;> rfl
  have hclass : cfg.sim.action.agent.vehicleClass = .mdp := by rw [hagent]; rfl
  have hnet : (Roundabout.makeRoad cfg rng).network = roundNet := round_network
  obtain ⟨ego, p0, b0⟩ := ego_ok (G := G) hclass ord
  set G' := Roundabout.ladder G with hG'
  set r0 : Road := { Roundabout.makeRoad cfg rng with vehicles := (Roundabout.makeRoad cfg rng).vehicles ++ [ego] } with hr0
  have hn0 : r0.network = roundNet := hnet
  obtain ⟨v1, g1, p1, b1⟩ := add_ok G' hc.traffic ord (Roundabout.incoming cfg) (incoming_ok hc) (a := "we") (b := "sx") (k := 1)
    (l := ringLane 1 156 114) (roundNet_lanes.2 (by simp)) 5 1 r0 hn0
  set r1 : Road := { r0 with vehicles := r0.vehicles ++ [v1], rng := g1 } with hr1
  obtain ⟨v2, g2, p2, b2⟩ := add_ok G' hc.traffic ord (fun rng => rng.choice Roundabout.destinations) any_ok (a := "we") (b := "sx") (k := 0)
    (l := ringLane 0 156 114) (roundNet_lanes.2 (by simp)) (20 * 1) 2 r1 hn0
  set r2 : Road := { r1 with vehicles := r1.vehicles ++ [v2], rng := g2 } with hr2
  obtain ⟨v3, g3, p3, b3⟩ := add_ok G' hc.traffic ord (fun rng => rng.choice Roundabout.destinations) any_ok (a := "we") (b := "sx") (k := 0)
    (l := ringLane 0 156 114) (roundNet_lanes.2 (by simp)) (20 * (-1)) 3 r2 hn0
  set r3 : Road := { r2 with vehicles := r2.vehicles ++ [v3], rng := g3 } with hr3
  obtain ⟨v4, g4, p4, b4⟩ := add_ok G' hc.traffic ord (fun rng => rng.choice Roundabout.destinations) any_ok (a := "eer") (b := "ees") (k := 0)
    (l := plainLane ⟨170, -2⟩ ⟨42.5, -2⟩) (roundNet_lanes.2 (by simp)) 50 4 r3 hn0
  set r4 : Road := { r3 with vehicles := r3.vehicles ++ [v4], rng := g4 } with hr4
  have hvs : r4.vehicles = [ego, v1, v2, v3, v4] := rfl
  have e20 : (20 * 1 : ℝ) = 20 := by norm_num
  have e21 : (20 * (-1) : ℝ) = -20 := by norm_num
  rw [e20] at b2
  rw [e21] at b3
  have hmdp : cfg.otherVehiclesType ≠ .mdp := by intro h; have := hc.traffic; rw [h] at this; cases this
  have hctl : cfg.otherVehiclesType.isControlled = true := by
    have := hc.traffic
    revert this; cases cfg.otherVehiclesType <;> simp [VKind.isIDM, VKind.isControlled]
  have hmem : ∀ {P : Vehicle → Prop}, P ego → P v1 → P v2 → P v3 → P v4 → ∀ v ∈ r4.vehicles, P v := by
    intro P h0 h1 h2 h3 h4 v hv
    simp only [hvs, List.mem_cons, List.not_mem_nil, or_false] at hv
    rcases hv with rfl | rfl | rfl | rfl | rfl <;> assumption
  have hegoroute : RouteExists roundNet ego.route := by
    obtain ⟨hq, _⟩ := planRoute_route roundNet roundNet_wf.toIsPyGraph ord ego _ "nxs" b0.attached.here (round_trip ord ego b0.lane)
    rw [b0.route]; exact hq
  refine ⟨{ road := r4, controlled := [0], nextUid := 5 }, ego, v1, v2, v3, v4, ?_, ⟨⟨?_, ?_, ?_, ?_⟩, ⟨?_, ?_, by simp⟩, ?_, ?_, ?_⟩, ⟨hn0, rfl, ?_⟩,
    rfl, rfl, rfl, rfl, hvs, b0, b1, b2, b3, b4⟩
  · unfold Roundabout.reset
    rw [hagent, hinit]
    simp only [bind, Except.bind]
    rw [made_ok (hnet ▸ p0) p1 p2 p3 p4]
    rfl
  · change WellFormed r0.network
    rw [hn0]; exact roundNet_wf
  · change ∀ v ∈ r4.vehicles, Attached r0.network v ∧ RouteExists r0.network v.route
    rw [hn0]
    exact hmem ⟨b0.attached, hegoroute⟩ ⟨b1.attached, b1.route⟩ ⟨b2.attached, b2.route⟩ ⟨b3.attached, b3.route⟩ ⟨b4.attached, b4.route⟩
  · intro _
    refine ⟨hmem ?_ ?_ ?_ ?_ ?_, ?_⟩
    · rw [b0.kind]; rfl
    · rw [b1.kind]; exact hctl
    · rw [b2.kind]; exact hctl
    · rw [b3.kind]; exact hctl
    · rw [b4.kind]; exact hctl
    · intro o ho; cases ho
  · intro h; cases h
  · change (r4.vehicles.map (·.uid)).Nodup
    rw [hvs]
    simp [b0.uid, b1.uid, b2.uid, b3.uid, b4.uid]
  · intro uid hu
    simp only [List.mem_singleton] at hu
    subst hu
    exact ⟨ego, by change ego ∈ r4.vehicles; rw [hvs]; simp, b0.uid⟩
  · change ∀ v ∈ r4.vehicles, v.uid ∈ [0] → v.kind = _
    rw [agentOf_agent, hclass]
    refine hmem (fun _ => b0.kind) ?_ ?_ ?_ ?_
    · rw [b1.uid]; simp
    · rw [b2.uid]; simp
    · rw [b3.uid]; simp
    · rw [b4.uid]; simp
  · rw [agentOf_agent, hagent]; exact ⟨_, hinit⟩
  · intro h; cases h
  · change ∀ v ∈ r4.vehicles, _
    refine hmem ?_ ?_ ?_ ?_ ?_
    · intro _
      rw [b0.level.1]
      have hn : 0 < G.speedCount := hc.count.1
      have h3 := hc.count.2
      have hr := speedToIndex_range hn (8 : ℝ)
      exact ⟨hr.1, by omega⟩
    · rw [b1.kind]; intro h; exact absurd h hmdp
    · rw [b2.kind]; intro h; exact absurd h hmdp
    · rw [b3.kind]; intro h; exact absurd h hmdp
    · rw [b4.kind]; intro h; exact absurd h hmdp

/-! ## Episodes -/

private theorem space_index {c : SimConfig} {lo la : Bool} (hact : c.action = .single (.discrete lo la)) {a : AgentAction}
    (ha : InEnvSpace c.action a) : ∃ k : Int, a = .index k := by
  rw [hact] at ha
  cases a with
  | index k => exact ⟨k, rfl⟩
  | vector _ => exact ha.elim
  | tuple _ => exact ha.elim

/-- **C56, in a reachable state**, the reward is the documented score. -/
theorem round_reward_ready (G : Globals) (cfg : RoundaboutConfig) (hc : RoundOk G cfg) (e : Env) (h : Ready cfg.sim e) (hI : RoundState e)
    (a : AgentAction) (ha : InEnvSpace cfg.sim.action a) : ∃ v k, e.vehicle = .ok v ∧ a = .index k ∧ 0 ≤ v.speedIndex ∧ v.speedIndex < 3 ∧
      (Roundabout.cls { G with speedMin := 0, speedMax := 16, speedCount := 3 } cfg).reward e (some a) =
        .ok (roundScore v.crashed ((v.speedIndex : ℝ) / 2) k) := by
  obtain ⟨lo, la, hact, -⟩ := hc.action
  obtain ⟨v, hv, hm, hu⟩ := vehicle_total h
  have hk : v.kind = .mdp := by rw [h.fitted v hm hu, hact]; rfl
  obtain ⟨k, rfl⟩ := space_index hact ha
  obtain ⟨l0, l1⟩ := hI.ladder v hm hk
  refine ⟨v, k, hv, rfl, l0, l1, ?_⟩
  rw [round_reward _ cfg (by norm_num) e v hv hk k]
  congr 3

/-- The methods of the roundabout raise nothing. -/
theorem round_reliable (G : Globals) (cfg : RoundaboutConfig) (hc : RoundOk G cfg) :
    Reliable { G with speedMin := 0, speedMax := 16, speedCount := 3 } cfg.sim
      (Roundabout.cls { G with speedMin := 0, speedMax := 16, speedCount := 3 } cfg) RoundState where
  lasting := fun e r _ _ h hr =>
    ⟨(run_network hr).trans h.network, (regulated_run hr).trans h.free, index_stays _ (by norm_num) 3 (by norm_num) _ _ h.ladder hr⟩
  terminal := fun e h _ => by
    obtain ⟨v, hv, _⟩ := vehicle_total h
    exact ⟨_, by simp only [Roundabout.cls, Roundabout.terminal, hv, bind, Except.bind]; rfl⟩
  reward := fun e a h hI ha => by
    obtain ⟨_, _, _, _, _, _, hr⟩ := round_reward_ready G cfg hc e h hI a ha
    exact ⟨_, hr⟩
  cost := fun e h _ => .inr rfl
  after := fun e h hI => ⟨e, rfl, h, hI⟩

/-- **C56, whole episodes.**  From a reset with any seed (and any order of Python sets), any sequence of meta-actions can be played without an
exception, the roads never change, every reward is the documented score of one state of the road and of the action, hence in [0, 1]; the episode
terminates exactly when the ego vehicle has crashed or the configured number of decisions has been taken, and no cost is defined. -/
theorem round_episode (G : Globals) (cfg : RoundaboutConfig) (hc : RoundOk G cfg) (hp : cfg.sim.policyFrequency ≠ 0) (ord : SetOrder) (rng : Rng)
    (as : List AgentAction) (ha : ∀ a ∈ as, InEnvSpace cfg.sim.action a) :
    ∃ G' e rs e', Roundabout.reset G cfg ord rng = .ok (G', e) ∧ Episode G' cfg.sim (Roundabout.cls G' cfg) e as rs e' ∧ rs.length = as.length ∧
      ∀ (i : ℕ) (res : StepResult), rs[i]? = some res → ∃ r v k, RoadRun G' e.road r ∧ r.network = roundNet ∧ v ∈ r.vehicles ∧ v.uid = 0 ∧
        as[i]? = some (.index k) ∧ res.crashed = v.crashed ∧ 0 ≤ v.speedIndex ∧ v.speedIndex < 3 ∧
        res.reward = roundScore v.crashed ((v.speedIndex : ℝ) / 2) k ∧ 0 ≤ res.reward ∧ res.reward ≤ 1 ∧
        (res.terminal = true ↔ v.crashed = true ∨ cfg.duration ≤ ((i + 1 : ℕ) : ℝ)) ∧ res.cost = none := by
  obtain ⟨e, ego, v1, v2, v3, v4, h1, h2, h3, h4, h5, h6, h7, h8⟩ := round_reset G cfg hc ord rng
  set G' : Globals := { G with speedMin := 0, speedMax := 16, speedCount := 3 } with hG'
  have hrel : Reliable G' cfg.sim (Roundabout.cls G' cfg) (fun f => RoundState f ∧ RoadRun G' e.road f.road) := by
    have hr := round_reliable G cfg hc
    exact {
      lasting := fun f r t s h hrun => ⟨hr.lasting f r t s h.1 hrun, Road.RoadRun.trans h.2 hrun⟩
      terminal := fun f h hI => hr.terminal f h hI.1
      reward := fun f a h hI => hr.reward f a h hI.1
      cost := fun f h hI => hr.cost f h hI.1
      after := fun f h hI => ⟨f, rfl, h, hI⟩ }
  obtain ⟨rs, e', hep, hlen, _, _⟩ := episode_never_raises G' cfg.sim (Roundabout.cls G' cfg) _ hrel hp e h2 ⟨h3, .refl _⟩ as ha
  refine ⟨G', e, rs, e', h1, hep, hlen, ?_⟩
  intro i res hres
  obtain ⟨_, _, _, _, _, hout⟩ := episode_outcomes G' cfg.sim (Roundabout.cls G' cfg) _ hrel (tidy_default rfl) hp e e' h2 ⟨h3, .refl _⟩ as rs ha hep
  have hi : i < as.length := by rw [← hlen]; exact (List.getElem?_eq_some_iff.1 hres).1
  obtain ⟨e1, v, q1, q2, q3, q4, q5, q6, q7, q8, q9, q10⟩ := hout i _ res (List.getElem?_eq_getElem hi) hres
  obtain ⟨v', k, w1, w2, w3, w4, w5⟩ := round_reward_ready G cfg hc e1 q1 q2.1 as[i] (ha _ (List.getElem_mem _))
  rw [q7] at w1
  cases w1
  obtain ⟨v', x1, x2, x3⟩ := vehicle_total q1
  rw [q7] at x1
  cases x1
  rw [q4, h7, List.mem_singleton] at x3
  have hsc : res.reward = roundScore v.crashed ((v.speedIndex : ℝ) / 2) k := by rw [q5] at w5; exact Except.ok.inj w5
  have c0 : (0 : ℝ) ≤ (v.speedIndex : ℝ) / 2 := by
    have : (0 : ℝ) ≤ (v.speedIndex : ℝ) := by exact_mod_cast w3
    linarith
  have c1 : (v.speedIndex : ℝ) / 2 ≤ 1 := by
    have : (v.speedIndex : ℝ) ≤ 2 := by exact_mod_cast (by omega : v.speedIndex ≤ 2)
    linarith
  obtain ⟨b0, b1, _⟩ := round_score_range v.crashed _ c0 c1 k
  have hter := round_terminal_iff G' cfg e1 v q7 _ q6
  rw [q3, h4] at hter
  simp only [Nat.zero_add] at hter
  refine ⟨e1.road, v, k, q2.2, q2.1.network, x2, x3, by rw [List.getElem?_eq_getElem hi, w2], q9, w3, w4, hsc, by rw [hsc]; exact b0,
    by rw [hsc]; exact b1, hter, ?_⟩
  cases hcost : res.cost with
  | none => rfl
  | some x => exact absurd ((q10 x).1 hcost) (by simp [Roundabout.cls])

/-- Non-vacuity: the default configuration is playable, at the first reset and at all later ones. -/
theorem round_default_ok : RoundOk {} {} ∧ RoundOk (Roundabout.ladder {}) {} :=
  ⟨⟨⟨true, true, rfl, .inl rfl⟩, by norm_num, rfl, by intro k h; cases h⟩,
    ⟨⟨true, true, rfl, .inl rfl⟩, by norm_num [Roundabout.ladder], rfl, by intro k h; cases h⟩⟩

example (ord : SetOrder) (rng : Rng) : ∃ G' e rs e', Roundabout.reset {} {} ord rng = .ok (G', e) ∧
    Episode G' {} (Roundabout.cls G' {}) e [.index 1, .index 2, .index 0] rs e' ∧ rs.length = 3 := by
  obtain ⟨G', e, rs, e', h1, h2, h3, _⟩ := round_episode {} {} round_default_ok.1 (by norm_num) ord rng [.index 1, .index 2, .index 0] (by
    intro a ha
    simp only [List.mem_cons, List.not_mem_nil, or_false] at ha
    rcases ha with rfl | rfl | rfl <;> exact ⟨by norm_num, by norm_num [AgentType.spaceSize, AgentType.actions]⟩)
  exact ⟨G', e, rs, e', h1, h2, h3⟩

/-! ## C62 — what a reset leaves behind -/

private theorem below (x : ℝ) (h : x ≤ -1) : npRound x ≤ 0 := by
  have := abs_le.1 (npRound_near x)
  have h2 : (npRound x : ℝ) < 1 := by linarith
  exact_mod_cast Int.lt_add_one_iff.1 (by exact_mod_cast h2)

private theorem above (x : ℝ) (h : 3 ≤ x) : 2 ≤ npRound x := by
  have := abs_le.1 (npRound_near x)
  have h2 : (1 : ℝ) < npRound x := by linarith
  have h3 : (1 : Int) < npRound x := by exact_mod_cast h2
  omega

/-- **C62 fails for the roundabout.**  The same reset, with the same configuration, the same seed and the same order of sets, played twice in one
process: the first time the ego vehicle (8 m/s) aims at 20 m/s with speed level 0, the second time at 8 m/s with level 1, because the
first reset has rewritten the class attributes of all discrete-action vehicles. -/
theorem round_reset_differs (cfg : RoundaboutConfig) (hc : RoundOk {} cfg) (ord : SetOrder) (rng : Rng) :
    ∃ G1 e1 v1 e2 v2, Roundabout.reset {} cfg ord rng = .ok (G1, e1) ∧ Roundabout.reset G1 cfg ord rng = .ok (G1, e2) ∧
      e1.road.vehicles.head? = some v1 ∧ e2.road.vehicles.head? = some v2 ∧ v1.speed = 8 ∧ v2.speed = 8 ∧
      v1.speedIndex = 0 ∧ v1.targetSpeed = 20 ∧ v2.speedIndex = 1 ∧ v2.targetSpeed = 8 := by
  have hc2 : RoundOk (Roundabout.ladder {}) cfg := ⟨hc.action, by norm_num [Roundabout.ladder], hc.traffic, hc.incoming⟩
  obtain ⟨e1, ego1, _, _, _, _, a1, _, _, _, _, _, _, a8, a9, _⟩ := round_reset {} cfg hc ord rng
  obtain ⟨e2, ego2, _, _, _, _, b1, _, _, _, _, _, _, b8, b9, _⟩ := round_reset (Roundabout.ladder {}) cfg hc2 ord rng
  refine ⟨_, e1, ego1, e2, ego2, a1, b1, by rw [a8]; rfl, by rw [b8]; rfl, a9.speed, b9.speed, ?_⟩
  have i1 : ego1.speedIndex = 0 := by
    rw [a9.level.1]
    have : Vehicle.speedToIndex {} 8 ≤ 0 := by
      unfold Vehicle.speedToIndex npClipInt
      have := below (((8 : ℝ) - (20 : ℝ)) / (30 - 20) * (((3 : ℕ) : ℝ) - 1)) (by norm_num)
      exact le_trans (min_le_left _ _) (max_le this le_rfl)
    have h0 := (speedToIndex_range (G := {}) (by norm_num) (8 : ℝ)).1
    omega
  have i2 : ego2.speedIndex = 1 := by
    rw [b9.level.1]
    have h1 : npRound (((8 : ℝ) - 0) / (16 - 0) * (((3 : ℕ) : ℝ) - 1)) = 1 := by
      have : (((8 : ℝ) - 0) / (16 - 0) * (((3 : ℕ) : ℝ) - 1)) = ((1 : Int) : ℝ) := by norm_num
      rw [this, npRound_int]
    change npClipInt (npRound (((8 : ℝ) - 0) / (16 - 0) * (((3 : ℕ) : ℝ) - 1))) 0 (((3 : ℕ) : Int) - 1) = 1
    rw [h1]; rfl
  refine ⟨i1, ?_, i2, ?_⟩
  · rw [a9.level.2, i1]; norm_num [level]
  · rw [b9.level.2, i2]; norm_num [level, Roundabout.ladder]

/-- A discrete-action vehicle built at 25 m/s — as the ego vehicle of the highway environment is — aims at 25 m/s in a fresh process, but at 16 m/s
if a roundabout environment has been reset before. -/
theorem round_spoils_others (g : Graph) (cfg : RoundaboutConfig) (hc : RoundOk {} cfg) (ord : SetOrder) (rng : Rng) :
    ∃ G1 e1, Roundabout.reset {} cfg ord rng = .ok (G1, e1) ∧
      ∀ (uid : ℕ) (pos : Vec2) (heading : ℝ) (tl : Option LaneIndex) (v w : Vehicle), Vehicle.mk' {} g uid .mdp pos heading 25 tl = .ok v →
        Vehicle.mk' G1 g uid .mdp pos heading 25 tl = .ok w → v.targetSpeed = 25 ∧ w.targetSpeed = 16 := by
  obtain ⟨e1, ego1, _, _, _, _, a1, _⟩ := round_reset {} cfg hc ord rng
  refine ⟨_, e1, a1, ?_⟩
  intro uid pos heading tl v w hv hw
  unfold Vehicle.mk' at hv hw
  obtain ⟨i, hi, hv⟩ := bind_ok hv
  obtain ⟨l, hl, hv⟩ := bind_ok hv
  obtain ⟨i', hi', hw⟩ := bind_ok hw
  obtain ⟨l', hl', hw⟩ := bind_ok hw
  cases hv
  cases hw
  have ht : Lane.optTruthy none = false := rfl
  simp only [if_true, indexToSpeed_level, ht, Bool.false_eq_true, if_false]
  constructor
  · have h1 : Vehicle.speedToIndex {} 25 = 1 := by
      have h1 : npRound (((25 : ℝ) - 20) / (30 - 20) * (((3 : ℕ) : ℝ) - 1)) = 1 := by
        have : (((25 : ℝ) - 20) / (30 - 20) * (((3 : ℕ) : ℝ) - 1)) = ((1 : Int) : ℝ) := by norm_num
        rw [this, npRound_int]
      change npClipInt (npRound (((25 : ℝ) - 20) / (30 - 20) * (((3 : ℕ) : ℝ) - 1))) 0 (((3 : ℕ) : Int) - 1) = 1
      rw [h1]; rfl
    rw [h1]; norm_num [level]
  · have h1 : Vehicle.speedToIndex { speedMin := 0, speedMax := 16, speedCount := 3 } 25 = 2 := by
      have h1 := above (((25 : ℝ) - 0) / (16 - 0) * (((3 : ℕ) : ℝ) - 1)) (by norm_num)
      change npClipInt (npRound (((25 : ℝ) - 0) / (16 - 0) * (((3 : ℕ) : ℝ) - 1))) 0 (((3 : ℕ) : Int) - 1) = 2
      unfold npClipInt
      have e : (((3 : ℕ) : Int) - 1) = 2 := by norm_num
      rw [e]
      exact min_eq_right (le_trans h1 (le_max_left _ _))
    rw [h1]; norm_num [level]

/-- C62, what does hold: from the second reset on nothing is left to change, and no other class attribute is ever touched. -/
theorem round_reset_settles (G : Globals) (cfg cfg' : RoundaboutConfig) (hc : RoundOk G cfg) (hc' : RoundOk (Roundabout.ladder G) cfg') (ord : SetOrder)
    (rng rng' : Rng) : ∃ G1 e1 e2, Roundabout.reset G cfg ord rng = .ok (G1, e1) ∧ Roundabout.reset G1 cfg' ord rng' = .ok (G1, e2) ∧
      G1 = { G with speedMin := 0, speedMax := 16, speedCount := 3 } := by
  obtain ⟨e1, _, _, _, _, _, a1, _⟩ := round_reset G cfg hc ord rng
  obtain ⟨e2, _, _, _, _, _, b1, _⟩ := round_reset (Roundabout.ladder G) cfg' hc' ord rng'
  exact ⟨_, e1, e2, a1, b1, rfl⟩

end HighwayEnv.Props
