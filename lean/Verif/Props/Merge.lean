import Verif.Lemmas.Level
import Verif.Props.Highway
import Verif.Props.Controller

/-!
# C55, C61: the merge environment
-/

noncomputable section
open Classical
namespace HighwayEnv.Props
open HighwayEnv HighwayEnv.Spec Graph

/-! ## C61 — the map -/

private theorem ljk_eq : Merge.ljk = levelLane 0 150 14.5 true := by
  unfold Merge.ljk levelLane
  norm_num

private theorem lkb_eq : Merge.lkb = rampLane := by
  unfold Merge.lkb rampLane
  rw [ljk_eq, level_position (by norm_num), level_position (by norm_num)]
  have : 2 * Real.pi / (2 * 80) = Real.pi / 80 := by ring
  rw [this]
  norm_num

theorem ramp_local (p : Vec2) : rampLane.localCoordinates p =
    (p.x - 150, p.y - 11.25 - 3.25 * Real.sin (Real.pi / 80 * (p.x - 150) + Real.pi / 2)) := by
  simp only [rampLane, Lane.localCoordinates, Lane.straightLocal, level_dir _ (show (150 : ℝ) < 230 by norm_num), Vec2.dot, Vec2.sub_x,
    Vec2.sub_y]
  ext <;> simp

theorem ramp_length : rampLane.length = 80 := by
  have : rampLane.length = (levelLane 150 230 11.25).length := rfl
  rw [this, level_length (by norm_num)]; norm_num

/-- The ramp goes from `y = 14.5` to `y = 8` along a cosine. -/
theorem ramp_position (s r : ℝ) : rampLane.position s r = ⟨150 + s, 11.25 + r + 3.25 * Real.cos (Real.pi / 80 * s)⟩ := by
  simp only [rampLane, Lane.position, Lane.straightPosition, level_dir _ (show (150 : ℝ) < 230 by norm_num), Real.sin_add_pi_div_two]
  ext <;> simp
  ring

private theorem cos_end : Real.cos (Real.pi / 80 * 80) = -1 := by
  rw [div_mul_cancel₀ _ (by norm_num : (80 : ℝ) ≠ 0)]; exact Real.cos_pi

private theorem lbc_eq : Merge.lbc = levelLane 230 310 8 true := by
  unfold Merge.lbc
  rw [lkb_eq, ramp_position, cos_end]
  unfold levelLane
  have h1 : (⟨150 + 80, 11.25 + 0 + 3.25 * -1⟩ : Vec2) = ⟨230, 8⟩ := by ext <;> norm_num
  have h2 : (⟨230, 8⟩ + ⟨80, 0⟩ : Vec2) = ⟨310, 8⟩ := by ext <;> simp; norm_num
  rw [h1, h2]

/-- **C61, merge.**  The network built by the environment is the documented map. -/
theorem merge_network : Merge.network = mergeNet := by
  unfold Merge.network Merge.highwayLanes
  rw [ljk_eq, lkb_eq, lbc_eq]
  have e1 : (150 + 80 : ℝ) = 230 := by norm_num
  have e2 : (230 + 80 : ℝ) = 310 := by norm_num
  have e3 : (310 + 150 : ℝ) = 460 := by norm_num
  simp only [Lane.DEFAULT_WIDTH, e1, e2, e3, one_ne_zero, if_true, if_false]
  simp [addLane, Dict.get?, Dict.setItem, mergeNet, levelLane]

theorem mergeNet_wf : WellFormed mergeNet where
  outer := by simp [mergeNet]
  inner := by simp [mergeNet]
  nonemptyNode := by simp [mergeNet]
  nonemptyEdge := by simp [mergeNet]

/-- All lanes of the map. -/
theorem mergeNet_lanes {a b : String} {k : ℕ} {l : Lane} : HasLane mergeNet a b k l ↔
    (a = "a" ∧ b = "b" ∧ ((k = 0 ∧ l = levelLane 0 230 0) ∨ (k = 1 ∧ l = levelLane 0 230 4))) ∨
    (a = "b" ∧ b = "c" ∧ ((k = 0 ∧ l = levelLane 230 310 0) ∨ (k = 1 ∧ l = levelLane 230 310 4) ∨ (k = 2 ∧ l = levelLane 230 310 8 true))) ∨
    (a = "c" ∧ b = "d" ∧ ((k = 0 ∧ l = levelLane 310 460 0) ∨ (k = 1 ∧ l = levelLane 310 460 4))) ∨
    (a = "j" ∧ b = "k" ∧ k = 0 ∧ l = levelLane 0 150 14.5 true) ∨ (a = "k" ∧ b = "b" ∧ k = 0 ∧ l = rampLane) := by
  have one : ∀ (x l : Lane), [x][k]? = some l ↔ k = 0 ∧ l = x := by
    intro x l; rcases k with _ | k <;> simp [eq_comm]
  have two : ∀ (x y l : Lane), [x, y][k]? = some l ↔ (k = 0 ∧ l = x) ∨ (k = 1 ∧ l = y) := by
    intro x y l; rcases k with _ | _ | k <;> simp [eq_comm]
  have three : ∀ (x y z l : Lane), [x, y, z][k]? = some l ↔ (k = 0 ∧ l = x) ∨ (k = 1 ∧ l = y) ∨ (k = 2 ∧ l = z) := by
    intro x y z l; rcases k with _ | _ | _ | k <;> simp [eq_comm]
  unfold HasLane RoadLanes mergeNet
  constructor
  · rintro ⟨ls, ⟨d, h1, h2⟩, h3⟩
    simp only [List.mem_cons, List.not_mem_nil, or_false, Prod.mk.injEq] at h1
    rcases h1 with ⟨rfl, rfl⟩ | ⟨rfl, rfl⟩ | ⟨rfl, rfl⟩ | ⟨rfl, rfl⟩ | ⟨rfl, rfl⟩ <;>
      (simp only [List.mem_cons, List.not_mem_nil, or_false, Prod.mk.injEq] at h2; obtain ⟨rfl, rfl⟩ := h2)
    · exact .inl ⟨rfl, rfl, (two _ _ _).1 h3⟩
    · exact .inr (.inl ⟨rfl, rfl, (three _ _ _ _).1 h3⟩)
    · exact .inr (.inr (.inl ⟨rfl, rfl, (two _ _ _).1 h3⟩))
    · exact .inr (.inr (.inr (.inl ⟨rfl, rfl, (one _ _).1 h3⟩)))
    · exact .inr (.inr (.inr (.inr ⟨rfl, rfl, (one _ _).1 h3⟩)))
  · rintro (⟨rfl, rfl, h⟩ | ⟨rfl, rfl, h⟩ | ⟨rfl, rfl, h⟩ | ⟨rfl, rfl, h⟩ | ⟨rfl, rfl, h⟩)
    · exact ⟨_, ⟨_, .head _, .head _⟩, (two _ _ _).2 h⟩
    · exact ⟨_, ⟨_, .tail _ (.head _), .head _⟩, (three _ _ _ _).2 h⟩
    · exact ⟨_, ⟨_, .tail _ (.tail _ (.head _)), .head _⟩, (two _ _ _).2 h⟩
    · exact ⟨_, ⟨_, .tail _ (.tail _ (.tail _ (.head _))), .head _⟩, (one _ _).2 h⟩
    · exact ⟨_, ⟨_, .tail _ (.tail _ (.tail _ (.tail _ (.head _)))), .head _⟩, (one _ _).2 h⟩

private theorem level_joins {x0 x1 x2 y : ℝ} {f f' : Bool} (h : x0 < x1) (h' : x1 < x2) : Joins (levelLane x0 x1 y f) (levelLane x1 x2 y f') := by
  unfold Joins
  rw [level_position h, level_position h', level_length h, level_heading h, level_heading h']
  exact ⟨by ext <;> simp, rfl⟩

/-- **C61, merge.**  Every lane continues without jump or kink: the highway lanes by the highway lane of the same number, the access by
the ramp and the ramp by the third lane of `b → c`. -/
theorem merge_continuous (k : ℕ) (a b c : String) (l l' : Lane) (h : HasLane mergeNet a b k l)
    (h' : HasLane mergeNet b c (if a = "k" then 2 else k) l') : Joins l l' := by
  have hh : ∀ s, rampLane.headingAt s = Real.arctan (3.25 * (Real.pi / 80) * Real.cos (Real.pi / 80 * s + Real.pi / 2)) := by
    intro s
    have : rampLane.headingAt s = (levelLane 150 230 11.25).headingAt s +
      Real.arctan (3.25 * (Real.pi / 80) * Real.cos (Real.pi / 80 * s + Real.pi / 2)) := rfl
    rw [this, level_heading (by norm_num), zero_add]
  rw [mergeNet_lanes] at h h'
  rcases h with ⟨rfl, rfl, h⟩ | ⟨rfl, rfl, h⟩ | ⟨rfl, rfl, h⟩ | ⟨rfl, rfl, rfl, rfl⟩ | ⟨rfl, rfl, rfl, rfl⟩
  · simp at h'
    rcases h with ⟨rfl, rfl⟩ | ⟨rfl, rfl⟩
    · simp at h'; rw [h'.2]; exact level_joins (by norm_num) (by norm_num)
    · simp at h'; rw [h'.2]; exact level_joins (by norm_num) (by norm_num)
  · simp at h'
    rcases h with ⟨rfl, rfl⟩ | ⟨rfl, rfl⟩ | ⟨rfl, rfl⟩
    · simp at h'; rw [h'.2]; exact level_joins (by norm_num) (by norm_num)
    · simp at h'; rw [h'.2]; exact level_joins (by norm_num) (by norm_num)
    · simp at h'
  · simp at h'
  · simp at h'
    rw [h'.2]
    unfold Joins
    rw [level_length (by norm_num), level_position (by norm_num), ramp_position, level_heading (by norm_num), hh]
    constructor
    · ext <;> simp; norm_num
    · simp
  · simp at h'
    rw [h'.2]
    unfold Joins
    rw [ramp_length, level_position (by norm_num), ramp_position, level_heading (by norm_num), hh, cos_end]
    constructor
    · ext <;> norm_num
    · rw [div_mul_cancel₀ _ (by norm_num : (80 : ℝ) ≠ 0), Real.cos_add_pi_div_two, Real.sin_pi]
      simp

/-- The access lane of `b → c` is a dead end: no road of the map continues it at its level, and an obstacle stands at its end. -/
theorem merge_dead_end (cfg : MergeConfig) (rng : Rng) : ∃ o, (Merge.makeRoad cfg rng).objects = [o] ∧ o.kind = .obstacle ∧ o.pos = ⟨310, 8⟩ ∧
    o.pos = (levelLane 230 310 8 true).position (levelLane 230 310 8 true).length 0 ∧
    ∀ d k l, HasLane mergeNet "c" d k l → l.position 0 0 ≠ o.pos := by
  refine ⟨_, rfl, rfl, ?_, ?_, ?_⟩
  · change Merge.lbc.position 80 0 = _
    rw [lbc_eq, level_position (by norm_num)]; ext <;> norm_num
  · change Merge.lbc.position 80 0 = _
    rw [lbc_eq, level_length (by norm_num)]; norm_num
  · intro d k l h
    change l.position 0 0 ≠ Merge.lbc.position 80 0
    rw [lbc_eq, level_position (by norm_num)]
    rw [mergeNet_lanes] at h
    simp at h
    obtain ⟨_, ⟨_, rfl⟩ | ⟨_, rfl⟩⟩ := h <;> rw [level_position (by norm_num)] <;> intro h <;>
      have := congrArg Vec2.y h <;> norm_num at this

/-! ## Reset -/

private theorem ramp_near {p : Vec2} {t : ℝ} (hd : rampLane.distanceWithHeading p (some t) ≤ 0) : 150 ≤ p.x := by
  simp only [Lane.distanceWithHeading, ramp_local, ramp_length, one_mul] at hd
  have a1 := abs_nonneg (p.y - 11.25 - 3.25 * Real.sin (Real.pi / 80 * (p.x - 150) + Real.pi / 2))
  have a2 := abs_nonneg (wrapToPi (t - rampLane.headingAt (p.x - 150)))
  have a3 := le_max_right (p.x - 150 - 80) 0
  have b4 := le_max_left (0 - (p.x - 150)) 0
  linarith

/-- On the centre line of a lane of the first section, the lane found is that lane. -/
private theorem merge_closest {a b : String} {k : ℕ} {x x1 y : ℝ} {f : Bool} (h1 : 150 ≤ x1)
    (hl : HasLane mergeNet a b k (levelLane 0 x1 y f)) (hab : a = "a" ∨ a = "j") (h0 : 0 ≤ x) (hx : x < 150) :
    mergeNet.getClosestLaneIndex ⟨x, y⟩ (some 0) = .ok ⟨a, b, (k : Int)⟩ := by
  refine closest_unique mergeNet_wf hl (level_on (by linarith) h0 (by linarith)) ?_
  have hy : (a = "a" ∧ b = "b" ∧ ((k = 0 ∧ y = 0) ∨ (k = 1 ∧ y = 4))) ∨ (a = "j" ∧ b = "k" ∧ k = 0 ∧ y = 14.5) := by
    have hlv : ∀ {x x' y y' : ℝ} {f f' : Bool}, levelLane 0 x y f = levelLane 0 x' y' f' → y = y' := by
      intro x x' y y' f f' h
      simp only [levelLane, Lane.mk.injEq, LaneShape.straight.injEq, Vec2.mk.injEq] at h
      exact h.1.1.2
    rw [mergeNet_lanes] at hl
    rcases hab with rfl | rfl
    · simp at hl
      rcases hl with ⟨rfl, ⟨rfl, h⟩ | ⟨rfl, h⟩⟩
      · exact .inl ⟨rfl, rfl, .inl ⟨rfl, hlv h⟩⟩
      · exact .inl ⟨rfl, rfl, .inr ⟨rfl, hlv h⟩⟩
    · simp at hl
      rcases hl with ⟨rfl, rfl, h⟩
      exact .inr ⟨rfl, rfl, rfl, hlv h⟩
  intro a' b' k' l' h' hd
  rw [mergeNet_lanes] at h'
  rcases h' with ⟨rfl, rfl, ⟨rfl, rfl⟩ | ⟨rfl, rfl⟩⟩ | ⟨rfl, rfl, ⟨rfl, rfl⟩ | ⟨rfl, rfl⟩ | ⟨rfl, rfl⟩⟩ |
    ⟨rfl, rfl, ⟨rfl, rfl⟩ | ⟨rfl, rfl⟩⟩ | ⟨rfl, rfl, rfl, rfl⟩ | ⟨rfl, rfl, rfl, rfl⟩
  · obtain ⟨_, _, h⟩ := level_near (by norm_num) hd
    dsimp only at h
    rcases hy with ⟨e1, e2, ⟨e3, e⟩ | ⟨e3, e⟩⟩ | ⟨e1, e2, e3, e⟩
    · exact ⟨e1.symm, e2.symm, e3.symm⟩
    · rw [e] at h; norm_num at h
    · rw [e] at h; norm_num at h
  · obtain ⟨_, _, h⟩ := level_near (by norm_num) hd
    dsimp only at h
    rcases hy with ⟨e1, e2, ⟨e3, e⟩ | ⟨e3, e⟩⟩ | ⟨e1, e2, e3, e⟩
    · rw [e] at h; norm_num at h
    · exact ⟨e1.symm, e2.symm, e3.symm⟩
    · rw [e] at h; norm_num at h
  · obtain ⟨h, _, _⟩ := level_near (by norm_num) hd; dsimp only at h; linarith
  · obtain ⟨h, _, _⟩ := level_near (by norm_num) hd; dsimp only at h; linarith
  · obtain ⟨h, _, _⟩ := level_near (by norm_num) hd; dsimp only at h; linarith
  · obtain ⟨h, _, _⟩ := level_near (by norm_num) hd; dsimp only at h; linarith
  · obtain ⟨h, _, _⟩ := level_near (by norm_num) hd; dsimp only at h; linarith
  · obtain ⟨_, _, h⟩ := level_near (by norm_num) hd
    dsimp only at h
    rcases hy with ⟨e1, e2, ⟨e3, e⟩ | ⟨e3, e⟩⟩ | ⟨e1, e2, e3, e⟩
    · rw [e] at h; norm_num at h
    · rw [e] at h; norm_num at h
    · exact ⟨e1.symm, e2.symm, e3.symm⟩
  · have := ramp_near hd; dsimp only at this; linarith

private theorem place_ok (G : Globals) (uid : ℕ) (kind : VKind) {a b : String} {k : ℕ} {x1 y : ℝ} {f : Bool} (s speed : ℝ) (h1 : 150 ≤ x1)
    (hl : HasLane mergeNet a b k (levelLane 0 x1 y f)) (hab : a = "a" ∨ a = "j") (h0 : 0 ≤ s) (hs : s < 150) :
    ∃ v, Merge.place G mergeNet uid kind ⟨a, b, (k : Int)⟩ s speed = .ok v ∧ Built G uid kind ⟨s, y⟩ 0 speed v ∧ Attached mergeNet v ∧
      v.laneIndex = ⟨a, b, (k : Int)⟩ := by
  obtain ⟨v, hv, hb, ha, hc⟩ := mk'_total G mergeNet_wf (by simp [mergeNet]) uid kind ⟨s, y⟩ 0 speed
  rw [merge_closest h1 hl hab h0 hs] at hc
  refine ⟨v, ?_, hb, ha, (Except.ok.inj hc).symm⟩
  unfold Merge.place
  rw [getLane_of_hasLane mergeNet_wf.toIsPyGraph rfl hl]
  simp only [bind, Except.bind]
  rw [level_position (by linarith)]
  simpa using hv

/-- What never changes in the merge environment, and keeps its reward defined. -/
structure MergeState (G : Globals) (e : Env) : Prop where
  network : e.road.network = mergeNet
  free : e.road.regulated = false
  traffic : ∀ v ∈ e.road.vehicles, v.kind.isIDM = true → 0 < v.targetSpeed
  ladder : ∀ v ∈ e.road.vehicles, v.kind = .mdp → OnLadder G v ∧ v.isYielding = false
  kinds : ∀ v ∈ e.road.vehicles, v.kind = .mdp ∨ v.kind = .idm ∨ v.kind = .plain ∨ v.kind = .bicycle

/-- **Reset of the merge environment.**  Whatever the seed, the five vehicles are always the same: the ego vehicle, three vehicles on the
highway and one on the access, which aims at 30 m/s. -/
theorem merge_reset (G : Globals) (cfg : MergeConfig) (hc : MergeOk G cfg) (rng : Rng) :
    ∃ e, Merge.reset G cfg rng = .ok e ∧ Ready cfg.sim e ∧ MergeState G e ∧ e.steps = 0 ∧ e.time = 0 ∧ e.done = false ∧
      e.controlled = [0] ∧ e.road.vehicles.map (·.uid) = [0, 1, 2, 3, 4] ∧
      e.road.vehicles.map (fun v => (v.kind, v.pos, v.speed, v.laneIndex)) = mergeTraffic .mdp cfg.otherVehiclesType ∧
      (∀ v ∈ e.road.vehicles, v.heading = 0 ∧ v.crashed = false ∧ v.targetLane = v.laneIndex ∧ v.route = none) ∧
      ∀ v ∈ e.road.vehicles, v.uid = 4 → v.targetSpeed = 30 := by
  obtain ⟨lo, la, hact, hlola⟩ := hc.action
  have hagent : cfg.sim.action.agent = .discrete lo la := by rw [hact]; rfl
  have hinit : AgentType.init (.discrete lo la) = .ok (.discrete lo la) := by
    rcases hlola with rfl | rfl
    · cases la <;> rfl
    · cases lo <;> rfl
  have hclass : cfg.sim.action.agent.vehicleClass = .mdp := by rw [hagent]; rfl
  have hnet : (Merge.makeRoad cfg rng).network = mergeNet := merge_network
  obtain ⟨v0, p0, b0, a0, l0⟩ := place_ok G 0 .mdp (a := "a") (b := "b") (k := 1) (x1 := 230) (y := 4) (f := false) 30 30 (by norm_num)
    (mergeNet_lanes.2 (by simp)) (by simp) (by norm_num) (by norm_num)
  obtain ⟨v1, p1, b1, a1, l1⟩ := place_ok G 1 cfg.otherVehiclesType (a := "a") (b := "b") (k := 0) (x1 := 230) (y := 0) (f := false) 90 29
    (by norm_num) (mergeNet_lanes.2 (by simp)) (by simp) (by norm_num) (by norm_num)
  obtain ⟨v2, p2, b2, a2, l2⟩ := place_ok G 2 cfg.otherVehiclesType (a := "a") (b := "b") (k := 1) (x1 := 230) (y := 4) (f := false) 70 31
    (by norm_num) (mergeNet_lanes.2 (by simp)) (by simp) (by norm_num) (by norm_num)
  obtain ⟨v3, p3, b3, a3, l3⟩ := place_ok G 3 cfg.otherVehiclesType (a := "a") (b := "b") (k := 0) (x1 := 230) (y := 0) (f := false) 5 31.5
    (by norm_num) (mergeNet_lanes.2 (by simp)) (by simp) (by norm_num) (by norm_num)
  obtain ⟨v4, p4, b4, a4, l4⟩ := place_ok G 4 cfg.otherVehiclesType (a := "j") (b := "k") (k := 0) (x1 := 150) (y := 14.5) (f := true) 110 20
    (by norm_num) (mergeNet_lanes.2 (by simp)) (by simp) (by norm_num) (by norm_num)
  simp only [Nat.cast_zero, Nat.cast_one] at p0 p1 p2 p3 p4 l0 l1 l2 l3 l4
  set vs : List Vehicle := [v0, v1, v2, v3, { v4 with targetSpeed := 30 }] with hvs
  set R : Road := { Merge.makeRoad cfg rng with vehicles := vs } with hR
  have hot := hc.traffic
  have hmdp : cfg.otherVehiclesType ≠ .mdp := by rcases hot with h | h | h <;> rw [h] <;> simp
  have hmem : ∀ {P : Vehicle → Prop}, P v0 → P v1 → P v2 → P v3 → P { v4 with targetSpeed := 30 } → ∀ v ∈ vs, P v := by
    intro P h0 h1 h2 h3 h4 v hv
    simp only [hvs, List.mem_cons, List.not_mem_nil, or_false] at hv
    rcases hv with rfl | rfl | rfl | rfl | rfl <;> assumption
  have huids : vs.map (·.uid) = [0, 1, 2, 3, 4] := by
    simp only [hvs, List.map_cons, List.map_nil, b0.uid, b1.uid, b2.uid, b3.uid, b4.uid]
  have hkinds : ∀ v ∈ vs, v.kind = .mdp ∨ v.kind = .idm ∨ v.kind = .plain ∨ v.kind = .bicycle := by
    refine hmem ?_ ?_ ?_ ?_ ?_
    · left; exact b0.kind
    · right; rw [b1.kind]; exact hot
    · right; rw [b2.kind]; exact hot
    · right; rw [b3.kind]; exact hot
    · right; change v4.kind = _ ∨ _; rw [b4.kind]; exact hot
  refine ⟨{ road := R, controlled := [0], nextUid := 6 }, ?_, ⟨⟨?_, ?_, ?_, ?_⟩, ⟨?_, ?_, by simp⟩, ?_, ?_, ?_⟩, ⟨hnet, rfl, ?_, ?_, hkinds⟩, rfl, rfl,
    rfl, rfl, huids, ?_, ?_, ?_⟩
  · unfold Merge.reset Merge.makeVehicles
    rw [← hnet] at p0 p1 p2 p3 p4
    rw [hclass, hagent, hinit, p0, p1, p2, p3, p4]
    rfl
  · change WellFormed (Merge.makeRoad cfg rng).network
    rw [hnet]; exact mergeNet_wf
  · change ∀ v ∈ vs, Attached (Merge.makeRoad cfg rng).network v ∧ RouteExists (Merge.makeRoad cfg rng).network v.route
    rw [hnet]
    have hr : ∀ v : Vehicle, v.route = none → RouteExists mergeNet v.route := by
      intro v hv; rw [hv]; simp [RouteExists]
    exact hmem ⟨a0, hr _ b0.route⟩ ⟨a1, hr _ b1.route⟩ ⟨a2, hr _ b2.route⟩ ⟨a3, hr _ b3.route⟩
      ⟨⟨a4.here, a4.lane, a4.target⟩, hr { v4 with targetSpeed := 30 } b4.route⟩
  · rintro ⟨v, hv, hlin⟩
    rcases hkinds v hv with h | h | h | h <;> rw [h] at hlin <;> cases hlin
  · intro h; cases h
  · change (vs.map (·.uid)).Nodup
    rw [huids]; simp
  · intro uid hu
    simp only [List.mem_singleton] at hu
    subst hu
    exact ⟨v0, by simp [hR, hvs], b0.uid⟩
  · change ∀ v ∈ vs, v.uid ∈ [0] → v.kind = _
    rw [agentOf_agent, hclass]
    refine hmem (fun _ => b0.kind) ?_ ?_ ?_ ?_
    · rw [b1.uid]; simp
    · rw [b2.uid]; simp
    · rw [b3.uid]; simp
    · change v4.uid ∈ _ → _; rw [b4.uid]; simp
  · rw [agentOf_agent, hagent]; exact ⟨_, hinit⟩
  · intro h; cases h
  · refine hmem ?_ ?_ ?_ ?_ ?_
    · rw [b0.kind]; intro h; cases h
    · intro _; rw [b1.targetSpeed hmdp]; norm_num
    · intro _; rw [b2.targetSpeed hmdp]; norm_num
    · intro _; rw [b3.targetSpeed hmdp]; norm_num
    · intro _; norm_num
  · refine hmem ?_ ?_ ?_ ?_ ?_
    · intro _
      refine ⟨?_, b0.yielding⟩
      obtain ⟨e1, e2⟩ := b0.ladder rfl
      have hn : 0 < G.speedCount := by have := hc.count; omega
      unfold OnLadder
      rw [e2, e1]
      exact ⟨(speedToIndex_range hn _).1, (speedToIndex_range hn _).2, indexToSpeed_level G _⟩
    · rw [b1.kind]; intro h; exact absurd h hmdp
    · rw [b2.kind]; intro h; exact absurd h hmdp
    · rw [b3.kind]; intro h; exact absurd h hmdp
    · change v4.kind = _ → _; rw [b4.kind]; intro h; exact absurd h hmdp
  · change vs.map _ = _
    simp only [hvs, List.map_cons, List.map_nil, b0.kind, b1.kind, b2.kind, b3.kind, b4.kind, b0.pos, b1.pos, b2.pos, b3.pos, b4.pos,
      b0.speed, b1.speed, b2.speed, b3.speed, b4.speed, l0, l1, l2, l3, l4, mergeTraffic]
  · exact hmem ⟨b0.heading, b0.crashed, b0.target, b0.route⟩ ⟨b1.heading, b1.crashed, b1.target, b1.route⟩ ⟨b2.heading, b2.crashed, b2.target, b2.route⟩
      ⟨b3.heading, b3.crashed, b3.target, b3.route⟩ ⟨b4.heading, b4.crashed, b4.target, b4.route⟩
  · refine hmem ?_ ?_ ?_ ?_ (fun _ => rfl)
    · rw [b0.uid]; simp
    · rw [b1.uid]; simp
    · rw [b2.uid]; simp
    · rw [b3.uid]; simp

/-! ## C55 — reward -/

private theorem penalty_fold (vs : List Vehicle) (acc : ℝ)
    (h : ∀ v ∈ vs, v.laneIndex = ⟨"b", "c", 2⟩ → v.kind.isControlled = true → v.targetSpeed ≠ 0) :
    vs.foldlM Merge.penalty acc = .ok (acc - 0.5 * slowdown vs) := by
  induction vs generalizing acc with
  | nil => simp [slowdown, pure, Except.pure]
  | cons v vs ih =>
    have ih := fun a => ih a fun w hw => h w (by simp [hw])
    rw [List.foldlM_cons]
    unfold Merge.penalty
    by_cases hc : v.laneIndex = ⟨"b", "c", 2⟩ ∧ v.kind.isControlled = true
    · rw [if_pos hc, if_neg (h v (by simp) hc.1 hc.2)]
      change List.foldlM Merge.penalty _ vs = _
      rw [ih]
      have : slowdown (v :: vs) = (v.targetSpeed - v.speed) / v.targetSpeed + slowdown vs := by
        unfold slowdown
        rw [List.filter_cons, if_pos (by simpa using hc), List.map_cons, List.sum_cons]
      rw [this]
      congr 1
      unfold Merge.MERGING_SPEED_REWARD
      ring
    · rw [if_neg hc]
      change List.foldlM Merge.penalty _ vs = _
      rw [ih]
      have : slowdown (v :: vs) = slowdown vs := by
        unfold slowdown
        rw [List.filter_cons, if_neg (by simpa using hc)]
      rw [this]

private theorem actionReward_eq (k : Int) (h0 : 0 ≤ k) (h1 : k < 5) :
    Merge.actionReward (some (.index k)) = .ok (if k = 0 ∨ k = 2 then -0.05 else 0) := by
  have : k = 0 ∨ k = 1 ∨ k = 2 ∨ k = 3 ∨ k = 4 := by omega
  rcases this with rfl | rfl | rfl | rfl | rfl <;>
    simp [Merge.actionReward, Dict.getItem, Dict.get?, Merge.LANE_CHANGE_REWARD] <;> norm_num

/-- **C55, the reward.**  For a discrete-action ego vehicle the reward is the documented score of its crash, lane number, speed level, of
the meta-action and of the slowdown of merging traffic. -/
theorem merge_reward (G : Globals) (hn : 2 ≤ G.speedCount) (e : Env) (v : Vehicle) (hv : e.vehicle = .ok v) (hk : v.kind = .mdp)
    (ht : ∀ w ∈ e.road.vehicles, w.laneIndex = ⟨"b", "c", 2⟩ → w.kind.isControlled = true → w.targetSpeed ≠ 0) (k : Int) (h0 : 0 ≤ k)
    (h1 : k < 5) :
    (Merge.cls G).reward e (some (.index k)) = .ok (mergeScore v.crashed v.laneIndex.id ((v.speedIndex : ℝ) / (G.speedCount - 1)) k
      (slowdown e.road.vehicles)) := by
  have hs : Merge.speedShare G v = .ok ((v.speedIndex : ℝ) / ((G.speedCount : ℝ) - 1)) := by
    unfold Merge.speedShare
    rw [if_neg (by simp [hk]), if_neg (by omega)]
  change Merge.reward G e _ = _
  unfold Merge.reward
  rw [hv]
  simp only [bind, Except.bind, hs]
  rw [penalty_fold _ _ ht, actionReward_eq k h0 h1]
  simp only [pure, Except.pure]
  congr 1
  unfold lmap mergeScore Merge.COLLISION_REWARD Merge.MERGING_SPEED_REWARD Merge.HIGH_SPEED_REWARD Merge.RIGHT_LANE_REWARD Highway.ofBool
  cases v.crashed <;> simp <;> ring

/-- **C55 (partial): when the reward is normalised.**  With a lane number 0 or 1, a speed level of the ladder and a slowdown in [0, 1], the
score is at most 1, and at least 0 unless the ego is crashed while changing lane.  Missing for the full claim: it is false, see
`merge_below_zero`, `merge_above_one`. -/
theorem merge_score_range_partial (crashed : Bool) (lane : Int) (share : ℝ) (k : Int) (slow : ℝ) (l0 : 0 ≤ lane) (l1 : lane ≤ 1)
    (s0 : 0 ≤ share) (s1 : share ≤ 1) (w0 : 0 ≤ slow) (w1 : slow ≤ 1) :
    mergeScore crashed lane share k slow ≤ 1 ∧ (¬ (crashed = true ∧ (k = 0 ∨ k = 2)) → 0 ≤ mergeScore crashed lane share k slow) ∧
    -0.05 / 1.8 ≤ mergeScore crashed lane share k slow := by
  have a0 : (0 : ℝ) ≤ lane := by exact_mod_cast l0
  have a1 : (lane : ℝ) ≤ 1 := by exact_mod_cast l1
  unfold mergeScore
  refine ⟨?_, fun h => ?_, ?_⟩
  · rw [div_le_one (by norm_num)]
    split <;> split <;> norm_num <;> linarith
  · apply div_nonneg _ (by norm_num)
    rw [not_and_or] at h
    rcases h with h | h
    · rw [if_neg h]; split <;> norm_num <;> linarith
    · rw [if_neg h]; split <;> norm_num <;> linarith
  · apply div_le_div_of_nonneg_right _ (by norm_num : (0 : ℝ) ≤ 1.8)
    split <;> split <;> norm_num <;> linarith

/-- **C55, monotonicity.**  A crash, a lane change or slower merging traffic cost reward; a higher lane number or a higher speed level never
do. -/
theorem merge_score_monotone (crashed : Bool) (lane lane' : Int) (share share' : ℝ) (k : Int) (slow slow' : ℝ) (hl : lane ≤ lane')
    (hs : share ≤ share') (hw : slow' ≤ slow) :
    mergeScore crashed lane share k slow ≤ mergeScore crashed lane' share' k slow' ∧
    mergeScore true lane share k slow < mergeScore false lane share k slow ∧
    (k = 0 ∨ k = 2 → mergeScore crashed lane share k slow < mergeScore crashed lane share 1 slow) := by
  have : (lane : ℝ) ≤ lane' := by exact_mod_cast hl
  unfold mergeScore
  refine ⟨?_, ?_, fun h => ?_⟩
  · apply div_le_div_of_nonneg_right _ (by norm_num : (0 : ℝ) ≤ 1.8)
    linarith
  · apply div_lt_div_of_pos_right _ (by norm_num : (0 : ℝ) < 1.8)
    simp
  · apply div_lt_div_of_pos_right _ (by norm_num : (0 : ℝ) < 1.8)
    rw [if_pos h]
    norm_num

/-- A vehicle at the given place of the merge map. -/
private def merging (uid : ℕ) (kind : VKind) (speed target : ℝ) (lane : LaneIndex) (crashed : Bool) (level : Int) : Vehicle :=
  { uid := uid, kind := kind, pos := ⟨240, 8⟩, heading := 0, speed := speed, targetSpeed := target, laneIndex := lane, targetLane := lane,
    lane := levelLane 230 310 8 true, crashed := crashed, speedIndex := level }

private theorem merging_reward (ego other : Vehicle) (hu : ego.uid = 0) (hk : ego.kind = .mdp) (ho : other.targetSpeed ≠ 0) (he : ego.targetSpeed ≠ 0)
    (k : Int) (h0 : 0 ≤ k) (h1 : k < 5) :
    (Merge.cls {}).reward { road := { network := mergeNet, vehicles := [ego, other], rng := { ints := fun _ => 0, reals := fun _ => 0 } }, controlled := [0], nextUid := 2 }
      (some (.index k)) = .ok (mergeScore ego.crashed ego.laneIndex.id ((ego.speedIndex : ℝ) / (((3 : ℕ) : ℝ) - 1)) k (slowdown [ego, other])) := by
  refine merge_reward {} (by norm_num) _ ego ?_ hk ?_ k h0 h1
  · simp [Env.vehicle, Road.vehicle?, hu]
  · intro w hw _ _
    simp only [List.mem_cons, List.not_mem_nil, or_false] at hw
    rcases hw with rfl | rfl <;> assumption

/-- **C55 is false below**: a crashed ego vehicle on lane 0, at the lowest speed level, that orders a lane change while a merging vehicle
is stopped on the access lane gets a negative reward. -/
theorem merge_below_zero : ∃ e x, (Merge.cls {}).reward e (some (.index 0)) = .ok x ∧ x < 0 ∧ e.road.network = mergeNet ∧
    ∃ v, e.vehicle = .ok v ∧ v.kind = .mdp ∧ v.laneIndex = ⟨"b", "c", 0⟩ := by
  refine ⟨_, _, merging_reward (merging 0 .mdp 0 20 ⟨"b", "c", 0⟩ true 0) (merging 1 .idm 0 30 ⟨"b", "c", 2⟩ false 0) rfl rfl
    (by norm_num [merging]) (by norm_num [merging]) 0 le_rfl (by norm_num), ?_, rfl, ?_⟩
  · have : slowdown [merging 0 .mdp 0 20 ⟨"b", "c", 0⟩ true 0, merging 1 .idm 0 30 ⟨"b", "c", 2⟩ false 0] = 1 := by
      simp [slowdown, merging, VKind.isControlled]
    rw [this]
    norm_num [mergeScore, merging]
  · exact ⟨merging 0 .mdp 0 20 ⟨"b", "c", 0⟩ true 0, by simp [Env.vehicle, Road.vehicle?, merging], rfl, rfl⟩

/-- **C55 is false above**: on the access lane (number 2) at the highest speed level, with the ego at its target speed, the reward
exceeds 1. -/
theorem merge_above_one : ∃ e x, (Merge.cls {}).reward e (some (.index 1)) = .ok x ∧ 1 < x ∧ e.road.network = mergeNet ∧
    ∃ v, e.vehicle = .ok v ∧ v.kind = .mdp ∧ v.laneIndex = ⟨"b", "c", 2⟩ := by
  refine ⟨_, _, merging_reward (merging 0 .mdp 30 30 ⟨"b", "c", 2⟩ false 2) (merging 1 .idm 30 30 ⟨"b", "c", 1⟩ false 0) rfl rfl
    (by norm_num [merging]) (by norm_num [merging]) 1 (by norm_num) (by norm_num), ?_, rfl, ?_⟩
  · have : slowdown [merging 0 .mdp 30 30 ⟨"b", "c", 2⟩ false 2, merging 1 .idm 30 30 ⟨"b", "c", 1⟩ false 0] = 0 := by
      simp [slowdown, merging, VKind.isControlled]
    rw [this]
    norm_num [mergeScore, merging]
  · exact ⟨merging 0 .mdp 30 30 ⟨"b", "c", 2⟩ false 2, by simp [Env.vehicle, Road.vehicle?, merging], rfl, rfl⟩

/-- **C55, the lane-change penalty.**  When lane changes are part of the action space, the penalised indices 0 and 2 are exactly the lane
changes; when they are not, they are the speed changes. -/
theorem merge_penalised (lo la : Bool) (k : Int) (n : VAction) (hs : InSpace (.discrete lo la) (.index k))
    (h : AgentType.command (.discrete lo la) (.index k) = .ok n) :
    (k = 0 ∨ k = 2) ↔ if la then n = .laneLeft ∨ n = .laneRight else n = .slower ∨ n = .faster := by
  obtain ⟨h0, h1⟩ := hs
  cases lo <;> cases la <;> simp [AgentType.spaceSize, AgentType.actions] at h1
  · omega
  · have : k = 0 ∨ k = 1 ∨ k = 2 := by omega
    rcases this with rfl | rfl | rfl <;> simp [AgentType.command, AgentType.actions, Dict.getItem, Dict.get?] at h <;> subst h <;> simp
  · have : k = 0 ∨ k = 1 ∨ k = 2 := by omega
    rcases this with rfl | rfl | rfl <;> simp [AgentType.command, AgentType.actions, Dict.getItem, Dict.get?] at h <;> subst h <;> simp
  · have : k = 0 ∨ k = 1 ∨ k = 2 ∨ k = 3 ∨ k = 4 := by omega
    rcases this with rfl | rfl | rfl | rfl | rfl <;> simp [AgentType.command, AgentType.actions, Dict.getItem, Dict.get?] at h <;> subst h <;> simp

/-! ## Episodes -/

private theorem space_index {c : SimConfig} {lo la : Bool} (hact : c.action = .single (.discrete lo la)) {a : AgentAction}
    (ha : InEnvSpace c.action a) : ∃ k : Int, a = .index k ∧ 0 ≤ k ∧ k < 5 := by
  rw [hact] at ha
  cases a with
  | index k =>
    obtain ⟨h0, h1⟩ := ha
    refine ⟨k, rfl, h0, lt_of_lt_of_le h1 ?_⟩
    cases lo <;> cases la <;> simp [AgentType.spaceSize, AgentType.actions]
  | vector _ => exact ha.elim
  | tuple _ => exact ha.elim

private theorem merge_targets {G : Globals} {cfg : MergeConfig} (hc : MergeOk G cfg) {e : Env} (h : MergeState G e) :
    ∀ w ∈ e.road.vehicles, w.kind.isControlled = true → 0 < w.targetSpeed := by
  intro w hw hk
  rcases h.kinds w hw with hm | hm | hm | hm
  · obtain ⟨⟨l0, l1, l2⟩, _⟩ := h.ladder w hw hm
    rw [l2]
    exact lt_of_lt_of_le hc.speeds.1 (level_range G hc.speeds.2 _ l0 l1).1
  · exact h.traffic w hw (by rw [hm]; rfl)
  · rw [hm] at hk; cases hk
  · rw [hm] at hk; cases hk

/-- **C55, in a reachable state**, the reward is the documented score. -/
theorem merge_reward_ready (G : Globals) (cfg : MergeConfig) (hc : MergeOk G cfg) (e : Env) (h : Ready cfg.sim e) (hI : MergeState G e)
    (a : AgentAction) (ha : InEnvSpace cfg.sim.action a) : ∃ v k, e.vehicle = .ok v ∧ a = .index k ∧ 0 ≤ v.speedIndex ∧ v.speedIndex < G.speedCount ∧
      (Merge.cls G).reward e (some a) = .ok (mergeScore v.crashed v.laneIndex.id ((v.speedIndex : ℝ) / (G.speedCount - 1)) k
        (slowdown e.road.vehicles)) := by
  obtain ⟨lo, la, hact, -⟩ := hc.action
  obtain ⟨v, hv, hm, hu⟩ := vehicle_total h
  have hk : v.kind = .mdp := by rw [h.fitted v hm hu, hact]; rfl
  obtain ⟨k, rfl, h0, h1⟩ := space_index hact ha
  obtain ⟨⟨l0, l1, _⟩, _⟩ := hI.ladder v hm hk
  exact ⟨v, k, hv, rfl, l0, l1, merge_reward G hc.count e v hv hk (fun w hw _ hw' => (merge_targets hc hI w hw hw').ne') k h0 h1⟩

/-- The methods of the merge environment raise nothing. -/
theorem merge_reliable (G : Globals) (cfg : MergeConfig) (hc : MergeOk G cfg) : Reliable G cfg.sim (Merge.cls G) (MergeState G) where
  lasting := fun e r _ _ h hr => by
    have hn : 0 < G.speedCount := by have := hc.count; omega
    refine ⟨(run_network hr).trans h.network, (regulated_run hr).trans h.free, ?_, ?_, ?_⟩
    · exact ((idm_target_kept G e.road.network (fun x => 0 < x)).run h.free hr h.traffic).2.2
    · exact fun v hv hk => ⟨always_on_ladder G hn _ _ h.ladder hr v hv hk, mdp_not_yielding G hn _ _ h.ladder hr v hv hk⟩
    · intro v hv
      have hkk := kinds_run hr
      have : (v.uid, v.kind) ∈ r.vehicles.map (fun v => (v.uid, v.kind)) := List.mem_map.2 ⟨v, hv, rfl⟩
      rw [hkk] at this
      obtain ⟨w, hw, he⟩ := List.mem_map.1 this
      rw [← (Prod.mk.inj he).2]
      exact h.kinds w hw
  terminal := fun e h _ => by
    obtain ⟨v, hv, _⟩ := vehicle_total h
    exact ⟨_, by simp only [Merge.cls, Merge.terminal, hv, bind, Except.bind]; rfl⟩
  reward := fun e a h hI ha => by
    obtain ⟨_, _, _, _, _, _, hr⟩ := merge_reward_ready G cfg hc e h hI a ha
    exact ⟨_, hr⟩
  cost := fun e h _ => .inr rfl
  after := fun e h hI => ⟨e, rfl, h, hI⟩

/-- **C55, exact termination**: a crash, or 370 m of highway (60 m after the end of the access lane). -/
theorem merge_terminal_iff (G : Globals) (e : Env) (v : Vehicle) (hv : e.vehicle = .ok v) (b : Bool) (h : (Merge.cls G).terminal e = .ok b) :
    b = true ↔ v.crashed = true ∨ 370 < v.pos.x := by
  simp only [Merge.cls, Merge.terminal, hv, bind, Except.bind] at h
  cases h
  simp

/-- **C55, whole episodes.**  From a reset with any seed, any sequence of meta-actions can be played without an exception; every reward is the
documented score of one state of the road and of the action, a crashed ego always terminates, and no cost is defined. -/
theorem merge_episode (G : Globals) (cfg : MergeConfig) (hc : MergeOk G cfg) (hp : cfg.sim.policyFrequency ≠ 0) (rng : Rng)
    (as : List AgentAction) (ha : ∀ a ∈ as, InEnvSpace cfg.sim.action a) :
    ∃ e rs e', Merge.reset G cfg rng = .ok e ∧ Episode G cfg.sim (Merge.cls G) e as rs e' ∧ rs.length = as.length ∧
      ∀ (i : ℕ) (res : StepResult), rs[i]? = some res → ∃ r v k, RoadRun G e.road r ∧ v ∈ r.vehicles ∧ v.uid = 0 ∧
        as[i]? = some (.index k) ∧ res.crashed = v.crashed ∧ 0 ≤ v.speedIndex ∧ v.speedIndex < G.speedCount ∧
        res.reward = mergeScore v.crashed v.laneIndex.id ((v.speedIndex : ℝ) / (G.speedCount - 1)) k (slowdown r.vehicles) ∧
        (res.terminal = true ↔ v.crashed = true ∨ 370 < v.pos.x) ∧ res.cost = none := by
  obtain ⟨e, h1, h2, h3, h4, h5, h6, h7, h8, h9, h10, h11⟩ := merge_reset G cfg hc rng
  have hrel : Reliable G cfg.sim (Merge.cls G) (fun f => MergeState G f ∧ RoadRun G e.road f.road) := by
    have hr := merge_reliable G cfg hc
    exact {
      lasting := fun f r t s h hrun => ⟨hr.lasting f r t s h.1 hrun, Road.RoadRun.trans h.2 hrun⟩
      terminal := fun f h hI => hr.terminal f h hI.1
      reward := fun f a h hI => hr.reward f a h hI.1
      cost := fun f h hI => hr.cost f h hI.1
      after := fun f h hI => ⟨f, rfl, h, hI⟩ }
  obtain ⟨rs, e', hep, hlen, _, _⟩ := episode_never_raises G cfg.sim (Merge.cls G) _ hrel hp e h2 ⟨h3, .refl _⟩ as ha
  refine ⟨e, rs, e', h1, hep, hlen, ?_⟩
  intro i res hres
  obtain ⟨_, _, _, _, _, hout⟩ := episode_outcomes G cfg.sim (Merge.cls G) _ hrel (tidy_default rfl) hp e e' h2 ⟨h3, .refl _⟩ as rs ha hep
  have hi : i < as.length := by rw [← hlen]; exact (List.getElem?_eq_some_iff.1 hres).1
  obtain ⟨e1, v, q1, q2, q3, q4, q5, q6, q7, q8, q9, q10⟩ := hout i _ res (List.getElem?_eq_getElem hi) hres
  obtain ⟨v', k, w1, w2, w3, w4, w5⟩ := merge_reward_ready G cfg hc e1 q1 q2.1 as[i] (ha _ (List.getElem_mem _))
  rw [q7] at w1
  cases w1
  obtain ⟨v', x1, x2, x3⟩ := vehicle_total q1
  rw [q7] at x1
  cases x1
  rw [q4, h7, List.mem_singleton] at x3
  refine ⟨e1.road, v, k, q2.2, x2, x3, by rw [List.getElem?_eq_getElem hi, w2], q9, w3, w4, ?_, merge_terminal_iff G e1 v q7 _ q6, ?_⟩
  · rw [q5] at w5; exact Except.ok.inj w5
  · cases hcost : res.cost with
    | none => rfl
    | some x => exact absurd ((q10 x).1 hcost) (by simp [Merge.cls])

/-- Non-vacuity: the default configuration is playable. -/
theorem merge_default_ok : MergeOk {} {} where
  action := ⟨true, true, rfl, .inl rfl⟩
  count := by norm_num
  speeds := by norm_num
  traffic := .inl rfl

example (rng : Rng) : ∃ e rs e', Merge.reset {} {} rng = .ok e ∧ Episode {} {} (Merge.cls {}) e [.index 1, .index 2, .index 0] rs e' ∧
    rs.length = 3 := by
  obtain ⟨e, rs, e', h1, h2, h3, _⟩ := merge_episode {} {} merge_default_ok (by norm_num) rng [.index 1, .index 2, .index 0] (by
    intro a ha
    simp only [List.mem_cons, List.not_mem_nil, or_false] at ha
    rcases ha with rfl | rfl | rfl <;> exact ⟨by norm_num, by norm_num [AgentType.spaceSize, AgentType.actions]⟩)
  exact ⟨e, rs, e', h1, h2, h3⟩

end HighwayEnv.Props
