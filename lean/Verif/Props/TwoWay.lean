import Verif.Lemmas.Level
import Verif.Props.Merge

/-!
# C57, C61: the two-way environment
-/

noncomputable section
open Classical
namespace HighwayEnv.Props
open HighwayEnv HighwayEnv.Spec Graph

/-! ## C61 — the map -/

/-- **C61, two-way.**  The network built by the environment is the documented map. -/
theorem twoWay_network (len : ℝ) : TwoWay.network len = twoWayNet len := by
  unfold TwoWay.network
  simp [addLane, Dict.get?, Dict.setItem, twoWayNet, levelLane, backLane, Lane.DEFAULT_WIDTH]

theorem twoWayNet_wf (len : ℝ) : WellFormed (twoWayNet len) where
  outer := by simp [twoWayNet]
  inner := by simp [twoWayNet]
  nonemptyNode := by simp [twoWayNet]
  nonemptyEdge := by simp [twoWayNet]

/-- All lanes of the map. -/
theorem twoWayNet_lanes {len : ℝ} {a b : String} {k : ℕ} {l : Lane} : HasLane (twoWayNet len) a b k l ↔
    (a = "a" ∧ b = "b" ∧ ((k = 0 ∧ l = levelLane 0 len 0) ∨ (k = 1 ∧ l = levelLane 0 len 4))) ∨
    (a = "b" ∧ b = "a" ∧ k = 0 ∧ l = backLane 0 len 0) := by
  have one : ∀ (x l : Lane), [x][k]? = some l ↔ k = 0 ∧ l = x := by
    intro x l; rcases k with _ | k <;> simp [eq_comm]
  have two : ∀ (x y l : Lane), [x, y][k]? = some l ↔ (k = 0 ∧ l = x) ∨ (k = 1 ∧ l = y) := by
    intro x y l; rcases k with _ | _ | k <;> simp [eq_comm]
  unfold HasLane RoadLanes twoWayNet
  constructor
  · rintro ⟨ls, ⟨d, h1, h2⟩, h3⟩
    simp only [List.mem_cons, List.not_mem_nil, or_false, Prod.mk.injEq] at h1
    rcases h1 with ⟨rfl, rfl⟩ | ⟨rfl, rfl⟩ <;>
      (simp only [List.mem_cons, List.not_mem_nil, or_false, Prod.mk.injEq] at h2; obtain ⟨rfl, rfl⟩ := h2)
    · exact .inl ⟨rfl, rfl, (two _ _ _).1 h3⟩
    · exact .inr ⟨rfl, rfl, (one _ _).1 h3⟩
  · rintro (⟨rfl, rfl, h⟩ | ⟨rfl, rfl, h⟩)
    · exact ⟨_, ⟨_, .head _, .head _⟩, (two _ _ _).2 h⟩
    · exact ⟨_, ⟨_, .tail _ (.head _), .head _⟩, (one _ _).2 h⟩

/-- The two directions share the lane at `y = 0`: the same points, opposite headings. -/
theorem twoWay_shared {len : ℝ} (h : 0 < len) (s r : ℝ) : (backLane 0 len 0).position (len - s) (-r) = (levelLane 0 len 0).position s r ∧
    (backLane 0 len 0).headingAt (len - s) = (levelLane 0 len 0).headingAt s + Real.pi := by
  rw [back_position h, level_position h, back_heading h, level_heading h]
  exact ⟨by ext <;> simp, by simp⟩

/-! ## Reset -/

/-- A vehicle anywhere on the line `y = 4` heading along it is on the right lane, and a vehicle anywhere on `y = 0` heading backwards is on the
road `b → a`: even before the start or past the end of the road. -/
theorem twoWay_closest {len : ℝ} (h : 0 < len) (x : ℝ) :
    (twoWayNet len).getClosestLaneIndex ⟨x, 4⟩ (some 0) = .ok ⟨"a", "b", 1⟩ ∧
    (twoWayNet len).getClosestLaneIndex ⟨x, 0⟩ (some Real.pi) = .ok ⟨"b", "a", 0⟩ := by
  have hp := Real.pi_pos
  constructor
  · refine closest_strict (k := 1) (twoWayNet_wf len) (twoWayNet_lanes.2 (.inl ⟨rfl, rfl, .inr ⟨rfl, rfl⟩⟩)) ?_
    intro a' b' k' l' hl hd
    rcases twoWayNet_lanes.1 hl with ⟨rfl, rfl, ⟨rfl, rfl⟩ | ⟨rfl, rfl⟩⟩ | ⟨rfl, rfl, rfl, rfl⟩
    · rw [level_distance h, level_distance h] at hd
      simp only [sub_self, sub_zero, abs_zero, abs_of_pos (show (0 : ℝ) < 4 by norm_num)] at hd
      linarith
    · exact ⟨rfl, rfl, rfl⟩
    · rw [back_distance h, level_distance h, zero_sub Real.pi, wrap_neg_pi, wrap_zero] at hd
      simp only [sub_self, sub_zero, abs_zero, abs_of_pos (show (0 : ℝ) < 4 by norm_num)] at hd
      linarith
  · refine closest_strict (k := 0) (twoWayNet_wf len) (twoWayNet_lanes.2 (.inr ⟨rfl, rfl, rfl, rfl⟩)) ?_
    intro a' b' k' l' hl hd
    rcases twoWayNet_lanes.1 hl with ⟨rfl, rfl, ⟨rfl, rfl⟩ | ⟨rfl, rfl⟩⟩ | ⟨rfl, rfl, rfl, rfl⟩
    · rw [back_distance h, level_distance h, sub_self Real.pi, wrap_pi, wrap_zero] at hd
      simp only [sub_self, zero_sub, abs_zero] at hd
      linarith
    · rw [back_distance h, level_distance h, sub_self Real.pi, wrap_pi, wrap_zero] at hd
      simp only [sub_self, zero_sub, abs_neg, abs_zero, abs_of_pos (show (0 : ℝ) < 4 by norm_num)] at hd
      linarith
    · exact ⟨rfl, rfl, rfl⟩

/-- What never changes in the two-way environment. -/
structure TwoWayState (G : Globals) (e : Env) : Prop where
  network : e.road.network = twoWayNet 800
  free : e.road.regulated = false
  ladder : ∀ v ∈ e.road.vehicles, v.kind = .mdp → OnLadder G v ∧ v.isYielding = false

private theorem twoWay_getLane : (twoWayNet 800).getLane ⟨"a", "b", 1⟩ = .ok (levelLane 0 800 4) ∧
    (twoWayNet 800).getLane ⟨"b", "a", 0⟩ = .ok (backLane 0 800 0) :=
  ⟨getLane_of_hasLane (k := 1) (twoWayNet_wf 800).toIsPyGraph rfl (twoWayNet_lanes.2 (by simp)),
   getLane_of_hasLane (k := 0) (twoWayNet_wf 800).toIsPyGraph rfl (twoWayNet_lanes.2 (by simp))⟩

/-- **Reset of the two-way environment.**  Whatever the seed (`g` being the normal draws), the scene is: the ego vehicle in the right lane at
`x = 30`, three vehicles in that lane around `x = 70, 110, 150`, and two oncoming vehicles around `x = 600, 500`. -/
theorem twoWay_reset (G : Globals) (cfg : TwoWayConfig) (hc : TwoWayOk G cfg) (rng : Rng) :
    ∃ e v0 v1 v2 v3 v4 v5, TwoWay.reset G cfg rng = .ok e ∧ Ready cfg.sim e ∧ TwoWayState G e ∧ e.steps = 0 ∧ e.time = 0 ∧ e.done = false ∧
      e.controlled = [0] ∧ e.road.vehicles = [v0, v1, v2, v3, v4, v5] ∧ e.road.vehicles.map (·.uid) = [0, 1, 2, 3, 4, 5] ∧
      let g : ℕ → ℝ := fun i => rng.reals (rng.rpos + i)
      Placed v0 .mdp 30 4 0 30 ⟨"a", "b", 1⟩ ∧
      Placed v1 cfg.otherVehiclesType (70 + 10 * g 0) 4 0 (24 + 2 * g 1) ⟨"a", "b", 1⟩ ∧
      Placed v2 cfg.otherVehiclesType (110 + 10 * g 2) 4 0 (24 + 2 * g 3) ⟨"a", "b", 1⟩ ∧
      Placed v3 cfg.otherVehiclesType (150 + 10 * g 4) 4 0 (24 + 2 * g 5) ⟨"a", "b", 1⟩ ∧
      Placed v4 cfg.otherVehiclesType (600 - 10 * g 6) 0 Real.pi (20 + 5 * g 7) ⟨"b", "a", 0⟩ ∧
      Placed v5 cfg.otherVehiclesType (500 - 10 * g 8) 0 Real.pi (20 + 5 * g 9) ⟨"b", "a", 0⟩ ∧
      ∀ v ∈ [v1, v2, v3, v4, v5], v.enableLaneChange = false := by
  obtain ⟨lo, la, hact, hlola⟩ := hc.action
  have hagent : cfg.sim.action.agent = .discrete lo la := by rw [hact]; rfl
  have hinit : AgentType.init (.discrete lo la) = .ok (.discrete lo la) := by
    rcases hlola with rfl | rfl
    · cases la <;> rfl
    · cases lo <;> rfl
  have hclass : cfg.sim.action.agent.vehicleClass = .mdp := by rw [hagent]; rfl
  have hnet : (TwoWay.makeRoad cfg rng).network = twoWayNet 800 := twoWay_network 800
  have hot := hc.traffic
  have hidm : cfg.otherVehiclesType ≠ .mdp := by rintro h; rw [h] at hot; cases hot
  have hctl : cfg.otherVehiclesType.isControlled = true := by
    revert hot; cases cfg.otherVehiclesType <;> simp [VKind.isIDM, VKind.isControlled]
  set g : ℕ → ℝ := fun i => rng.reals (rng.rpos + i) with hg
  have hne : twoWayNet 800 ≠ [] := by simp [twoWayNet]
  have hcl := fun x => twoWay_closest (show (0 : ℝ) < 800 by norm_num) x
  have hl0 : ∀ s : ℝ, (levelLane 0 800 4).position s 0 = ⟨s, 4⟩ := by intro s; rw [level_position (by norm_num)]; simp
  have hb0 : ∀ s : ℝ, (backLane 0 800 0).position s 0 = ⟨800 - s, 0⟩ := by intro s; rw [back_position (by norm_num)]; simp
  have hlh : ∀ s : ℝ, (levelLane 0 800 4).headingAt s = 0 := fun s => level_heading (by norm_num) s
  have hbh : ∀ s : ℝ, (backLane 0 800 0).headingAt s = Real.pi := fun s => back_heading (by norm_num) s
  obtain ⟨v0, p0, b0, a0, l0⟩ := mk'_total G (twoWayNet_wf 800) hne 0 .mdp ⟨30, 4⟩ 0 30
  rw [(hcl _).1] at l0
  have ahead : ∀ (r : Road) (i : ℕ), r.network = twoWayNet 800 →
      ∃ v, TwoWay.addAhead G cfg.otherVehiclesType r i = .ok { r with
        vehicles := r.vehicles ++ [v], rng := { r.rng with rpos := r.rng.rpos + 2 } } ∧
        Built G (1 + i) cfg.otherVehiclesType ⟨70 + 40 * i + 10 * r.rng.reals r.rng.rpos, 4⟩ 0 (24 + 2 * r.rng.reals (r.rng.rpos + 1)) v ∧
        Attached (twoWayNet 800) v ∧ v.enableLaneChange = false ∧ v.laneIndex = ⟨"a", "b", 1⟩ := by
    intro r i hr
    obtain ⟨v, q1, q2, q3, q4, q5⟩ := mk'_total' G (twoWayNet_wf 800) hne (1 + i) cfg.otherVehiclesType
      ⟨70 + 40 * i + 10 * r.rng.reals r.rng.rpos, 4⟩ 0 (24 + 2 * r.rng.reals (r.rng.rpos + 1)) false
    rw [(hcl _).1] at q5
    refine ⟨v, ?_, q2, q3, q4, (Except.ok.inj q5).symm⟩
    unfold TwoWay.addAhead TwoWay.noLaneChange
    rw [hr, twoWay_getLane.1]
    simp only [bind, Except.bind, hl0, hlh, hot, if_true, Rng.normal, q1, pure, Except.pure]
  have oncoming : ∀ (r : Road) (i : ℕ), r.network = twoWayNet 800 →
      ∃ v, TwoWay.addOncoming G cfg.otherVehiclesType r i = .ok { r with
        vehicles := r.vehicles ++ [v], rng := { r.rng with rpos := r.rng.rpos + 2 } } ∧
        Built G (4 + i) cfg.otherVehiclesType ⟨800 - (200 + 100 * i + 10 * r.rng.reals r.rng.rpos), 0⟩ Real.pi
          (20 + 5 * r.rng.reals (r.rng.rpos + 1)) v ∧
        Attached (twoWayNet 800) v ∧ v.enableLaneChange = false ∧ v.laneIndex = ⟨"b", "a", 0⟩ := by
    intro r i hr
    obtain ⟨v, q1, q2, q3, q4, q5⟩ := mk'_total' G (twoWayNet_wf 800) hne (4 + i) cfg.otherVehiclesType
      ⟨800 - (200 + 100 * i + 10 * r.rng.reals r.rng.rpos), 0⟩ Real.pi (20 + 5 * r.rng.reals (r.rng.rpos + 1)) false
    rw [(hcl _).2] at q5
    have q5 := (Except.ok.inj q5).symm
    refine ⟨v, ?_, q2, q3, q4, q5⟩
    unfold TwoWay.addOncoming TwoWay.noLaneChange
    rw [hr, twoWay_getLane.2]
    simp only [bind, Except.bind, hb0, hbh, hot, if_true, Rng.normal, q1, pure, Except.pure]
    have : ({ v with targetLane := ⟨"b", "a", 0⟩ } : Vehicle) = v := by
      have := q2.target
      rw [q5] at this
      rw [← this]
    rw [this]
  set r0 : Road := { TwoWay.makeRoad cfg rng with vehicles := (TwoWay.makeRoad cfg rng).vehicles ++ [v0] } with hr0
  obtain ⟨v1, s1, b1, a1, c1, l1⟩ := ahead r0 0 hnet
  set r1 : Road := { r0 with vehicles := r0.vehicles ++ [v1], rng := { r0.rng with rpos := r0.rng.rpos + 2 } } with hr1
  obtain ⟨v2, s2, b2, a2, c2, l2⟩ := ahead r1 1 hnet
  set r2 : Road := { r1 with vehicles := r1.vehicles ++ [v2], rng := { r1.rng with rpos := r1.rng.rpos + 2 } } with hr2
  obtain ⟨v3, s3, b3, a3, c3, l3⟩ := ahead r2 2 hnet
  set r3 : Road := { r2 with vehicles := r2.vehicles ++ [v3], rng := { r2.rng with rpos := r2.rng.rpos + 2 } } with hr3
  obtain ⟨v4, s4, b4, a4, c4, l4⟩ := oncoming r3 0 hnet
  set r4 : Road := { r3 with vehicles := r3.vehicles ++ [v4], rng := { r3.rng with rpos := r3.rng.rpos + 2 } } with hr4
  obtain ⟨v5, s5, b5, a5, c5, l5⟩ := oncoming r4 1 hnet
  set r5 : Road := { r4 with vehicles := r4.vehicles ++ [v5], rng := { r4.rng with rpos := r4.rng.rpos + 2 } } with hr5
  have l0' := (Except.ok.inj l0).symm
  have hvs : r5.vehicles = [v0, v1, v2, v3, v4, v5] := rfl
  have hmem : ∀ {P : Vehicle → Prop}, P v0 → P v1 → P v2 → P v3 → P v4 → P v5 → ∀ v ∈ r5.vehicles, P v := by
    intro P h0 h1 h2 h3 h4 h5 v hv
    rw [hvs] at hv
    simp only [List.mem_cons, List.not_mem_nil, or_false] at hv
    rcases hv with rfl | rfl | rfl | rfl | rfl | rfl <;> assumption
  have huids : r5.vehicles.map (·.uid) = [0, 1, 2, 3, 4, 5] := by
    rw [hvs]
    simp only [List.map_cons, List.map_nil, b0.uid, b1.uid, b2.uid, b3.uid, b4.uid, b5.uid]
  have hr : ∀ v : Vehicle, v.route = none → RouteExists (twoWayNet 800) v.route := by
    intro v hv; rw [hv]; simp [RouteExists]
  refine ⟨{ road := r5, controlled := [0], nextUid := 6 }, v0, v1, v2, v3, v4, v5, ?_, ⟨⟨?_, ?_, ?_, ?_⟩, ⟨?_, ?_, by simp⟩, ?_, ?_, ?_⟩,
    ⟨hnet, rfl, ?_⟩, rfl, rfl, rfl, rfl, hvs, huids, ?_⟩
  · unfold TwoWay.reset TwoWay.makeVehicles
    rw [hclass, hagent, hinit]
    have hget : (TwoWay.makeRoad cfg rng).network.getLane ⟨"a", "b", 1⟩ = .ok (levelLane 0 800 4) := by rw [hnet]; exact twoWay_getLane.1
    rw [← hnet] at p0
    have e1 : (List.range 3).foldlM (TwoWay.addAhead G cfg.otherVehiclesType) r0 = .ok r3 := by
      rw [show List.range 3 = [0, 1, 2] from rfl, List.foldlM_cons, s1]
      change List.foldlM (TwoWay.addAhead G cfg.otherVehiclesType) r1 [1, 2] = _
      rw [List.foldlM_cons, s2]
      change List.foldlM (TwoWay.addAhead G cfg.otherVehiclesType) r2 [2] = _
      rw [List.foldlM_cons, s3]
      rfl
    have e2 : (List.range 2).foldlM (TwoWay.addOncoming G cfg.otherVehiclesType) r3 = .ok r5 := by
      rw [show List.range 2 = [0, 1] from rfl, List.foldlM_cons, s4]
      change List.foldlM (TwoWay.addOncoming G cfg.otherVehiclesType) r4 [1] = _
      rw [List.foldlM_cons, s5]
      rfl
    simp only [bind, Except.bind]
    rw [hget]
    simp only [hl0]
    rw [p0]
    simp only []
    rw [← hr0, e1]
    simp only []
    rw [e2]
    rfl
  · change WellFormed (TwoWay.makeRoad cfg rng).network
    rw [hnet]; exact twoWayNet_wf 800
  · change ∀ v ∈ r5.vehicles, Attached (TwoWay.makeRoad cfg rng).network v ∧ RouteExists (TwoWay.makeRoad cfg rng).network v.route
    rw [hnet]
    exact hmem ⟨a0, hr _ b0.route⟩ ⟨a1, hr _ b1.route⟩ ⟨a2, hr _ b2.route⟩ ⟨a3, hr _ b3.route⟩ ⟨a4, hr _ b4.route⟩ ⟨a5, hr _ b5.route⟩
  · intro _
    refine ⟨hmem ?_ ?_ ?_ ?_ ?_ ?_, by intro o ho; cases ho⟩
    · rw [b0.kind]; rfl
    · rw [b1.kind]; exact hctl
    · rw [b2.kind]; exact hctl
    · rw [b3.kind]; exact hctl
    · rw [b4.kind]; exact hctl
    · rw [b5.kind]; exact hctl
  · intro h; cases h
  · rw [huids]; simp
  · intro uid hu
    simp only [List.mem_singleton] at hu
    subst hu
    exact ⟨v0, by rw [hvs]; simp, b0.uid⟩
  · change ∀ v ∈ r5.vehicles, v.uid ∈ [0] → v.kind = _
    rw [agentOf_agent, hclass]
    refine hmem (fun _ => b0.kind) ?_ ?_ ?_ ?_ ?_
    · rw [b1.uid]; simp
    · rw [b2.uid]; simp
    · rw [b3.uid]; simp
    · rw [b4.uid]; simp
    · rw [b5.uid]; simp
  · rw [agentOf_agent, hagent]; exact ⟨_, hinit⟩
  · intro h; cases h
  · refine hmem ?_ ?_ ?_ ?_ ?_ ?_
    · intro _
      refine ⟨?_, b0.yielding⟩
      obtain ⟨e1, e2⟩ := b0.ladder rfl
      have hn : 0 < G.speedCount := by have := hc.count; omega
      unfold OnLadder
      rw [e2, e1]
      exact ⟨(speedToIndex_range hn _).1, (speedToIndex_range hn _).2, indexToSpeed_level G _⟩
    · rw [b1.kind]; intro h; exact absurd h hidm
    · rw [b2.kind]; intro h; exact absurd h hidm
    · rw [b3.kind]; intro h; exact absurd h hidm
    · rw [b4.kind]; intro h; exact absurd h hidm
    · rw [b5.kind]; intro h; exact absurd h hidm
  · have placed : ∀ {u c p h s v i} (_ : Built G u c p h s v) (_ : v.laneIndex = i) {x y s' : ℝ}, p = ⟨x, y⟩ → s = s' → Placed v c x y h s' i := by
      intro u c p h s v i hb hi x y s' hp hs
      exact ⟨hb.kind, hb.pos.trans hp, hb.heading, hb.speed.trans hs, hi, hb.target.trans hi, hb.crashed⟩
    refine ⟨placed b0 l0' rfl rfl, placed b1 l1 ?_ ?_, placed b2 l2 ?_ ?_, placed b3 l3 ?_ ?_, placed b4 l4 ?_ ?_, placed b5 l5 ?_ ?_, ?_⟩
    · simp [hr0, TwoWay.makeRoad, hg]
    · simp [hr0, TwoWay.makeRoad, hg]
    · simp [hr1, hr0, TwoWay.makeRoad, hg]; norm_num
    · simp [hr1, hr0, TwoWay.makeRoad, hg]
    · simp [hr2, hr1, hr0, TwoWay.makeRoad, hg]; norm_num
    · simp [hr2, hr1, hr0, TwoWay.makeRoad, hg]
    · simp [hr3, hr2, hr1, hr0, TwoWay.makeRoad, hg]; ring
    · simp [hr3, hr2, hr1, hr0, TwoWay.makeRoad, hg]
    · simp [hr4, hr3, hr2, hr1, hr0, TwoWay.makeRoad, hg]; ring
    · simp [hr4, hr3, hr2, hr1, hr0, TwoWay.makeRoad, hg]
    · intro v hv
      simp only [List.mem_cons, List.not_mem_nil, or_false] at hv
      rcases hv with rfl | rfl | rfl | rfl | rfl <;> assumption

/-- **Two-way scenes may start in contact**: nothing separates the normal draws, so for some seeds a vehicle is created on top of the ego
vehicle. -/
theorem twoWay_overlap (G : Globals) (cfg : TwoWayConfig) (hc : TwoWayOk G cfg) : ∃ rng e v w, TwoWay.reset G cfg rng = .ok e ∧ v ∈ e.road.vehicles ∧
    w ∈ e.road.vehicles ∧ v.uid ≠ w.uid ∧ v.pos = w.pos ∧ v.heading = w.heading := by
  set rng : Rng := { ints := fun _ => 0, reals := fun _ => -4 } with hrng
  obtain ⟨e, v0, v1, v2, v3, v4, v5, h1, _, _, _, _, _, _, hvs, hu, p0, p1, _⟩ := twoWay_reset G cfg hc rng
  rw [hvs] at hu
  simp only [List.map_cons, List.map_nil, List.cons.injEq] at hu
  refine ⟨rng, e, v0, v1, h1, by simp [hvs], by simp [hvs], by rw [hu.1, hu.2.1]; norm_num, ?_, by rw [p0.heading, p1.heading]⟩
  rw [p0.pos, p1.pos]
  norm_num [hrng]

/-! ## C57 — reward and cost -/

private theorem twoWay_lane_cases {len : ℝ} {i : LaneIndex} (h : ValidIndex (twoWayNet len) i) :
    (i.src = "a" ∧ i.dst = "b" ∧ (i.id = 0 ∨ i.id = 1)) ∨ (i.src = "b" ∧ i.dst = "a" ∧ i.id = 0) := by
  obtain ⟨k, l, e, hl⟩ := h
  rcases twoWayNet_lanes.1 hl with ⟨h1, h2, ⟨rfl, _⟩ | ⟨rfl, _⟩⟩ | ⟨h1, h2, rfl, _⟩
  · exact .inl ⟨h1, h2, .inl e⟩
  · exact .inl ⟨h1, h2, .inr e⟩
  · exact .inr ⟨h1, h2, e⟩

/-- **C57, the reward.**  As long as the ego vehicle is on the road `a → b`, the reward is 0.8 times its relative speed level plus 0.2 when it
aims at the left lane. -/
theorem twoWay_reward (G : Globals) (hn : 2 ≤ G.speedCount) (e : Env) (hnet : e.road.network = twoWayNet 800) (v : Vehicle)
    (hv : e.vehicle = .ok v) (hk : v.kind = .mdp) (ha : Attached e.road.network v) (hs : v.laneIndex.src = "a") (a : Option AgentAction) :
    (TwoWay.cls G).reward e a = .ok (twoWayScore ((v.speedIndex : ℝ) / (G.speedCount - 1)) v.targetLane.id) ∧
    (v.targetLane.id = 0 ∨ v.targetLane.id = 1) := by
  rw [hnet] at ha
  have ht : v.targetLane.id = 0 ∨ v.targetLane.id = 1 := by
    rcases twoWay_lane_cases ha.target with ⟨_, _, h⟩ | ⟨_, _, h⟩
    · exact h
    · exact .inl h
  refine ⟨?_, ht⟩
  have hd : v.laneIndex.dst = "b" := by
    rcases twoWay_lane_cases ha.here with ⟨_, h, _⟩ | ⟨h, _, _⟩
    · exact h
    · rw [hs] at h; simp at h
  change TwoWay.reward G e = _
  unfold TwoWay.reward TwoWay.speedTerm TwoWay.laneTerm allSideLanes lanesOf
  rw [hv, hnet]
  simp only [bind, Except.bind, hs, hd, hk, ne_eq, not_true_eq_false, if_false]
  rw [if_neg (by omega)]
  simp [twoWayNet, Dict.getItem, Dict.get?, pure, Except.pure]
  unfold twoWayScore TwoWay.HIGH_SPEED_REWARD TwoWay.LEFT_LANE_REWARD
  rw [mul_div_assoc]
  norm_num

/-- The two-way road needs discrete meta-actions: for a vehicle without speed levels, computing the reward raises `AttributeError`. -/
theorem twoWay_reward_classes (G : Globals) (e : Env) (hnet : e.road.network = twoWayNet 800) (v : Vehicle)
    (hv : e.vehicle = .ok v) (hk : v.kind ≠ .mdp) (ha : Attached e.road.network v) (a : Option AgentAction) :
    (TwoWay.cls G).reward e a = .error .attributeError := by
  change TwoWay.reward G e = _
  rw [hnet] at ha
  unfold TwoWay.reward TwoWay.speedTerm allSideLanes lanesOf
  rw [hv, hnet]
  rcases twoWay_lane_cases ha.here with ⟨h, h', _⟩ | ⟨h, h', _⟩
  all_goals
    simp only [bind, Except.bind, h, h', hk, ne_eq, not_false_eq_true, if_true]
    simp [twoWayNet, Dict.getItem, Dict.get?, pure, Except.pure]

/-- On the road `b → a`, which has a single lane, computing the reward divides by zero. -/
theorem twoWay_raises (G : Globals) (hn : 2 ≤ G.speedCount) (e : Env) (hnet : e.road.network = twoWayNet 800) (v : Vehicle)
    (hv : e.vehicle = .ok v) (hk : v.kind = .mdp) (ha : Attached e.road.network v) (hs : v.laneIndex.src ≠ "a") (a : Option AgentAction) :
    (TwoWay.cls G).reward e a = .error .zeroDivisionError := by
  rw [hnet] at ha
  obtain ⟨hs, hd⟩ : v.laneIndex.src = "b" ∧ v.laneIndex.dst = "a" := by
    rcases twoWay_lane_cases ha.here with ⟨h, _, _⟩ | ⟨h, h', _⟩
    · exact absurd h hs
    · exact ⟨h, h'⟩
  change TwoWay.reward G e = _
  unfold TwoWay.reward TwoWay.speedTerm TwoWay.laneTerm allSideLanes lanesOf
  rw [hv, hnet]
  simp only [bind, Except.bind, hs, hd, hk, ne_eq, not_true_eq_false, if_false]
  rw [if_neg (by omega)]
  simp [twoWayNet, Dict.getItem, Dict.get?, pure, Except.pure]

/-- **C57, range.**  The score of a speed level of the ladder and of lane 0 or 1 is in [0, 1]; it is 1 exactly at the top level aiming at the left
lane, and it grows with the speed level. -/
theorem twoWay_score_range (share : ℝ) (h0 : 0 ≤ share) (h1 : share ≤ 1) (t : Int) (ht : t = 0 ∨ t = 1) :
    0 ≤ twoWayScore share t ∧ twoWayScore share t ≤ 1 ∧ (twoWayScore share t = 1 ↔ share = 1 ∧ t = 0) ∧
    (∀ share', share < share' → twoWayScore share t < twoWayScore share' t) ∧ twoWayScore share 1 < twoWayScore share 0 := by
  unfold twoWayScore
  rcases ht with rfl | rfl <;> norm_num
  · refine ⟨by linarith, by linarith, ⟨fun h => by linarith, fun h => by linarith⟩⟩
  · refine ⟨h0, by linarith, by linarith⟩

/-- **C57, the cost** is 1 for a crash plus 1/15 in the left lane; it is 0 exactly when the ego is unharmed in the right lane. -/
theorem twoWay_cost (G : Globals) (e : Env) (v : Vehicle) (hv : e.vehicle = .ok v) :
    (TwoWay.cls G).cost e = .ok (twoWayCost v.crashed v.laneIndex.id) ∧
    (twoWayCost v.crashed v.laneIndex.id = 0 ↔ v.crashed = false ∧ v.laneIndex.id ≠ 0) ∧
    0 ≤ twoWayCost v.crashed v.laneIndex.id ∧ (1 ≤ twoWayCost v.crashed v.laneIndex.id ↔ v.crashed = true) := by
  refine ⟨?_, ?_⟩
  · simp only [TwoWay.cls, TwoWay.cost, hv, bind, Except.bind, twoWayCost, Highway.ofBool, pure, Except.pure]
    cases v.crashed <;> by_cases h : v.laneIndex.id = 0 <;> simp [h]
  · unfold twoWayCost
    cases v.crashed <;> by_cases h : v.laneIndex.id = 0 <;> simp [h] <;> norm_num

/-- **C57, exact termination**: a crash and nothing else (the time limit is imposed by the `gym` registration, outside the class). -/
theorem twoWay_terminal_iff (G : Globals) (e : Env) (v : Vehicle) (hv : e.vehicle = .ok v) (b : Bool) (h : (TwoWay.cls G).terminal e = .ok b) :
    b = true ↔ v.crashed = true := by
  simp only [TwoWay.cls, TwoWay.terminal, hv, bind, Except.bind] at h
  cases h
  simp

/-- Non-vacuity: the default configuration is playable, and in the initial state the reward is defined. -/
theorem twoWay_default_ok : TwoWayOk {} {} where
  action := ⟨true, true, rfl, .inl rfl⟩
  count := by norm_num
  traffic := rfl

example (rng : Rng) : ∃ e x, TwoWay.reset {} {} rng = .ok e ∧ (TwoWay.cls {}).reward e none = .ok x ∧ 0 ≤ x ∧ x ≤ 1 := by
  obtain ⟨e, v0, v1, v2, v3, v4, v5, h1, h2, h3, _, _, _, hc, hvs, hu, p0, _⟩ := twoWay_reset {} {} twoWay_default_ok rng
  rw [hvs] at hu
  simp only [List.map_cons, List.map_nil, List.cons.injEq] at hu
  have hv : e.vehicle = .ok v0 := by simp [Env.vehicle, hc, Road.vehicle?, hvs, hu.1]
  have hm : v0 ∈ e.road.vehicles := by simp [hvs]
  obtain ⟨q1, q2⟩ := twoWay_reward {} (by norm_num) e h3.network v0 hv p0.kind (h2.healthy.attached v0 hm).1 (by rw [p0.lane]) none
  obtain ⟨⟨l0, l1, _⟩, _⟩ := h3.ladder v0 hm p0.kind
  have a0 : (0 : ℝ) ≤ v0.speedIndex := by exact_mod_cast l0
  have a1 : (v0.speedIndex : ℝ) ≤ 2 := by
    have l1 : v0.speedIndex < 3 := l1
    have : v0.speedIndex ≤ 2 := by omega
    exact_mod_cast this
  refine ⟨e, _, h1, q1, ?_⟩
  have hr := twoWay_score_range ((v0.speedIndex : ℝ) / ((({} : Globals).speedCount : ℝ) - 1)) (by norm_num; linarith)
    (by norm_num; linarith) v0.targetLane.id q2
  exact ⟨hr.1, hr.2.1⟩

end HighwayEnv.Props
