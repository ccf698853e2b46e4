import Verif.Props.TwoWay
import Verif.Props.Horizon
import Verif.Lemmas.Cone

/-!
# C57: episodes of the two-way environment
-/

noncomputable section
namespace HighwayEnv.Props
open HighwayEnv Spec Classical Real Graph

/-- A discrete-action vehicle driving along the road `a → b` of the two-way map: on its speed ladder, on that road and aiming at it, heading
within 45° of it, no faster than `V`, and not beyond the abscissa `B`. -/
structure Rolling (G : Globals) (V B : ℝ) (v : Vehicle) : Prop where
  ladder : OnLadder G v
  alert : v.isYielding = false
  valid : ValidIndex (twoWayNet 800) v.targetLane
  aims : v.targetLane.src = "a"
  here : v.laneIndex.src = "a"
  heading : |v.heading| ≤ π / 4
  speed : |v.speed| ≤ V
  place : v.pos.x ≤ B

/-- Where a vehicle within 45° of the direction of the road is, the closest lane is never the one of the opposite direction. -/
theorem twoWay_never_opposite (p : Vec2) (h : ℝ) (hh : |h| ≤ π / 4) (i : LaneIndex) (hi : (twoWayNet 800).getClosestLaneIndex p (some h) = .ok i) :
    i.src = "a" := by
  have hp := Real.pi_pos
  obtain ⟨⟨k, l, e, hl⟩, l', hl', hmin⟩ := closestLane_minimal _ (twoWayNet_wf 800).toIsPyGraph p _ i hi
  rcases twoWayNet_lanes.1 hl with ⟨h1, _⟩ | ⟨h1, h2, rfl, rfl⟩
  · exact h1
  · exfalso
    have e1 := getLane_of_hasLane (twoWayNet_wf 800).toIsPyGraph e hl
    rw [hl'] at e1
    cases e1
    have e2 : (twoWayNet 800).getLane ⟨"a", "b", 0⟩ = .ok (levelLane 0 800 0) :=
      getLane_of_hasLane (k := 0) (twoWayNet_wf 800).toIsPyGraph rfl (twoWayNet_lanes.2 (by simp))
    have := hmin _ _ e2
    rw [back_distance (by norm_num), level_distance (by norm_num)] at this
    obtain ⟨a1, a2⟩ := abs_le.1 hh
    have w1 : wrapToPi h = h := wrapToPi_of_mem (by linarith) (by linarith)
    rw [w1] at this
    have w2 : 3 * π / 4 ≤ |wrapToPi (h - π)| := by
      rcases le_or_gt 0 h with h0 | h0
      · rw [wrapToPi_of_mem (by linarith) (by linarith), abs_of_nonpos (by linarith)]
        linarith
      · have : wrapToPi (h - π) = h + π := (wrapToPi_unique (by linarith) (by linarith) 1 (by push_cast; ring)).symm
        rw [this, abs_of_nonneg (by linarith)]
        linarith
    linarith

private theorem road_ab {i : LaneIndex} (hv : ValidIndex (twoWayNet 800) i) (hs : i.src = "a") :
    ∃ y, (twoWayNet 800).getLane i = .ok (levelLane 0 800 y) := by
  obtain ⟨k, l, e, hl⟩ := hv
  have hg := getLane_of_hasLane (twoWayNet_wf 800).toIsPyGraph e hl
  rcases twoWayNet_lanes.1 hl with ⟨_, _, ⟨_, rfl⟩ | ⟨_, rfl⟩⟩ | ⟨h1, _⟩
  · exact ⟨_, hg⟩
  · exact ⟨_, hg⟩
  · rw [hs] at h1; exact absurd h1 (by decide)

private theorem not_past {i : LaneIndex} (hv : ValidIndex (twoWayNet 800) i) (hs : i.src = "a") {p : Vec2} (hx : p.x ≤ 797.5) :
    ¬ PastEnd (twoWayNet 800) i p := by
  rintro ⟨l, hl, h⟩
  obtain ⟨y, hy⟩ := road_ab hv hs
  rw [hy] at hl
  cases hl
  rw [level_local (by norm_num), level_length (by norm_num)] at h
  norm_num at h hx
  linarith

private theorem rolling_act {G : Globals} (hn : 0 < G.speedCount) {V B : ℝ} (hB : B ≤ 797.5) {s : Road} (hs : s.network = twoWayNet 800)
    {v v' : Vehicle} {a : VAction} {rng : Rng} (hk : v.kind = .mdp) (hv : Rolling G V B v) (h : v.act G s a = .ok (v', rng)) :
    Rolling G V B v' ∧ v'.acceleration = (v'.targetSpeed - v'.speed) / (6 / 10) := by
  have hb := Vehicle.act_body h
  obtain ⟨l1, l2, l3⟩ := mdp_act_ladder G hn hk hv.ladder hv.alert h
  obtain ⟨r1, r2, r3⟩ := mdp_act_road G (by rw [hs]; exact twoWayNet_wf 800) hk (by rw [hs]; exact hv.valid)
    (by rw [hs]; exact not_past hv.valid hv.aims (hv.place.trans hB)) h
  rw [hs] at r1
  exact ⟨⟨l1, l2, r1, r2.trans hv.aims, by rw [hb.laneIndex]; exact hv.here, by rw [hb.heading]; exact hv.heading,
    by rw [hb.speed]; exact hv.speed, by rw [hb.pos]; exact hv.place⟩, by rw [hb.speed]; exact l3⟩

/-- One frame of any commands keeps the ego vehicle rolling along the road `a → b` as long as it is not at its end. -/
theorem twoWay_frame (G : Globals) (hn : 0 < G.speedCount) (V B dt : ℝ) (hV : V ≤ 40) (hlo : -V ≤ G.speedMin) (hhi : G.speedMax ≤ V)
    (hord : G.speedMin ≤ G.speedMax) (h0 : 0 ≤ dt) (h1 : dt ≤ 1 / 5) (hB : B ≤ 797.5) (r r' : Road) (cmds : List (ℕ × VAction))
    (hr : r.network = twoWayNet 800) (hfree : r.regulated = false) (hI : ∀ v ∈ r.vehicles, v.kind = .mdp → Rolling G V B v) (h : frame G dt r cmds = .ok r') :
    r'.network = twoWayNet 800 ∧ r'.regulated = false ∧ ∀ v ∈ r'.vehicles, v.kind = .mdp → Rolling G V (B + V * dt) v := by
  have hp := Real.pi_pos
  have k1 : ∀ (t : Road) v a v' rng, t.network = r.network → (v.kind = .mdp → Rolling G V B v) → v.act G t a = .ok (v', rng) →
      (v'.kind = .mdp → Rolling G V B v') := by
    intro t v a v' rng ht hv hact hk
    have hk' : v.kind = .mdp := (Vehicle.act_body hact).kind ▸ hk
    exact (rolling_act hn hB (ht.trans hr) hk' (hv hk') hact).1
  have k2 : ∀ (t : Road) v v' rng, t.network = r.network → (v.kind = .mdp → Rolling G V B v) → v.act G t .none = .ok (v', rng) →
      (v'.kind = .mdp → Rolling G V B v' ∧ v'.acceleration = (v'.targetSpeed - v'.speed) / (6 / 10) ∧ Steers r.network v') := by
    intro t v v' rng ht hv hact hk
    have hk' : v.kind = .mdp := (Vehicle.act_body hact).kind ▸ hk
    obtain ⟨q1, q2⟩ := rolling_act hn hB (ht.trans hr) hk' (hv hk') hact
    refine ⟨q1, q2, ?_⟩
    rw [← ht]
    exact steers_of_act (by rw [hk']; rfl) (by rw [hk']; rfl) hact
  have k4 : ∀ v w : Vehicle, (v.kind = .mdp → Rolling G V B v ∧ v.acceleration = (v.targetSpeed - v.speed) / (6 / 10) ∧ Steers r.network v) →
      v.step r.network r.recordHistory dt = .ok w → (w.kind = .mdp → Rolling G V (B + V * dt) w) := by
    intro v w hv hst hk
    have hm := Vehicle.step_mind hst
    rw [hm.kind] at hk
    obtain ⟨q1, q2, q3⟩ := hv hk
    have hnb : v.kind ≠ .bicycle := by rw [hk]; simp
    obtain ⟨kp, _, ks⟩ := step_kin hnb hst
    obtain ⟨y, hy⟩ := road_ab q1.valid q1.aims
    have hhead : |w.heading - 0| ≤ π / 4 + 0 := by
      refine q3.heading h0 h1 (by positivity) hnb ?_ (by simpa using q1.heading) hst
      intro l hl s
      rw [hr, hy] at hl
      cases hl
      rw [level_heading (by norm_num)]; simp
    rw [sub_zero, add_zero] at hhead
    obtain ⟨l1, l2, l3⟩ := q1.ladder
    obtain ⟨s1, s2⟩ := abs_le.1 q1.speed
    refine ⟨⟨by rw [hm.speedIndex]; exact l1, by rw [hm.speedIndex]; exact l2, by rw [hm.targetSpeed, hm.speedIndex]; exact l3⟩,
      by rw [hm.isYielding]; exact q1.alert, by rw [hm.targetLane]; exact q1.valid, by rw [hm.targetLane]; exact q1.aims, ?_, hhead, ?_, ?_⟩
    · obtain ⟨i, l, hist, hi, _, e⟩ := Vehicle.step_ok hst
      rw [hr] at hi
      rw [e]
      exact twoWay_never_opposite w.pos w.heading hhead i hi
    · rw [ks]
      have hlev := level_range G hord v.speedIndex l1 l2
      rw [← l3] at hlev
      unfold executedAcceleration
      dsimp only
      have hmax : v.kind.maxSpeed = 40 := by rw [hk]; rfl
      rw [hmax, if_neg (by linarith), if_neg (by linarith)]
      cases v.crashed with
      | true =>
        simp only [if_true]
        rw [show v.speed + -v.speed * dt = (1 - dt) * v.speed by ring, abs_mul, abs_of_nonneg (by linarith)]
        calc (1 - dt) * |v.speed| ≤ 1 * |v.speed| := mul_le_mul_of_nonneg_right (by linarith) (abs_nonneg _)
          _ ≤ V := by rw [one_mul]; exact q1.speed
      | false =>
        simp only [Bool.false_eq_true, if_false]
        rw [q2]
        have hV0 : 0 ≤ V := (abs_nonneg _).trans q1.speed
        have e : v.speed + (v.targetSpeed - v.speed) / (6 / 10) * dt = (1 - 5 / 3 * dt) * v.speed + 5 / 3 * dt * v.targetSpeed := by ring
        rw [e, abs_le]
        constructor <;> nlinarith [hlev.1, hlev.2]
    · rw [kp]
      simp only [Vec2.add_x, Vec2.smul_x, Vec2.dir]
      have hc := Real.abs_cos_le_one (v.heading + Vehicle.slip (executedSteering v))
      have : v.speed * Real.cos (v.heading + Vehicle.slip (executedSteering v)) ≤ V := by
        calc v.speed * Real.cos (v.heading + Vehicle.slip (executedSteering v)) ≤ |v.speed * Real.cos (v.heading + Vehicle.slip (executedSteering v))| := le_abs_self _
          _ = |v.speed| * |Real.cos (v.heading + Vehicle.slip (executedSteering v))| := abs_mul _ _
          _ ≤ |v.speed| * 1 := mul_le_mul_of_nonneg_left hc (abs_nonneg _)
          _ ≤ V := by rw [mul_one]; exact q1.speed
      have h2 := mul_le_mul_of_nonneg_left this h0
      have := q1.place
      linarith
  have k5 : ∀ (v : Vehicle) (s : ℝ) (b : Bool), |s| ≤ |v.speed| → (v.kind = .mdp → Rolling G V (B + V * dt) v) →
      ((Road.bump v s b).kind = .mdp → Rolling G V (B + V * dt) (Road.bump v s b)) := by
    intro v s b hs hv hk
    have := hv hk
    exact ⟨this.ladder, this.alert, this.valid, this.aims, this.here, this.heading, hs.trans this.speed, this.place⟩
  obtain ⟨q1, q2, _, q3⟩ := Road.frame_each k1 k2 (fun hc => by rw [hfree] at hc; cases hc) k4 k5 hI h
  exact ⟨q2.trans hr, q3.trans hfree, q1⟩

/-- The state of an episode of the two-way environment before the end of the road. -/
structure TwoWayRolling (G : Globals) (f V : ℝ) (e : Env) : Prop where
  network : e.road.network = twoWayNet 800
  free : e.road.regulated = false
  ego : ∀ v ∈ e.road.vehicles, v.kind = .mdp → Rolling G V (30 + V * (e.time / f)) v

/-- Speeds and rates with which the ego vehicle is predictable: speed levels within `[-V, V]` with `30 ≤ V ≤ 40`, at least 5 frames per
second, and at least one per decision. -/
structure TwoWayRates (G : Globals) (cfg : TwoWayConfig) (V : ℝ) : Prop where
  rates : GoodRates cfg.sim
  frames : 5 ≤ cfg.sim.simulationFrequency
  levels : -V ≤ G.speedMin ∧ G.speedMin ≤ G.speedMax ∧ G.speedMax ≤ V
  limit : 30 ≤ V ∧ V ≤ 40

private theorem ready_mdp {G : Globals} {cfg : TwoWayConfig} (hc : TwoWayOk G cfg) {e : Env} (h : Ready cfg.sim e) :
    ∃ v, e.vehicle = .ok v ∧ v ∈ e.road.vehicles ∧ v.kind = .mdp ∧ Attached e.road.network v := by
  obtain ⟨v, h1, h2, h3⟩ := vehicle_total h
  obtain ⟨lo, la, hact, _⟩ := hc.action
  refine ⟨v, h1, h2, ?_, (h.healthy.attached v h2).1⟩
  have := h.fitted v h2 h3
  rw [hact] at this
  exact this

/-- Until the ego vehicle can have reached the end of the road, nothing raises. -/
theorem twoWay_reliable (G : Globals) (cfg : TwoWayConfig) (hc : TwoWayOk G cfg) (V : ℝ) (hV : TwoWayRates G cfg V) (N : ℕ)
    (hN : 30 + V * (N / cfg.sim.simulationFrequency) ≤ 797.5) :
    ReliableUntil G cfg.sim (TwoWay.cls G) N (TwoWayRolling G cfg.sim.simulationFrequency V) where
  frame e e' k a h hI ht ha hf := by
    obtain ⟨cmds, _, hfr, he⟩ := frame_ok h.manned hf
    have hfpos : 0 < cfg.sim.simulationFrequency := by linarith [hV.frames]
    have hV0 : 0 ≤ V := by linarith [hV.limit.1]
    have hB : 30 + V * (e.time / cfg.sim.simulationFrequency) ≤ 797.5 := by
      refine le_trans ?_ hN
      have : (e.time : ℝ) ≤ N := by exact_mod_cast ht.le
      have := div_le_div_of_nonneg_right this hfpos.le
      nlinarith
    obtain ⟨q1, q2, q3⟩ := twoWay_frame G (by have := hc.count; omega) V _ (1 / cfg.sim.simulationFrequency) hV.limit.2 hV.levels.1 hV.levels.2.2
      hV.levels.2.1 (by positivity) (by apply one_div_le_one_div_of_le <;> linarith [hV.frames]) hB e.road e'.road cmds hI.network hI.free hI.ego hfr
    refine ⟨q1, q2, ?_⟩
    have et : 30 + V * ((e'.time : ℝ) / cfg.sim.simulationFrequency) =
        30 + V * (e.time / cfg.sim.simulationFrequency) + V * (1 / cfg.sim.simulationFrequency) := by
      rw [he]; push_cast; ring
    rw [et]
    exact q3
  counter e s h := ⟨h.network, h.free, h.ego⟩
  terminal e h hI _ := by
    obtain ⟨v, hv, _⟩ := ready_mdp hc h
    exact ⟨_, by simp only [TwoWay.cls, TwoWay.terminal, hv, bind, Except.bind]; rfl⟩
  reward e a h hI _ _ := by
    obtain ⟨v, hv, hm, hk, ha⟩ := ready_mdp hc h
    exact ⟨_, (twoWay_reward G hc.count e hI.network v hv hk ha (hI.ego v hm hk).here (some a)).1⟩
  cost e h hI _ := by
    obtain ⟨v, hv, _⟩ := ready_mdp hc h
    exact .inl ⟨_, (twoWay_cost G e v hv).1⟩
  after e h hI _ := ⟨e, rfl, h, hI, rfl⟩

/-- A reset puts the ego vehicle at the start of the road, rolling. -/
theorem twoWay_rolling (G : Globals) (cfg : TwoWayConfig) (hc : TwoWayOk G cfg) (V : ℝ) (hV : TwoWayRates G cfg V) (rng : Rng) :
    ∃ e, TwoWay.reset G cfg rng = .ok e ∧ Ready cfg.sim e ∧ TwoWayRolling G cfg.sim.simulationFrequency V e ∧ e.time = 0 := by
  obtain ⟨e, v0, v1, v2, v3, v4, v5, h1, h2, h3, _, htime, _, _, hvs, hu, p0, p1, p2, p3, p4, p5, _⟩ := twoWay_reset G cfg hc rng
  refine ⟨e, h1, h2, ?_, htime⟩
  refine ⟨h3.network, h3.free, ?_⟩
  intro v hv hk
  obtain ⟨l1, l2⟩ := h3.ladder v hv hk
  have hval := (h2.healthy.attached v hv).1.target
  rw [h3.network] at hval
  have hidm : cfg.otherVehiclesType ≠ .mdp := by
    intro h; have := hc.traffic; rw [h] at this; cases this
  have hv0 : v = v0 := by
    rw [hvs] at hv
    simp only [List.mem_cons, List.not_mem_nil, or_false] at hv
    rcases hv with h | h | h | h | h | h
    · exact h
    · rw [h, p1.kind] at hk; exact absurd hk hidm
    · rw [h, p2.kind] at hk; exact absurd hk hidm
    · rw [h, p3.kind] at hk; exact absurd hk hidm
    · rw [h, p4.kind] at hk; exact absurd hk hidm
    · rw [h, p5.kind] at hk; exact absurd hk hidm
  rw [hv0] at l1 l2 hval ⊢
  refine ⟨l1, l2, hval, by rw [p0.target], by rw [p0.lane], by rw [p0.heading, abs_zero]; positivity, ?_, ?_⟩
  · rw [p0.speed, abs_of_pos (by norm_num)]; exact hV.limit.1
  · rw [p0.pos, htime]; simp

/-- **C57, episodes.**  From any reset, any sequence of actions that ends before the ego vehicle can have reached the end of the road can be
played without raising; all rewards are in [0, 1] and equal the score, the episode terminates exactly on a crash of the ego vehicle, and the
reported cost is the specified one. -/
theorem twoWay_episode (G : Globals) (cfg : TwoWayConfig) (hc : TwoWayOk G cfg) (V : ℝ) (hV : TwoWayRates G cfg V) (rng : Rng)
    (as : List AgentAction) (ha : ∀ a ∈ as, InEnvSpace cfg.sim.action a)
    (hlen : 30 + V * ((period cfg.sim * as.length : ℕ) / cfg.sim.simulationFrequency) ≤ 797.5) :
    ∃ e rs e', TwoWay.reset G cfg rng = .ok e ∧ Episode G cfg.sim (TwoWay.cls G) e as rs e' ∧ rs.length = as.length ∧
      ∀ res ∈ rs, 0 ≤ res.reward ∧ res.reward ≤ 1 ∧ (res.terminal = true ↔ res.crashed = true) ∧
        ∃ (idx lane target : Int), 0 ≤ idx ∧ idx < G.speedCount ∧ (target = 0 ∨ target = 1) ∧ (lane = 0 ∨ lane = 1) ∧
          res.reward = twoWayScore ((idx : ℝ) / (G.speedCount - 1)) target ∧ res.cost = some (twoWayCost res.crashed lane) := by
  obtain ⟨e, h1, h2, hI, htime⟩ := twoWay_rolling G cfg hc V hV rng
  have hrel := twoWay_reliable G cfg hc V hV _ hlen
  obtain ⟨rs, e', q1, q2, _, _, _, q3⟩ := episode_until G cfg.sim (TwoWay.cls G) _ _ hrel hV.rates e h2 hI as ha (by rw [htime]; omega)
  refine ⟨e, rs, e', h1, q1, q2, ?_⟩
  intro res hres
  obtain ⟨i, hi, rfl⟩ := List.mem_iff_getElem.1 hres
  have hi' : i < as.length := by omega
  obtain ⟨e1, v, r1, r2, r3, r4, r5, r6, r7, r8, r9⟩ := q3 i _ _ (List.getElem?_eq_getElem hi') (List.getElem?_eq_getElem hi)
  obtain ⟨w, w1, w2, w3, w4⟩ := ready_mdp hc r1
  rw [r6] at w1
  cases w1
  have hroll := r2.ego v w2 w3
  obtain ⟨t1, t2⟩ := twoWay_reward G hc.count e1 r2.network v r6 w3 w4 hroll.here (some as[i])
  rw [r4] at t1
  injection t1 with t1
  obtain ⟨c1, _⟩ := twoWay_cost G e1 v r6
  have hcost := (r9 _).2 c1
  have hcnt : (2 : ℝ) ≤ G.speedCount := by exact_mod_cast hc.count
  have hsh0 : 0 ≤ (v.speedIndex : ℝ) / (G.speedCount - 1) := by
    apply div_nonneg
    · exact_mod_cast hroll.ladder.1
    · linarith
  have hsh1 : (v.speedIndex : ℝ) / (G.speedCount - 1) ≤ 1 := by
    rw [div_le_one (by linarith)]
    have : v.speedIndex + 1 ≤ G.speedCount := by have := hroll.ladder.2.1; omega
    have : (v.speedIndex : ℝ) + 1 ≤ G.speedCount := by exact_mod_cast this
    linarith
  obtain ⟨g1, g2, _⟩ := twoWay_score_range _ hsh0 hsh1 _ t2
  refine ⟨by rw [t1]; exact g1, by rw [t1]; exact g2, ?_, v.speedIndex, v.laneIndex.id, v.targetLane.id, hroll.ladder.1, hroll.ladder.2.1, t2, ?_, t1, ?_⟩
  · rw [r8]; exact twoWay_terminal_iff G e1 v r6 _ r5
  · have hh := w4.here
    rw [r2.network] at hh
    obtain ⟨k, l, hk, hl⟩ := hh
    rcases twoWayNet_lanes.1 hl with ⟨_, _, ⟨rfl, _⟩ | ⟨rfl, _⟩⟩ | ⟨hs, _⟩
    · exact .inl hk
    · exact .inr hk
    · rw [hroll.here] at hs; exact absurd hs (by decide)
  · rw [hcost, r8]

/-- With the default configuration (15 Hz, one decision per second, speeds 20 to 30 m/s) any 25 decisions can be played; the registered
environment stops after 15. -/
example (rng : Rng) (as : List AgentAction) (ha : ∀ a ∈ as, InEnvSpace (.single (.discrete true true)) a) (hl : as.length ≤ 25) :
    ∃ e rs e', TwoWay.reset {} {} rng = .ok e ∧ Episode {} {} (TwoWay.cls {}) e as rs e' ∧ rs.length = as.length := by
  have hp : period {} = 15 := by norm_num [period]
  obtain ⟨e, rs, e', h1, h2, h3, _⟩ := twoWay_episode {} {} twoWay_default_ok 30
    ⟨⟨by norm_num, by norm_num, rfl⟩, by norm_num, ⟨by norm_num, by norm_num, by norm_num⟩, ⟨le_rfl, by norm_num⟩⟩ rng as ha (by
      have : (as.length : ℝ) ≤ 25 := by exact_mod_cast hl
      change 30 + 30 * (((period {} * as.length : ℕ) : ℝ) / 15) ≤ 797.5
      rw [hp]; push_cast
      rw [show 30 + 30 * (15 * (as.length : ℝ) / 15) = 30 + 30 * (as.length : ℝ) by ring]
      have h780 : (780 : ℝ) ≤ 797.5 := by norm_num
      linarith)
  exact ⟨e, rs, e', h1, h2, h3⟩

end HighwayEnv.Props
