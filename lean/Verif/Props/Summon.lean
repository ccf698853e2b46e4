import Verif.Props.Parking

/-!
# C88: the summon environment
-/

noncomputable section
open Classical
namespace HighwayEnv.Props
open HighwayEnv Spec Graph

/-! ## Reward, success, termination -/

private theorem scores_summon {e : Env} {v : Vehicle} (hv : e.vehicle = .ok v) :
    GoalScore (fun a d => Summon.computeReward e a d) (if v.crashed then 5 else 0) := by
  intro a d
  unfold Summon.computeReward
  dsimp only
  rw [parking_reward_eq, ← Real.sqrt_eq_rpow]
  simp only [hv, bind, Except.bind, pure, Except.pure, Summon.COLLISION_REWARD, Highway.ofBool]
  congr 1
  cases v.crashed <;> simp <;> ring

/-- **C88, in a reachable state.**  The reward is the sum, over the watched vehicles, of minus the square root of the gap to the goal, minus 5 for each of
them when the first agent has crashed; there is no success after a crash of the first agent. -/
theorem summon_state (cfg : SummonConfig) (hc : ParkingOk cfg.base) (net : Graph) (o : RoadObject) (e : Env) (h : Ready cfg.base.sim e)
    (hI : ParkingScene net o e) (a : Option AgentAction) :
    ∃ v vs ws x b, e.vehicle = .ok v ∧ Watched cfg.base e vs ∧ vs ≠ [] ∧ Agents e ws ∧ (Summon.cls cfg).reward e a = .ok x ∧
      (Summon.cls cfg).terminal e = .ok b ∧ x = (vs.map fun w => -Real.sqrt (parkingGap w o) - (if v.crashed then 5 else 0)).sum ∧ x ≤ 0 ∧
      (v.crashed = true → x ≤ -5) ∧
      Parking.infoSuccessWith (fun a d => Summon.computeReward e a d) cfg.base e =
        .ok (vs.map fun w => decide (v.crashed = false ∧ Parked w o)) ∧
      (b = true ↔ cfg.base.duration ≤ e.steps ∨ (∃ w ∈ ws, w.crashed = true) ∨ (v.crashed = false ∧ ∀ w ∈ vs, Parked w o)) := by
  obtain ⟨v, hv, hm, hu⟩ := vehicle_total h
  obtain ⟨vs, hw, hne⟩ := watched_ok (cfg := cfg.base) h.manned
  obtain ⟨ws, _, ha⟩ := egos_ok h.manned.onRoad
  obtain ⟨h1, h2, b, h3, h4⟩ := state_ok (scores_summon hv) hc h hI hw ha
  have hsuc : ∀ w : Vehicle, Real.sqrt (parkingGap w o) + (if v.crashed then 5 else 0) < 12 / 100 ↔ v.crashed = false ∧ Parked w o := by
    intro w
    have hs := Real.sqrt_nonneg (parkingGap w o)
    cases hcr : v.crashed
    · rw [if_neg (by simp), parked_iff]; simp
    · rw [if_pos rfl]
      simp only [Bool.true_eq_false, false_and, iff_false, not_lt]
      linarith
  have hle : ∀ w : Vehicle, -Real.sqrt (parkingGap w o) - (if v.crashed then 5 else 0) ≤ 0 := by
    intro w
    have hs := Real.sqrt_nonneg (parkingGap w o)
    split <;> linarith
  refine ⟨v, vs, ws, _, b, hv, hw, hne, ha, h1, h3, rfl, sum_nonpos' _ _ fun w _ => hle w, ?_, ?_, ?_⟩
  · intro hcr
    obtain ⟨w, ws, rfl⟩ := List.exists_cons_of_ne_nil hne
    rw [List.map_cons, List.sum_cons]
    have h0 := sum_nonpos' ws (fun w => -Real.sqrt (parkingGap w o) - (if v.crashed then 5 else 0)) fun w _ => hle w
    have hs := Real.sqrt_nonneg (parkingGap w o)
    rw [if_pos hcr] at h0 ⊢
    linarith
  · rw [h2]
    simp only [hsuc]
  · rw [h4]
    simp only [hsuc]
    constructor
    · rintro (h | h | h)
      · exact .inl h
      · exact .inr (.inl h)
      · obtain ⟨w, ws, rfl⟩ := List.exists_cons_of_ne_nil hne
        exact .inr (.inr ⟨(h w List.mem_cons_self).1, fun u hu => (h u hu).2⟩)
    · rintro (h | h | h)
      · exact .inl h
      · exact .inr (.inl h)
      · exact .inr (.inr fun u hu => ⟨h.1, h.2 u hu⟩)

/-! ## Reset -/

private theorem alley_geometry (k : ℕ) (s : ℝ) : (alleyLane 32 (4 * k - 8)).position s 0 = ⟨-32 + s, 4 * k - 8⟩ ∧
    (alleyLane 32 (4 * k - 8)).headingAt s = 0 := by
  have h : Along ⟨-32, 4 * (k : ℝ) - 8⟩ ⟨32, 4 * (k : ℝ) - 8⟩ ⟨1, 0⟩ 64 := by constructor <;> norm_num
  constructor
  · change Lane.straightPosition _ _ s 0 = _
    refine (h.straightPosition s 0).trans ?_
    ext <;> norm_num
  · change Lane.straightHeading _ _ = _
    exact h.heading.trans arctan2_east

/-- What is known of a car just put on the road. -/
private structure Car (kind : VKind) (i : ℕ) (v : Vehicle) : Prop extends SummonCar kind i v where
  attached : Attached summonNet v
  route : v.route = none

private theorem parked_ok (G : Globals) (kind : VKind) (i : ℕ) (hi : i < 15) (r : Road) (hr : r.network = summonNet) (rng : Rng) :
    ∃ v rng', Summon.addParked G i r rng = .ok { r with vehicles := r.vehicles ++ [v], rng := rng' } ∧ Car kind i v := by
  have hwf := summonNet_wf
  have pick : ∃ up : Bool, (if 1 / 2 ≤ rng.uniform01.1 then (⟨"a", "b", (i : Int)⟩ : LaneIndex) else ⟨"b", "c", (i : Int)⟩) =
      ⟨if up then "a" else "b", if up then "b" else "c", (i : Int)⟩ := by
    by_cases h : 1 / 2 ≤ rng.uniform01.1
    · exact ⟨true, by rw [if_pos h]; rfl⟩
    · exact ⟨false, by rw [if_neg h]; rfl⟩
  obtain ⟨up, hup⟩ := pick
  have hl : HasLane summonNet (if up then "a" else "b") (if up then "b" else "c") i (spotLane 12 5 15 i up) := by
    rw [summonNet_lanes]
    left
    refine ⟨hi, ?_⟩
    cases up
    · exact .inr ⟨rfl, rfl, rfl⟩
    · exact .inl ⟨rfl, rfl, rfl⟩
  obtain ⟨v, h1, h2, h3, h4, h5, h6, _, h8, _, h10, h11, _⟩ := makeOnLane_spec G summonNet hwf (i + 1) .plain _ _
    (getLane_of_hasLane hwf.toIsPyGraph (i := ⟨if up then "a" else "b", if up then "b" else "c", (i : Int)⟩) rfl hl) 4 (some 0)
  refine ⟨v, rng.uniform01.2, ?_, ⟨h2, h11, .inl ⟨h3, h6 _ rfl, hi, up, h4, h5⟩⟩, h8, h10⟩
  unfold Summon.addParked
  dsimp only
  rw [hup, hr, h1]
  simp only [bind, Except.bind, pure, Except.pure]

private theorem moving_ok (G : Globals) (cfg : SummonConfig) (i : ℕ) (r : Road) (hr : r.network = summonNet) (rng : Rng) :
    ∃ v rng', Summon.addMoving G cfg i r rng = .ok { r with vehicles := r.vehicles ++ [v], rng := rng' } ∧ Car cfg.otherVehiclesType i v := by
  have hwf := summonNet_wf
  obtain ⟨k, rng1, hk, hk5⟩ := randint_ok rng (n := 5) (by norm_num)
  obtain ⟨j, rng2, hj, hj2⟩ := randint_ok rng1 (n := 2) (by norm_num)
  have hx : Summon.xRange 15 = 32 := by unfold Summon.xRange; norm_num
  have hs : (i : ℝ) * 5 - Summon.xRange 15 / 8 * (((j : Int) - 1 : Int) : ℝ) = 5 * i ∨
      (i : ℝ) * 5 - Summon.xRange 15 / 8 * (((j : Int) - 1 : Int) : ℝ) = 5 * i + 4 := by
    rw [hx]
    have : j = 0 ∨ j = 1 := by omega
    rcases this with rfl | rfl
    · right; push_cast; ring
    · left; push_cast; ring
  have hl : HasLane summonNet "d" "e" k (alleyLane 32 (4 * k - 8)) := summonNet_lanes.2 (.inr ⟨hk5, rfl, rfl, rfl⟩)
  obtain ⟨v, h1, h2, h3, h4, h5, h6, _, h8, _, h10, h11, _⟩ := makeOnLane_spec G summonNet hwf (i + 1) cfg.otherVehiclesType _ _
    (getLane_of_hasLane hwf.toIsPyGraph (i := ⟨"d", "e", (k : Int)⟩) rfl hl)
    ((i : ℝ) * 5 - Summon.xRange 15 / 8 * (((j : Int) - 1 : Int) : ℝ)) (some 2)
  refine ⟨v, rng2, ?_, ⟨h2, h11, .inr ⟨h3, h6 _ rfl, h5.trans (alley_geometry _ _).2, k, hk5, _, hs, h4.trans (alley_geometry _ _).1⟩⟩, h8, h10⟩
  unfold Summon.addMoving
  simp only [hk, hj, bind, Except.bind, pure, Except.pure]
  rw [hr, h1]

private theorem others_ok (G : Globals) (cfg : SummonConfig) (r : Road) (hr : r.network = summonNet) (ego : Vehicle) (h0 : r.vehicles = [ego]) (m : ℕ)
    (hm : m ≤ 15) :
    ∃ ws rng, (List.range m).foldlM (Summon.addOther G cfg) r = .ok { r with vehicles := ego :: ws, rng := rng } ∧ ws.length = m ∧
      ∀ (i : ℕ) (v : Vehicle), ws[i]? = some v → Car cfg.otherVehiclesType i v := by
  induction m with
  | zero => exact ⟨[], r.rng, by rw [List.range_zero, List.foldlM_nil, ← h0]; rfl, rfl, by simp⟩
  | succ m ih =>
    obtain ⟨ws, rng, h1, h2, h3⟩ := ih (by omega)
    set r1 : Road := { r with vehicles := ego :: ws, rng := rng } with hr1
    have add : ∃ v rng', Summon.addOther G cfg r1 m = .ok { r1 with vehicles := r1.vehicles ++ [v], rng := rng' } ∧ Car cfg.otherVehiclesType m v := by
      unfold Summon.addOther
      dsimp only
      split
      · exact parked_ok G _ m (by omega) r1 hr _
      · exact moving_ok G cfg m r1 hr _
    obtain ⟨v, rng', q1, q2⟩ := add
    refine ⟨ws ++ [v], rng', ?_, by simp [h2], ?_⟩
    · rw [List.range_succ, List.foldlM_append, h1]
      simp only [bind, Except.bind, List.foldlM_cons, List.foldlM_nil]
      rw [q1]
      rfl
    · intro i w hw
      by_cases hi : i < m
      · rw [List.getElem?_append_left (by omega)] at hw
        exact h3 i w hw
      · have him : i = m := by
          have := (List.getElem?_eq_some_iff.1 hw).1
          simp at this; omega
        subst him
        rw [← h2, List.getElem?_concat_length] at hw
        cases hw
        exact q2

/-- **Reset of the summon environment**, with any seed and at most 15 cars: the agent stands in the last spot, in a random direction; the cars are those
described by `SummonCar`, except that some of those closer than 20 m to the agent may have been removed; the goal is 40 m east or west of the
middle. -/
theorem summon_reset (G : Globals) (cfg : SummonConfig) (hc : SummonOk cfg) (rng : Rng) :
    ∃ e o ego ws, Summon.reset G cfg rng = .ok e ∧ Ready cfg.base.sim e ∧ ParkingScene summonNet o e ∧ e.steps = 0 ∧ e.time = 0 ∧ e.done = false ∧
      e.controlled = [0] ∧ (o.pos = ⟨-40, 0⟩ ∨ o.pos = ⟨40, 0⟩) ∧ o.heading = 0 ∧
      SummonEgo cfg.base.sim.action.agent.vehicleClass ego ∧ ws.length = cfg.vehiclesCount ∧
      (∀ (i : ℕ) (v : Vehicle), ws[i]? = some v → SummonCar cfg.otherVehiclesType i v) ∧
      e.road.vehicles.Sublist (ego :: ws) ∧ ego ∈ e.road.vehicles ∧ ∀ v ∈ ws, 20 ≤ (v.pos - ego.pos).norm → v ∈ e.road.vehicles := by
  obtain ⟨c, hact, hlola⟩ := hc.base.action
  have hagent : cfg.base.sim.action.agent = .continuous c := by rcases hact with h | h <;> rw [h] <;> rfl
  have hinit : AgentType.init (.continuous c) = .ok (.continuous c) := by
    unfold AgentType.init
    rcases hlola with h | h <;> simp [h]
  have hfree : cfg.base.sim.action.agent.vehicleClass.isLinear = false := by
    rw [hagent]
    unfold AgentType.vehicleClass
    dsimp only
    split <;> rfl
  have hwf := summonNet_wf
  have hnet : (Summon.makeRoad cfg rng).network = summonNet := summon_network
  have hstart : Summon.start = ⟨26, 16⟩ := by unfold Summon.start; norm_num
  obtain ⟨ego, e1, e2, e3, _⟩ := mk'_total G hwf (by simp [summonNet]) 0 cfg.base.sim.action.agent.vehicleClass ⟨26, 16⟩
    (2 * Real.pi * rng.uniform01.1) 0
  obtain ⟨x, rng1, hx, hxm⟩ := choice_ok rng.uniform01.2 (l := [(-2 * 15 - 10 : ℝ), 2 * 15 + 10]) (by simp)
  set o : RoadObject := { uid := cfg.vehiclesCount + 1, kind := .landmark, pos := ⟨x, 0⟩, heading := 0 } with ho
  set r0 : Road := { Summon.makeRoad cfg rng with vehicles := [ego], objects := [o], rng := rng1 } with hr0
  obtain ⟨ws, rng2, h1, h2, h3⟩ := others_ok G cfg r0 hnet ego rfl cfg.vehiclesCount hc.count
  set near : Vehicle → Bool := fun w => decide (w.uid ≠ 0) && decide ((w.pos - ego.pos).norm < 20) with hnear
  obtain ⟨s1, s2⟩ := removal_only_near near (ego :: ws)
  set r : Road := { r0 with vehicles := Intersection.removeWhileIterating near (ego :: ws), rng := rng2 } with hr
  have huid : ∀ v ∈ ws, v.uid ≠ 0 := by
    intro v hv
    obtain ⟨i, hi⟩ := List.getElem?_of_mem hv
    rw [(h3 i v hi).uid]; omega
  have hall : ∀ v ∈ r.vehicles, v = ego ∨ ∃ i, Car cfg.otherVehiclesType i v := by
    intro v hv
    have := s1.subset hv
    rw [List.mem_cons] at this
    rcases this with h | h
    · exact .inl h
    · obtain ⟨i, hi⟩ := List.getElem?_of_mem h
      exact .inr ⟨i, h3 i v hi⟩
  have hegomem : ego ∈ r.vehicles := s2 ego List.mem_cons_self (by rw [hnear]; simp [e2.uid])
  have hdist : ((ego :: ws).map (·.uid)).Nodup := by
    have huids : (ego :: ws).map (·.uid) = List.range (cfg.vehiclesCount + 1) := by
      refine List.ext_getElem? fun i => ?_
      cases i with
      | zero => simp [e2.uid]
      | succ i =>
        rw [List.getElem?_map]
        by_cases hi : i < cfg.vehiclesCount
        · rw [List.getElem?_range (by omega), List.getElem?_cons_succ, List.getElem?_eq_getElem (by omega)]
          exact congrArg some (h3 i _ (List.getElem?_eq_getElem (by omega))).uid
        · rw [List.getElem?_cons_succ, List.getElem?_eq_none (by omega), List.getElem?_eq_none (by simp; omega)]
          rfl
    rw [huids]; exact List.nodup_range
  have hu := uniform_range rng (a := 0) (b := 1) (by norm_num)
  have hu' : 0 ≤ rng.uniform01.1 ∧ rng.uniform01.1 < 1 := by
    unfold Rng.uniform at hu
    simpa using hu
  have hpi := Real.pi_pos
  refine ⟨{ road := r, controlled := [0], goal := cfg.vehiclesCount + 1, nextUid := cfg.vehiclesCount + 2 }, o, ego, ws, ?_,
    ⟨⟨?_, ?_, ?_, ?_⟩, ⟨?_, ?_, by simp⟩, ?_, ?_, ?_⟩, ⟨hnet, ⟨false, rfl⟩, rfl, rfl⟩, rfl, rfl, rfl, rfl, ?_, rfl,
    ⟨e2.uid, e2.kind, e2.pos, ?_, e2.speed, e2.crashed⟩, h2, fun i v hv => (h3 i v hv).toSummonCar, s1, hegomem, ?_⟩
  · unfold Summon.reset Summon.makeVehicles
    rw [hagent, hinit, hstart]
    rw [hagent] at e1
    have e1' : Vehicle.mk' G (Summon.makeRoad cfg rng).network 0 (AgentType.continuous c).vehicleClass ⟨26, 16⟩
        (2 * Real.pi * (Summon.makeRoad cfg rng).rng.uniform01.1) 0 = .ok ego := by rw [hnet]; exact e1
    have hx' : (Summon.makeRoad cfg rng).rng.uniform01.2.choice [(-2 * 15 - 10 : ℝ), 2 * 15 + 10] = .ok (x, rng1) := hx
    simp only [bind, Except.bind]
    rw [e1']
    dsimp only
    rw [hx']
    dsimp only
    have h1' : (List.range cfg.vehiclesCount).foldlM (Summon.addOther G cfg)
        { Summon.makeRoad cfg rng with vehicles := (Summon.makeRoad cfg rng).vehicles ++ [ego], objects := (Summon.makeRoad cfg rng).objects ++ [o],
                                       rng := rng1 } = .ok { r0 with vehicles := ego :: ws, rng := rng2 } := h1
    rw [h1']
    rfl
  · change WellFormed (Summon.makeRoad cfg rng).network
    rw [hnet]; exact hwf
  · intro v hv
    change Attached (Summon.makeRoad cfg rng).network v ∧ RouteExists (Summon.makeRoad cfg rng).network v.route
    rw [hnet]
    have hnone : RouteExists summonNet none := by intro s hs; simp at hs
    rcases hall v hv with rfl | ⟨i, hi⟩
    · exact ⟨e3, by rw [e2.route]; exact hnone⟩
    · exact ⟨hi.attached, by rw [hi.route]; exact hnone⟩
  · rintro ⟨v, hv, hl⟩
    exfalso
    rcases hall v hv with rfl | ⟨i, hi⟩
    · rw [e2.kind, hfree] at hl; cases hl
    · rcases hi.place with ⟨hk, _⟩ | ⟨hk, _⟩
      · rw [hk] at hl; cases hl
      · rw [hk, hc.traffic] at hl; cases hl
  · intro h; cases h
  · exact (s1.map (·.uid)).nodup hdist
  · intro uid huid
    rw [List.mem_singleton] at huid
    subst huid
    exact ⟨ego, hegomem, e2.uid⟩
  · intro v hv hin
    change v.uid ∈ [0] at hin
    rw [List.mem_singleton] at hin
    rcases hall v hv with rfl | ⟨i, hi⟩
    · rw [e2.kind, agentOf_agent]
    · rw [hi.uid] at hin; omega
  · rw [agentOf_agent, hagent]; exact ⟨_, hinit⟩
  · intro h; cases h
  · have : x = -40 ∨ x = 40 := by
      simp only [List.mem_cons, List.not_mem_nil, or_false] at hxm
      rcases hxm with h | h
      · left; rw [h]; norm_num
      · right; rw [h]; norm_num
    rcases this with h | h
    · left; rw [ho, h]
    · right; rw [ho, h]
  · rw [e2.heading]
    constructor
    · have := hu'.1; positivity
    · nlinarith [hu'.2]
  · intro v hv hfar
    exact s2 v (List.mem_cons_of_mem _ hv) (by rw [hnear]; simp [not_lt.2 hfar])

/-! ### Who touches whom at the start -/

private theorem rect_near {c : Vec2} {a : ℝ} {p : Vec2} (h : p ∈ rectSet c 5 2 a) : |p.x - c.x| ≤ 7 / 2 ∧ |p.y - c.y| ≤ 7 / 2 := by
  obtain ⟨s, t, hs, ht, e1, e2⟩ := h
  have hcos := Real.abs_cos_le_one a
  have hsin := Real.abs_sin_le_one a
  constructor
  · have : p.x - c.x = s * Real.cos a - t * Real.sin a := by rw [e1]; ring
    rw [this]
    calc |s * Real.cos a - t * Real.sin a| ≤ |s * Real.cos a| + |t * Real.sin a| := abs_sub _ _
      _ = |s| * |Real.cos a| + |t| * |Real.sin a| := by rw [abs_mul, abs_mul]
      _ ≤ |s| * 1 + |t| * 1 := by gcongr
      _ ≤ 7 / 2 := by linarith
  · have : p.y - c.y = s * Real.sin a + t * Real.cos a := by rw [e2]; ring
    rw [this]
    calc |s * Real.sin a + t * Real.cos a| ≤ |s * Real.sin a| + |t * Real.cos a| := abs_add_le _ _
      _ = |s| * |Real.sin a| + |t| * |Real.cos a| := by rw [abs_mul, abs_mul]
      _ ≤ |s| * 1 + |t| * 1 := by gcongr
      _ ≤ 7 / 2 := by linarith

/-- With at most 10 cars (the default), no car touches the agent at the start. -/
theorem summon_start_free (kind kind' : VKind) (i : ℕ) (hi : i < 10) (ego v : Vehicle) (he : SummonEgo kind ego) (hv : SummonCar kind' i v) :
    ¬ Meet (rectSet v.pos 5 2 v.heading) (rectSet ego.pos 5 2 ego.heading) := by
  rintro ⟨p, h1, h2⟩
  have a1 := (rect_near h1).1
  have a2 := (rect_near h2).1
  rw [he.pos] at a2
  dsimp only at a2
  rw [abs_le] at a1 a2
  have hi' : (i : ℝ) ≤ 9 := by exact_mod_cast (by omega : i ≤ 9)
  rcases hv.place with ⟨_, _, _, up, hp, _⟩ | ⟨_, _, _, k, _, s, hs, hp⟩
  · rw [hp, (spot_geometry _ _ _ _ _ _ _).2.1] at a1
    have hx : spotX 15 i ≤ 6 := by unfold spotX; norm_num; linarith
    cases up <;> simp only [if_true, Bool.false_eq_true, if_false] at a1 <;> linarith
  · rw [hp] at a1
    dsimp only at a1
    rcases hs with rfl | rfl <;> linarith

/-- Of two different cars that touch each other at the start, both drive in the alleys: parked cars touch nobody. -/
theorem summon_start_parked (kind : VKind) (i j : ℕ) (hij : i ≠ j) (v w : Vehicle) (hv : SummonCar kind i v) (hw : SummonCar kind j w)
    (hm : Meet (rectSet v.pos 5 2 v.heading) (rectSet w.pos 5 2 w.heading)) : v.kind = kind ∧ w.kind = kind ∧ v.speed = 2 ∧ w.speed = 2 := by
  have alley : ∀ (i : ℕ) (v : Vehicle) (p : Vec2), (∃ k < 5, ∃ s : ℝ, (s = 5 * i ∨ s = 5 * i + 4) ∧ v.pos = ⟨-32 + s, 4 * (k : ℕ) - 8⟩) → v.heading = 0 →
      p ∈ rectSet v.pos 5 2 v.heading → |p.y| ≤ 9 := by
    rintro i v p ⟨k, hk, s, _, hp⟩ hh hmem
    rw [hp, hh] at hmem
    obtain ⟨a, b, _, hb, _, e⟩ := hmem
    rw [Real.sin_zero, Real.cos_zero] at e
    dsimp only at e
    have hk' : (k : ℝ) ≤ 4 := by exact_mod_cast (by omega : k ≤ 4)
    have hk0 : (0 : ℝ) ≤ k := Nat.cast_nonneg k
    rw [abs_le] at hb ⊢
    constructor <;> linarith
  have parked : ∀ (i : ℕ) (up : Bool) (p : Vec2), p ∈ rectSet ((spotLane 12 5 15 i up).position 4 0) 5 2 ((spotLane 12 5 15 i up).headingAt 4) →
      13 ≤ |p.y| := by
    intro i up p hp
    obtain ⟨_, g2, g3, _⟩ := spot_geometry 12 5 15 i up 4 0
    rw [g2, g3] at hp
    obtain ⟨s, t, hs, ht, _, e2⟩ := hp
    rw [abs_le] at hs
    rw [le_abs]
    cases up
    · right
      simp only [Bool.false_eq_true, if_false, Real.cos_neg, Real.sin_neg, Real.cos_pi_div_two, Real.sin_pi_div_two] at e2
      linarith
    · left
      simp only [if_true, Real.cos_pi_div_two, Real.sin_pi_div_two] at e2
      linarith
  rcases hv.place with ⟨_, _, _, up, hp, hh⟩ | ⟨v1, v2, v3, v4⟩ <;> rcases hw.place with ⟨_, _, _, up', hp', hh'⟩ | ⟨w1, w2, w3, w4⟩
  · rw [hp, hh, hp', hh'] at hm
    exact absurd hm (spots_disjoint 12 5 (by norm_num) 15 i j up up' (.inl hij))
  · exfalso
    obtain ⟨p, p1, p2⟩ := hm
    rw [hp, hh] at p1
    have := parked _ _ _ p1
    have := alley _ _ _ w4 w3 p2
    linarith
  · exfalso
    obtain ⟨p, p1, p2⟩ := hm
    rw [hp', hh'] at p2
    have := parked _ _ _ p2
    have := alley _ _ _ v4 v3 p1
    linarith
  · exact ⟨v1, w1, v2, w2⟩

/-! ## Episodes -/

/-- The methods of the summon environment raise nothing. -/
theorem summon_reliable (G : Globals) (cfg : SummonConfig) (hc : ParkingOk cfg.base) (net : Graph) (o : RoadObject) :
    Reliable G cfg.base.sim (Summon.cls cfg) (ParkingScene net o) where
  lasting := parking_lasting G net o
  terminal := fun e h hI => by
    obtain ⟨_, _, _, _, b, _, _, _, _, _, hb, _⟩ := summon_state cfg hc net o e h hI none
    exact ⟨b, hb⟩
  reward := fun e a h hI _ => by
    obtain ⟨_, _, _, x, _, _, _, _, _, hx, _⟩ := summon_state cfg hc net o e h hI (some a)
    exact ⟨x, hx⟩
  cost := fun e h _ => .inr rfl
  after := fun e h hI => ⟨e, rfl, h, hI⟩

/-- **C88, whole episodes.**  From a reset with any seed, any sequence of continuous actions can be played without an exception; in each state, with `v` the
agent, the reward is minus the square root of the gap of `v` to the goal, minus 5 after a crash; the episode is over exactly when the time is over,
`v` has crashed or is parked. -/
theorem summon_episode (G : Globals) (cfg : SummonConfig) (hc : SummonOk cfg) (hp : cfg.base.sim.policyFrequency ≠ 0) (rng : Rng)
    (as : List AgentAction) (ha : ∀ a ∈ as, InEnvSpace cfg.base.sim.action a) :
    ∃ e o rs e', Summon.reset G cfg rng = .ok e ∧ Episode G cfg.base.sim (Summon.cls cfg) e as rs e' ∧ rs.length = as.length ∧
      ParkingScene summonNet o e ∧ ParkingScene summonNet o e' ∧
      ∀ (i : ℕ) (res : StepResult), rs[i]? = some res → ∃ r v, v ∈ r.vehicles ∧ v.uid = 0 ∧ RoadRun G e.road r ∧ res.speed = v.speed ∧
        res.crashed = v.crashed ∧ res.reward = -Real.sqrt (parkingGap v o) - (if v.crashed then 5 else 0) ∧
        (res.terminal = true ↔ cfg.base.duration ≤ (i + 1 : ℕ) ∨ v.crashed = true ∨ Parked v o) ∧ res.cost = none := by
  obtain ⟨e, o, ego, ws, h1, h2, h3, h4, _, _, h7, _⟩ := summon_reset G cfg hc rng
  set I : Env → Prop := fun f => ParkingScene summonNet o f ∧ RoadRun G e.road f.road with hI
  have base := summon_reliable G cfg hc.base summonNet o
  have hrel : Reliable G cfg.base.sim (Summon.cls cfg) I := {
    lasting := fun f r t s h hr => ⟨base.lasting f r t s h.1 hr, Road.RoadRun.trans h.2 hr⟩
    terminal := fun f h hI => base.terminal f h hI.1
    reward := fun f a h hI ha => base.reward f a h hI.1 ha
    cost := fun f h hI => base.cost f h hI.1
    after := fun f h hI => ⟨f, rfl, h, hI⟩ }
  have hI0 : I e := ⟨h3, .refl _⟩
  obtain ⟨rs, e', hep, hlen, _, _⟩ := episode_never_raises _ cfg.base.sim _ _ hrel hp e h2 hI0 as ha
  obtain ⟨_, o2, _, _, _, hout⟩ := episode_outcomes _ cfg.base.sim _ _ hrel (tidy_default rfl) hp e e' h2 hI0 as rs ha hep
  refine ⟨e, o, rs, e', h1, hep, hlen, h3, o2.1, ?_⟩
  intro i res hres
  have hi : i < as.length := by rw [← hlen]; exact (List.getElem?_eq_some_iff.1 hres).1
  obtain ⟨f, v, q1, q2, q3, q4, q5, q6, q7, q8, q9, q10⟩ := hout i _ res (List.getElem?_eq_getElem hi) hres
  obtain ⟨v', vs, us, x, b, a0, a1, a2, a3, a4, a5, a6, _, _, _, a10⟩ := summon_state cfg hc.base _ o f q1 q2.1 (some as[i])
  rw [q5] at a4
  rw [q6] at a5
  cases a4
  cases a5
  rw [q7] at a0
  cases a0
  rw [h7] at q4
  obtain ⟨w, w1, w2, w3⟩ := agents_find (q1.manned.onRoad 0 (by rw [q4]; simp))
  have hvw : v = w := by
    unfold Env.vehicle at q7
    rw [q4] at q7
    dsimp only at q7
    rw [w1] at q7
    cases q7; rfl
  subst hvw
  have only : ∀ us : List Vehicle, us.map (·.uid) = [0] → (∀ u ∈ us, u ∈ f.road.vehicles) → us = [v] := by
    intro us hu hm
    obtain ⟨u, rfl⟩ := List.length_eq_one_iff.1 (by rw [← List.length_map (f := (·.uid)), hu]; rfl : us.length = 1)
    rw [List.inj_on_of_nodup_map q1.manned.distinct (hm u (by simp)) w2 (by rw [w3]; simpa using hu)]
  have hvs := only vs (by rw [a1.1, q4]; simp) a1.2
  have hus := only us (by rw [a3.1, q4]) a3.2
  subst hvs hus
  refine ⟨f.road, v, w2, w3, q2.2, q8, q9, ?_, ?_, ?_⟩
  · rw [a6]; simp
  · rw [a10, q3, h4]
    simp only [List.mem_singleton, forall_eq, exists_eq_left, Nat.zero_add]
    cases v.crashed <;> simp
  · cases hcst : res.cost with
    | none => rfl
    | some y =>
      have := (q10 y).1 hcst
      cases this

/-- Non-vacuity: the default configuration is playable. -/
theorem summon_default_ok : SummonOk {} := ⟨parking_default_ok.1, by norm_num, rfl⟩

example (rng : Rng) : ∃ e rs e', Summon.reset {} {} rng = .ok e ∧
    Episode {} ({} : SummonConfig).base.sim (Summon.cls {}) e [.vector [1, 0], .vector [0.3, -0.2]] rs e' ∧ rs.length = 2 := by
  obtain ⟨e, _, rs, e', h1, h2, h3, _⟩ := summon_episode {} {} summon_default_ok (by norm_num) rng [.vector [1, 0], .vector [0.3, -0.2]] (by
    intro a ha
    simp only [List.mem_cons, List.not_mem_nil, or_false] at ha
    rcases ha with rfl | rfl <;> rfl)
  exact ⟨e, rs, e', h1, h2, h3⟩

/-! ## Defects of the reset -/

private theorem reset_match (G : Globals) (cfg : SummonConfig) (hc : ParkingOk cfg.base) (rng : Rng) :
    ∃ ego o rng1, SummonEgo cfg.base.sim.action.agent.vehicleClass ego ∧ rng1.reals = rng.reals ∧ rng1.rpos = rng.rpos + 1 ∧
      rng1.ints = rng.ints ∧ rng1.ipos = rng.ipos + 1 ∧
      Summon.reset G cfg rng = (match (List.range cfg.vehiclesCount).foldlM (Summon.addOther G cfg)
          { Summon.makeRoad cfg rng with vehicles := [ego], objects := [o], rng := rng1 } with
        | .error er => .error er
        | .ok r => .ok {
                         road := { r with vehicles := (Intersection.removeWhileIterating (fun w => decide (w.uid ≠ 0) && decide ((w.pos - ego.pos).norm < 20)) r.vehicles) },
                         controlled := [0], goal := cfg.vehiclesCount + 1, nextUid := cfg.vehiclesCount + 2 }) := by
  obtain ⟨c, hact, hlola⟩ := hc.action
  have hagent : cfg.base.sim.action.agent = .continuous c := by rcases hact with h | h <;> rw [h] <;> rfl
  have hinit : AgentType.init (.continuous c) = .ok (.continuous c) := by
    unfold AgentType.init
    rcases hlola with h | h <;> simp [h]
  have hwf := summonNet_wf
  have hnet : (Summon.makeRoad cfg rng).network = summonNet := summon_network
  have hstart : Summon.start = ⟨26, 16⟩ := by unfold Summon.start; norm_num
  obtain ⟨ego, e1, e2, e3, _⟩ := mk'_total G hwf (by simp [summonNet]) 0 cfg.base.sim.action.agent.vehicleClass ⟨26, 16⟩
    (2 * Real.pi * rng.uniform01.1) 0
  obtain ⟨x, rng1, hx, _⟩ := choice_ok rng.uniform01.2 (l := [(-2 * 15 - 10 : ℝ), 2 * 15 + 10]) (by simp)
  have hrng : rng1 = { rng with rpos := rng.rpos + 1, ipos := rng.ipos + 1 } := by
    unfold Rng.choice Rng.randint at hx
    rw [if_neg (by simp)] at hx
    simp only [bind, Except.bind] at hx
    split at hx
    · cases hx; rfl
    · cases hx
  have hu := uniform_range rng (a := 0) (b := 1) (by norm_num)
  have hu' : 0 ≤ rng.uniform01.1 ∧ rng.uniform01.1 < 1 := by
    unfold Rng.uniform at hu
    simpa using hu
  have hpi := Real.pi_pos
  have hhead : 0 ≤ ego.heading ∧ ego.heading < 2 * Real.pi := by
    rw [e2.heading]
    constructor
    · have := hu'.1; positivity
    · nlinarith [hu'.2]
  refine ⟨ego, { uid := cfg.vehiclesCount + 1, kind := .landmark, pos := ⟨x, 0⟩, heading := 0 }, rng1,
    ⟨e2.uid, e2.kind, e2.pos, hhead, e2.speed, e2.crashed⟩, by rw [hrng], by rw [hrng], by rw [hrng], by rw [hrng], ?_⟩
  unfold Summon.reset Summon.makeVehicles
  rw [hagent, hinit, hstart]
  rw [hagent] at e1
  have e1' : Vehicle.mk' G (Summon.makeRoad cfg rng).network 0 (AgentType.continuous c).vehicleClass ⟨26, 16⟩
      (2 * Real.pi * (Summon.makeRoad cfg rng).rng.uniform01.1) 0 = .ok ego := by rw [hnet]; exact e1
  have hx' : (Summon.makeRoad cfg rng).rng.uniform01.2.choice [(-2 * 15 - 10 : ℝ), 2 * 15 + 10] = .ok (x, rng1) := hx
  simp only [bind, Except.bind]
  rw [e1']
  dsimp only
  rw [hx']
  dsimp only
  have hv0 : (Summon.makeRoad cfg rng).vehicles = [] := rfl
  have ho0 : (Summon.makeRoad cfg rng).objects = [] := rfl
  rw [hv0, ho0, List.nil_append, List.nil_append]
  generalize (List.range cfg.vehiclesCount).foldlM (Summon.addOther G cfg) _ = res
  cases res <;> rfl

/-- The cars, when all of them are drawn parked. -/
private theorem all_parked (G : Globals) (cfg : SummonConfig) (r : Road) (hr : r.network = summonNet) (ego : Vehicle) (h0 : r.vehicles = [ego]) (m : ℕ)
    (hm : m ≤ 15) (hp : ∀ i < m, Int.fract (r.rng.reals (r.rng.rpos + 2 * i)) ≤ 75 / 100) :
    ∃ ws, (List.range m).foldlM (Summon.addOther G cfg) r = .ok { r with vehicles := ego :: ws, rng := { r.rng with rpos := r.rng.rpos + 2 * m } } ∧
      ws.length = m ∧ ∀ (i : ℕ) (v : Vehicle), ws[i]? = some v → v.uid = i + 1 ∧
        v.pos = (spotLane 12 5 15 i (decide (1 / 2 ≤ Int.fract (r.rng.reals (r.rng.rpos + 2 * i + 1))))).position 4 0 := by
  have hwf := summonNet_wf
  induction m with
  | zero => exact ⟨[], by rw [List.range_zero, List.foldlM_nil, ← h0]; rfl, rfl, by simp⟩
  | succ m ih =>
    obtain ⟨ws, h1, h2, h3⟩ := ih (by omega) fun i hi => hp i (by omega)
    set up : Bool := decide (1 / 2 ≤ Int.fract (r.rng.reals (r.rng.rpos + 2 * m + 1))) with hup
    have hl : HasLane summonNet (if up then "a" else "b") (if up then "b" else "c") m (spotLane 12 5 15 m up) := by
      rw [summonNet_lanes]
      left
      refine ⟨by omega, ?_⟩
      cases up
      · exact .inr ⟨rfl, rfl, rfl⟩
      · exact .inl ⟨rfl, rfl, rfl⟩
    obtain ⟨v, q1, q2, _, q4, _⟩ := makeOnLane_spec G summonNet hwf (m + 1) .plain _ _
      (getLane_of_hasLane hwf.toIsPyGraph (i := ⟨if up then "a" else "b", if up then "b" else "c", (m : Int)⟩) rfl hl) 4 (some 0)
    refine ⟨ws ++ [v], ?_, by simp [h2], ?_⟩
    · rw [List.range_succ, List.foldlM_append, h1]
      simp only [bind, Except.bind, List.foldlM_cons, List.foldlM_nil]
      unfold Summon.addOther Rng.uniform01
      dsimp only
      rw [if_pos (hp m (by omega))]
      unfold Summon.addParked Rng.uniform01
      dsimp only
      have pick : (if 1 / 2 ≤ Int.fract (r.rng.reals (r.rng.rpos + 2 * m + 1)) then (⟨"a", "b", (m : Int)⟩ : LaneIndex) else ⟨"b", "c", (m : Int)⟩) =
          ⟨if up then "a" else "b", if up then "b" else "c", (m : Int)⟩ := by
        by_cases h : 1 / 2 ≤ Int.fract (r.rng.reals (r.rng.rpos + 2 * m + 1))
        · have : up = true := by rw [hup]; exact decide_eq_true h
          rw [if_pos h, this]; rfl
        · have : up = false := by rw [hup]; exact decide_eq_false h
          rw [if_neg h, this]; rfl
      rw [pick, hr, q1]
      simp only [bind, Except.bind, pure, Except.pure]
      congr 2
    · intro i w hw
      by_cases hi : i < m
      · rw [List.getElem?_append_left (by omega)] at hw
        exact h3 i w hw
      · have him : i = m := by
          have := (List.getElem?_eq_some_iff.1 hw).1
          simp at this; omega
        subst him
        rw [← h2, List.getElem?_concat_length] at hw
        cases hw
        exact ⟨q2, q4⟩

/-- **Defect**: with more cars than spots, the reset can raise `IndexError`. -/
theorem summon_reset_raises (G : Globals) (cfg : SummonConfig) (hc : ParkingOk cfg.base) (hn : 15 < cfg.vehiclesCount) :
    ∃ rng, Summon.reset G cfg rng = .error .indexError := by
  set rng : Rng := { ints := fun _ => 0, reals := fun _ => 1 / 2 } with hrng
  refine ⟨rng, ?_⟩
  obtain ⟨ego, o, rng1, _, e2, e3, _, _, e4⟩ := reset_match G cfg hc rng
  have hfract : Int.fract (1 / 2 : ℝ) = 1 / 2 := Int.fract_eq_self.2 ⟨by norm_num, by norm_num⟩
  have hreals : ∀ k, Int.fract (rng1.reals k) = 1 / 2 := by intro k; rw [e2]; exact hfract
  set r0 : Road := { Summon.makeRoad cfg rng with vehicles := [ego], objects := [o], rng := rng1 } with hr0
  have hnet : r0.network = summonNet := summon_network
  obtain ⟨ws, h1, _, _⟩ := all_parked G cfg r0 hnet ego rfl 15 le_rfl (by intro i _; rw [show r0.rng = rng1 from rfl, hreals]; norm_num)
  rw [e4]
  obtain ⟨d, hd⟩ : ∃ d, cfg.vehiclesCount = 15 + (1 + d) := ⟨cfg.vehiclesCount - 16, by omega⟩
  have hsplit : List.range cfg.vehiclesCount = List.range 15 ++ 15 :: (List.range d).map (fun k => 15 + (1 + k)) := by
    rw [hd, List.range_add, List.range_add, List.map_append, List.map_map]
    rfl
  rw [hsplit, List.foldlM_append, h1]
  simp only [bind, Except.bind, List.foldlM_cons]
  have herr : Summon.addOther G cfg { r0 with vehicles := ego :: ws, rng := { r0.rng with rpos := r0.rng.rpos + 2 * 15 } } 15 = .error .indexError := by
    unfold Summon.addOther Rng.uniform01
    dsimp only
    rw [if_pos (by rw [show r0.rng = rng1 from rfl, hreals]; norm_num)]
    unfold Summon.addParked Rng.uniform01
    dsimp only
    rw [if_pos (by rw [show r0.rng = rng1 from rfl, hreals]), hnet]
    have : summonNet.getLane ⟨"a", "b", ((15 : ℕ) : Int)⟩ = .error .indexError := by
      unfold getLane getLaneStep lanesOf summonNet
      simp [Dict.getItem, Dict.get?, LaneIndex.toStep, bind, Except.bind, pyIndex, side]
    unfold Vehicle.makeOnLane
    rw [this]
    rfl
  rw [herr]

private theorem removal_far (near : Vehicle → Bool) (as bs : List Vehicle) (h : ∀ v ∈ as, near v = false) :
    Intersection.removeWhileIterating near (as ++ bs) = as ++ Intersection.removeWhileIterating near bs := by
  induction as with
  | nil => rfl
  | cons a as ih =>
    rw [List.cons_append, List.cons_append, ← ih fun v hv => h v (List.mem_cons_of_mem _ hv)]
    have ha := h a List.mem_cons_self
    conv_lhs => unfold Intersection.removeWhileIterating
    rw [if_neg (by rw [ha]; simp)]

/-- **Defect**: with 15 cars, one of them can stand exactly at the position of the agent after the reset, although the reset means to remove the cars
closer than 20 m (removing a car makes the loop skip the next one). -/
theorem summon_on_top (G : Globals) (cfg : SummonConfig) (hc : ParkingOk cfg.base) (hn : cfg.vehiclesCount = 15) :
    ∃ rng e ego v, Summon.reset G cfg rng = .ok e ∧ ego ∈ e.road.vehicles ∧ v ∈ e.road.vehicles ∧ ego.uid = 0 ∧ v.uid ≠ 0 ∧ v.pos = ego.pos := by
  set rng : Rng := { ints := fun _ => 0, reals := fun n => if n = 22 then 1 / 4 else 1 / 2 } with hrng
  obtain ⟨ego, o, rng1, e1, e2, e3, _, _, e4⟩ := reset_match G cfg hc rng
  have hreals : ∀ k, Int.fract (rng1.reals k) = if k = 22 then 1 / 4 else 1 / 2 := by
    intro k; rw [e2, hrng]
    dsimp only
    split
    · exact Int.fract_eq_self.2 ⟨by norm_num, by norm_num⟩
    · exact Int.fract_eq_self.2 ⟨by norm_num, by norm_num⟩
  set r0 : Road := { Summon.makeRoad cfg rng with vehicles := [ego], objects := [o], rng := rng1 } with hr0
  have hnet : r0.network = summonNet := summon_network
  have hrg : r0.rng = rng1 := rfl
  obtain ⟨ws, h1, h2, h3⟩ := all_parked G cfg r0 hnet ego rfl 15 le_rfl (by intro i _; rw [hrg, hreals]; split <;> norm_num)
  have hrp : rng1.rpos = 1 := e3
  have hpos : ∀ (i : ℕ) (v : Vehicle), ws[i]? = some v → v.uid = i + 1 ∧ v.pos = ⟨spotX 15 i, if i = 10 then -16 else 16⟩ := by
    intro i v hv
    obtain ⟨q1, q2⟩ := h3 i v hv
    refine ⟨q1, ?_⟩
    rw [q2, hrg, hreals, hrp, (spot_geometry _ _ _ _ _ _ _).2.1]
    by_cases hi : i = 10
    · subst hi
      norm_num
    · rw [if_neg (by omega : ¬ (1 + 2 * i + 1 = 22)), if_neg hi]
      norm_num
  set near : Vehicle → Bool := fun w => decide (w.uid ≠ 0) && decide ((w.pos - ego.pos).norm < 20) with hnear
  have near_iff : ∀ (i : ℕ) (v : Vehicle), ws[i]? = some v → (near v = true ↔ 11 ≤ i) := by
    intro i v hv
    obtain ⟨q1, q2⟩ := hpos i v hv
    have hlt := (List.getElem?_eq_some_iff.1 hv).1
    rw [hnear]
    simp only [Bool.and_eq_true, decide_eq_true_eq]
    rw [q1, q2, e1.pos]
    have hx : spotX 15 i - 26 = 4 * (i : ℝ) - 56 := by unfold spotX; norm_num; ring
    unfold Vec2.norm
    simp only [Vec2.sub_x, Vec2.sub_y]
    rw [hx, Real.sqrt_lt' (by norm_num)]
    have hc : i ≤ 9 ∨ i = 10 ∨ 11 ≤ i := by omega
    rcases hc with h | h | h
    · rw [if_neg (by omega)]
      have : (i : ℝ) ≤ 9 := by exact_mod_cast h
      constructor
      · rintro ⟨_, h'⟩; nlinarith
      · intro; omega
    · subst h
      norm_num
    · rw [if_neg (by omega)]
      have h4 : (i : ℝ) ≤ 14 := by exact_mod_cast (by omega : i ≤ 14)
      have h5 : (11 : ℝ) ≤ i := by exact_mod_cast h
      refine ⟨fun _ => h, fun _ => ⟨by omega, by nlinarith⟩⟩
  rw [hn, h1] at e4
  have hsplit : ∃ a b c d, ws = ws.take 11 ++ [a, b, c, d] := by
    have hl : (ws.drop 11).length = 4 := by rw [List.length_drop, h2]
    obtain ⟨a, t, h⟩ : ∃ a t, ws.drop 11 = a :: t := by
      cases h : ws.drop 11 with
      | nil => rw [h] at hl; simp at hl
      | cons a t => exact ⟨a, t, rfl⟩
    rw [h, List.length_cons] at hl
    obtain ⟨b, c, d, rfl⟩ := List.length_eq_three.1 (by omega : t.length = 3)
    exact ⟨a, b, c, d, by rw [← h, List.take_append_drop]⟩
  obtain ⟨a, b, c, d, hws⟩ := hsplit
  have ht : (ws.take 11).length = 11 := by rw [List.length_take, h2]; norm_num
  have ga : ws[11]? = some a := by rw [hws, List.getElem?_append_right (by omega), ht]; rfl
  have gc : ws[13]? = some c := by rw [hws, List.getElem?_append_right (by omega), ht]; rfl
  have gd : ws[14]? = some d := by rw [hws, List.getElem?_append_right (by omega), ht]; rfl
  have hrem : Intersection.removeWhileIterating near (ego :: ws) = (ego :: ws.take 11) ++ [b, d] := by
    conv_lhs => rw [hws]
    rw [← List.cons_append, removal_far]
    · have na := (near_iff 11 a ga).2 (by norm_num)
      have nc := (near_iff 13 c gc).2 (by norm_num)
      simp [Intersection.removeWhileIterating, na, nc]
    · intro v hv
      rcases List.mem_cons.1 hv with rfl | hv
      · rw [hnear]; simp [e1.uid]
      · obtain ⟨i, hi⟩ := List.getElem?_of_mem hv
        have hlt := (List.getElem?_eq_some_iff.1 hi).1
        rw [ht] at hlt
        rw [List.getElem?_take, if_pos (by omega)] at hi
        rw [← Bool.not_eq_true, near_iff i v hi]
        omega
  refine ⟨rng, _, ego, d, e4, ?_, ?_, e1.uid, by rw [(hpos 14 d gd).1]; norm_num, ?_⟩
  · change ego ∈ Intersection.removeWhileIterating near (ego :: ws)
    rw [hrem]; simp
  · change d ∈ Intersection.removeWhileIterating near (ego :: ws)
    rw [hrem]; simp
  · rw [(hpos 14 d gd).2, e1.pos]
    unfold spotX
    norm_num

/-- **Defect**: two cars driving in the same alley can overlap at the start: their centres are one metre apart. -/
theorem summon_traffic_overlap (G : Globals) (cfg : SummonConfig) (hc : ParkingOk cfg.base) (hn : cfg.vehiclesCount = 2) :
    ∃ rng e v w, Summon.reset G cfg rng = .ok e ∧ v ∈ e.road.vehicles ∧ w ∈ e.road.vehicles ∧ v.uid ≠ w.uid ∧ v.heading = 0 ∧ w.heading = 0 ∧
      w.pos.x = v.pos.x + 1 ∧ w.pos.y = v.pos.y := by
  set rng : Rng := { ints := fun n => if n = 4 then 1 else 0, reals := fun _ => 4 / 5 } with hrng
  obtain ⟨ego, o, rng1, e1, e2, e3, i1, i2, e4⟩ := reset_match G cfg hc rng
  have hreals : ∀ k, Int.fract (rng1.reals k) = 4 / 5 := by
    intro k; rw [e2, hrng]
    exact Int.fract_eq_self.2 ⟨by norm_num, by norm_num⟩
  have hwf := summonNet_wf
  have hx : Summon.xRange 15 = 32 := by unfold Summon.xRange; norm_num
  have hl : HasLane summonNet "d" "e" 0 (alleyLane 32 (4 * ((0 : ℕ) : ℝ) - 8)) := summonNet_lanes.2 (.inr ⟨by norm_num, rfl, rfl, rfl⟩)
  have hg := getLane_of_hasLane hwf.toIsPyGraph (i := ⟨"d", "e", ((0 : ℕ) : Int)⟩) rfl hl
  have hrp : rng1 = { ints := fun n => if n = 4 then 1 else 0, reals := rng1.reals, ipos := 1, rpos := rng1.rpos } := by
    have h1 : rng1.ints = fun n => if n = 4 then 1 else 0 := i1
    have h2 : rng1.ipos = 1 := i2
    rw [← h1, ← h2]
  set r0 : Road := { Summon.makeRoad cfg rng with vehicles := [ego], objects := [o], rng := rng1 } with hr0
  have hnet : r0.network = summonNet := summon_network
  obtain ⟨v, v1, v2, _, v4, v5, _⟩ := makeOnLane_spec G summonNet hwf 1 cfg.otherVehiclesType _ _ hg 4 (some 2)
  obtain ⟨w, w1, w2, _, w4, w5, _⟩ := makeOnLane_spec G summonNet hwf 2 cfg.otherVehiclesType _ _ hg 5 (some 2)
  have a1 : Summon.addOther G cfg r0 0 = .ok { r0 with vehicles := [ego, v], rng := { rng1 with ipos := 3, rpos := rng1.rpos + 1 } } := by
    unfold Summon.addOther Rng.uniform01
    dsimp only
    rw [if_neg (by rw [show r0.rng = rng1 from rfl, hreals]; norm_num)]
    unfold Summon.addMoving Rng.randint
    have h1 : rng1.ints = fun n => if n = 4 then 1 else 0 := i1
    have h2 : rng1.ipos = 1 := i2
    simp only [bind, Except.bind, if_neg (by norm_num : ¬ (5 : ℕ) = 0), if_neg (by norm_num : ¬ (2 : ℕ) = 0), show r0.rng = rng1 from rfl, h1, h2]
    have hs : ((0 : ℕ) : ℝ) * 5 - Summon.xRange 15 / 8 * ((((if (1 + 1 : ℕ) = 4 then 1 else 0 : ℕ) % 2 : ℕ) : Int) - 1 : Int) = 4 := by rw [hx]; norm_num
    rw [hs, hnet]
    have hk : (if (1 : ℕ) = 4 then 1 else 0) % 5 = 0 := by norm_num
    rw [hk, v1]
    rfl
  have a2 : Summon.addOther G cfg { r0 with vehicles := [ego, v], rng := { rng1 with ipos := 3, rpos := rng1.rpos + 1 } } 1 =
      .ok { r0 with vehicles := [ego, v, w], rng := { rng1 with ipos := 5, rpos := rng1.rpos + 2 } } := by
    unfold Summon.addOther Rng.uniform01
    dsimp only
    rw [if_neg (by rw [hreals]; norm_num)]
    unfold Summon.addMoving Rng.randint
    have h1 : rng1.ints = fun n => if n = 4 then 1 else 0 := i1
    simp only [bind, Except.bind, if_neg (by norm_num : ¬ (5 : ℕ) = 0), if_neg (by norm_num : ¬ (2 : ℕ) = 0), h1]
    have hs : ((1 : ℕ) : ℝ) * 5 - Summon.xRange 15 / 8 * ((((if True then 1 else 0 : ℕ) % 2 : ℕ) : Int) - 1 : Int) = 5 := by rw [hx]; norm_num
    rw [hs, hnet]
    have hk : (if (3 : ℕ) = 4 then 1 else 0) % 5 = 0 := by norm_num
    rw [hk, w1]
    rfl
  have hfold : (List.range 2).foldlM (Summon.addOther G cfg) r0 =
      .ok { r0 with vehicles := [ego, v, w], rng := { rng1 with ipos := 5, rpos := rng1.rpos + 2 } } := by
    rw [show List.range 2 = [0, 1] from rfl, List.foldlM_cons, a1]
    simp only [bind, Except.bind, List.foldlM_cons, List.foldlM_nil]
    rw [a2]
    rfl
  rw [hn, hfold] at e4
  obtain ⟨_, s2⟩ := removal_only_near (fun w => decide (w.uid ≠ 0) && decide ((w.pos - ego.pos).norm < 20)) [ego, v, w]
  have hvp : v.pos = ⟨-28, -8⟩ := by rw [v4, (alley_geometry 0 4).1]; norm_num
  have hwp : w.pos = ⟨-27, -8⟩ := by rw [w4, (alley_geometry 0 5).1]; norm_num
  have far : ∀ x : ℝ, x ≤ 0 → ¬ (((⟨x, -8⟩ : Vec2) - ⟨26, 16⟩).norm < 20) := by
    intro x hx
    unfold Vec2.norm
    simp only [Vec2.sub_x, Vec2.sub_y]
    rw [Real.sqrt_lt' (by norm_num)]
    nlinarith
  refine ⟨rng, _, v, w, e4, s2 v (by simp) ?_, s2 w (by simp) ?_, by rw [v2, w2]; norm_num, v5.trans (alley_geometry _ _).2, w5.trans (alley_geometry _ _).2, ?_, ?_⟩
  · rw [hvp, e1.pos]; simp [far (-28) (by norm_num)]
  · rw [hwp, e1.pos]; simp [far (-27) (by norm_num)]
  · rw [hvp, hwp]; norm_num
  · rw [hvp, hwp]

end HighwayEnv.Props
