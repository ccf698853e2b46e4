import Verif.Lemmas.Turned
import Verif.Props.Quarter
import Verif.Props.Highway
import Verif.Props.TwoWay
import Verif.Props.Observation
import Verif.Props.History
import Verif.Model.Envs.Merge
import Verif.Model.Envs.Roundabout

/-!
# C119, continued — episodes and observations in a world turned by 90°
-/

noncomputable section
open Classical
namespace HighwayEnv.Props
open HighwayEnv Spec

/-- **C119.** One decision in the turned world, on a road without circles, for a class that depends on no absolute direction: the same reward,
termination flag, speed, crash flag and cost, and the resulting state turned. -/
theorem turned_decision (G : Globals) (c : SimConfig) (cls : EnvClass) (hc : DirectionFree cls) (e e' : Env) (a : Option AgentAction)
    (res : StepResult) (hw : WithoutCircles e.road) (h : e.step G c cls a = .ok (e', res)) :
    e.quarter.step G c cls a = .ok (e'.quarter, res) ∧ WithoutCircles e'.road := by
  obtain ⟨h1, e1, h2, h3⟩ := Env.step_q open_place hc ((withoutCircles_iff _).1 hw) (fun _ _ _ _ _ _ _ _ => trivial) h
  exact ⟨h1, hc.keeps _ _ ((withoutCircles_iff _).2 h2) h3⟩

/-- **C119.** One decision in the turned world, on any road, provided that everything has a place along the lanes after each frame of the decision. -/
theorem turned_decision_placed (G : Globals) (c : SimConfig) (cls : EnvClass) (hc : DirectionFree cls) (e e' : Env) (a : Option AgentAction)
    (res : StepResult) (hp : PlacedAlong G c cls e a) (h : e.step G c cls a = .ok (e', res)) : e.quarter.step G c cls a = .ok (e'.quarter, res) := by
  by_cases hk : ∃ k, Env.framesPerStep c = .ok k
  · obtain ⟨k, hk⟩ := hk
    refine (Env.step_q (P := {p | ∀ l, LaneOf e.road l → HasPlace l p}) (L := {l | LaneOf e.road l}) (fun l hl p hpp => hpp l hl) hc
      ⟨fun nd hnd ml hml l hl => .inl ⟨nd, hnd, ml, hml, hl⟩, fun v hv => ⟨fun l hl => ?_, .inr ⟨v, hv, rfl⟩⟩, fun o ho l hl => ?_⟩
      (fun k' hk' n hn s hs v hv l hl => hp k' hk' n hn s hs l _ hl (.inl ⟨v, hv, rfl⟩)) h).1
    · exact hp k hk 0 (Nat.zero_le _) _ rfl l _ hl (.inl ⟨v, hv, rfl⟩)
    · exact hp k hk 0 (Nat.zero_le _) _ rfl l _ hl (.inr ⟨o, ho, rfl⟩)
  · unfold Env.step at h
    by_cases hne : e.controlled = []
    · rw [if_pos hne] at h; cases h
    rw [if_neg hne] at h
    obtain ⟨e1, h1, -⟩ := bind_ok h
    unfold Env.simulate at h1
    obtain ⟨k, h2, -⟩ := bind_ok h1
    exact absurd ⟨k, h2⟩ hk

/-- One frame of an environment: every vehicle comes from one of the same class, which moved by its speed times the duration of the frame; lanes
and objects stay where they are. -/
theorem env_frame_moves (G : Globals) (c : SimConfig) (k : Int) (a : Option AgentAction) (e e' : Env) (h : e.frame G c k a = .ok e') :
    (∀ w ∈ e'.road.vehicles, ∃ v ∈ e.road.vehicles, w.kind = v.kind ∧
      (v.kind ≠ .bicycle → (w.pos - v.pos).norm = |v.speed| * |1 / c.simulationFrequency|)) ∧
    ∀ o ∈ e'.road.objects, ∃ o0 ∈ e.road.objects, o0.pos = o.pos := by
  unfold Env.frame at h
  obtain ⟨e1, h1, h⟩ := bind_ok h
  obtain ⟨s2, h2, h⟩ := bind_ok h
  obtain ⟨r', h3, h⟩ := bind_ok h
  cases h
  have b1 : Pointwise SameBody e.road.vehicles e1.road.vehicles ∧ Road.SameScene e.road e1.road := by
    unfold Env.forward at h1
    cases a with
    | none => cases h1; exact ⟨.refl' SameBody.refl _, ⟨rfl, rfl, rfl, rfl, rfl⟩⟩
    | some a =>
      dsimp only at h1
      by_cases hc : c.manualControl = false ∧ (e.time : Int) % k = 0
      · rw [if_pos hc] at h1
        obtain ⟨r, hr, h1⟩ := bind_ok h1
        cases h1
        exact History.envAct_body hr
      · rw [if_neg hc] at h1; cases h1; exact ⟨.refl' SameBody.refl _, ⟨rfl, rfl, rfl, rfl, rfl⟩⟩
  have b2 := Road.act_frame h2
  have hb : Pointwise SameBody e.road.vehicles s2.vehicles := Pointwise.comp (R := SameBody) SameBody.trans b1.1 b2.1
  have hs := b1.2.trans b2.2
  obtain ⟨f1, -, -, -, -, f2⟩ := Road.step_frame h3
  constructor
  · intro w hw
    obtain ⟨i, hi⟩ := List.getElem?_of_mem hw
    have hlt2 : i < s2.vehicles.length := by
      rw [← f1.1]; exact (List.getElem?_eq_some_iff.1 hi).1
    have hlt : i < e.road.vehicles.length := by rw [← hb.1]; exact hlt2
    obtain ⟨u, hu, hbody⟩ := hb.2 i _ (List.getElem?_eq_getElem hlt)
    obtain ⟨w', hw', y, hy, x, hx, b, cc, rfl, -⟩ := f1.2 i u hu
    rw [hi] at hw'
    cases hw'
    have hv := List.getElem_mem hlt
    generalize e.road.vehicles[i] = v at hv hbody
    have hy' := SameBody.trans hbody hy.body
    have hkind : x.kind = v.kind := by
      obtain ⟨j, l, hist, -, -, rfl⟩ := Vehicle.step_ok hx
      exact Eq.trans (Vehicle.move_mind y _).kind hy'.kind
    refine ⟨v, hv, hkind, fun hk => ?_⟩
    obtain ⟨β, -, -, -, -, hd, -⟩ := step_displacement _ _ _ _ _ (by rw [hy'.kind]; exact hk) hx
    rw [← hy'.speed, ← hd, hy'.pos]
    rfl
  · have key : ∀ os os' : List RoadObject, List.Forall₂ Road.Marked os os' → ∀ o ∈ os', ∃ o0 ∈ os, o0.pos = o.pos := by
      intro os os' hf
      induction hf with
      | nil => exact fun o ho => by cases ho
      | cons hm _ ih =>
        intro o ho
        rcases List.mem_cons.1 ho with rfl | ho
        · obtain ⟨b, rfl, -⟩ := hm
          exact ⟨_, .head _, rfl⟩
        · obtain ⟨o0, h0, e⟩ := ih o ho
          exact ⟨o0, .tail _ h0, e⟩
    rw [← hs.objects]
    exact key _ _ f2

/-- During a decision in which no vehicle exceeds `V`, every vehicle stays within `n V dt` of where it was `n` frames earlier. -/
theorem decision_moves (G : Globals) (c : SimConfig) (cls : EnvClass) (k : Int) (a : Option AgentAction) (V : ℝ) (n : ℕ) (e s : Env)
    (hk : ∀ v ∈ e.road.vehicles, v.kind ≠ .bicycle)
    (hV : ∀ m < n, ∀ s, Env.simulateLoop G c cls k a m e = .ok s → ∀ v ∈ s.road.vehicles, |v.speed| ≤ V)
    (h : Env.simulateLoop G c cls k a n e = .ok s) :
    (∀ w ∈ s.road.vehicles, ∃ v ∈ e.road.vehicles, (w.pos - v.pos).norm ≤ n * (V * |1 / c.simulationFrequency|)) ∧
    ∀ o ∈ s.road.objects, ∃ o0 ∈ e.road.objects, o0.pos = o.pos := by
  induction n generalizing e with
  | zero =>
    cases h
    refine ⟨fun w hw => ⟨w, hw, ?_⟩, fun o ho => ⟨o, ho, rfl⟩⟩
    simp [Vec2.norm]
  | succ n ih =>
    unfold Env.simulateLoop at h
    obtain ⟨e1, h1, h⟩ := bind_ok h
    obtain ⟨b, h2, h⟩ := bind_ok h
    obtain ⟨m1, m2⟩ := env_frame_moves G c k a e e1 h1
    have hd : (0 : ℝ) ≤ |1 / c.simulationFrequency| := abs_nonneg _
    have hV0 : ∀ v ∈ e.road.vehicles, |v.speed| ≤ V := hV 0 (by omega) e rfl
    cases b
    · have hk1 : ∀ v ∈ e1.road.vehicles, v.kind ≠ .bicycle := fun w hw => by
        obtain ⟨v, hv, e, -⟩ := m1 w hw
        rw [e]; exact hk v hv
      obtain ⟨i1, i2⟩ := ih e1 hk1 (fun m hm s' hs' => hV (m + 1) (by omega) s' (by
        unfold Env.simulateLoop
        rw [h1]
        simp only [bind, Except.bind, h2]
        exact hs')) h
      refine ⟨fun w hw => ?_, fun o ho => ?_⟩
      · obtain ⟨u, hu, hwu⟩ := i1 w hw
        obtain ⟨v, hv, -, huv⟩ := m1 u hu
        refine ⟨v, hv, ?_⟩
        have e2 : w.pos - v.pos = (w.pos - u.pos) + (u.pos - v.pos) := by ext <;> simp
        have h4 := Vec2.norm_add_le (w.pos - u.pos) (u.pos - v.pos)
        rw [← e2, huv (hk v hv)] at h4
        have h5 := mul_le_mul_of_nonneg_right (hV0 v hv) hd
        push_cast
        linarith
      · obtain ⟨o1, ho1, p1⟩ := i2 o ho
        obtain ⟨o0, ho0, p0⟩ := m2 o1 ho1
        exact ⟨o0, ho0, p0.trans p1⟩
    · cases h
      refine ⟨fun w hw => ?_, m2⟩
      obtain ⟨v, hv, -, huv⟩ := m1 w hw
      refine ⟨v, hv, ?_⟩
      rw [huv (hk v hv)]
      have h5 := mul_le_mul_of_nonneg_right (hV0 v hv) hd
      have h6 : 0 ≤ V * |1 / c.simulationFrequency| := mul_nonneg ((abs_nonneg _).trans (hV0 v hv)) hd
      push_cast
      nlinarith [Nat.cast_nonneg (α := ℝ) n]

/-- **C119, a sufficient condition.** If no vehicle is a bicycle or exceeds the speed `V` during a decision of `k` frames, and every vehicle is further from
the centre of each circular lane than `k V dt` at its beginning, then everything has a place along the lanes all along. -/
theorem placedAlong_far (G : Globals) (c : SimConfig) (cls : EnvClass) (e : Env) (a : Option AgentAction) (V : ℝ) (hp : Placeable e.road)
    (hk : ∀ v ∈ e.road.vehicles, v.kind ≠ .bicycle)
    (hV : ∀ k, Env.framesPerStep c = .ok k → ∀ n < k.toNat, ∀ s, Env.simulateLoop G c cls k a n { e with steps := e.steps + 1 } = .ok s →
      ∀ v ∈ s.road.vehicles, |v.speed| ≤ V)
    (hfar : ∀ k, Env.framesPerStep c = .ok k → ∀ l cc rad p0 p1 cw, LaneOf e.road l → l.shape = .circular cc rad p0 p1 cw →
      ∀ v ∈ e.road.vehicles, k.toNat * (V * |1 / c.simulationFrequency|) < (v.pos - cc).norm) :
    PlacedAlong G c cls e a := by
  intro k hk1 n hn s hs l p hl hpp
  obtain ⟨m1, m2⟩ := decision_moves G c cls k a V n { e with steps := e.steps + 1 } s hk (fun m hm => hV k hk1 m (by omega)) hs
  rcases hpp with ⟨w, hw, rfl⟩ | ⟨o, ho, rfl⟩
  · obtain ⟨v, hv, hd⟩ := m1 w hw
    have hpv := hp l v.pos hl (.inl ⟨v, hv, rfl⟩)
    unfold HasPlace at hpv ⊢
    cases hsh : l.shape with
    | straight a b => rw [hsh] at hpv; exact hpv
    | sine a b amp ww ph => rw [hsh] at hpv; exact hpv
    | circular cc rad p0 p1 cw =>
      dsimp only
      intro he
      have h1 := hfar k hk1 l cc rad p0 p1 cw hl hsh v hv
      rw [he, Vec2.norm_sub_comm] at hd
      have hz : (v.pos - cc).norm ≤ k.toNat * (V * |1 / c.simulationFrequency|) := by
        refine hd.trans ?_
        by_cases hn0 : n = 0
        · subst hn0
          by_cases hk0 : k.toNat = 0
          · rw [hk0]
          · have : |v.speed| ≤ V := hV k hk1 0 (by omega) _ rfl v hv
            have h0 : 0 ≤ V * |1 / c.simulationFrequency| := mul_nonneg ((abs_nonneg _).trans this) (abs_nonneg _)
            exact mul_le_mul_of_nonneg_right (by exact_mod_cast hn) h0
        · have : |v.speed| ≤ V := hV k hk1 0 (by omega) _ rfl v hv
          have h0 : 0 ≤ V * |1 / c.simulationFrequency| := mul_nonneg ((abs_nonneg _).trans this) (abs_nonneg _)
          exact mul_le_mul_of_nonneg_right (by exact_mod_cast hn) h0
      linarith
  · obtain ⟨o0, ho0, e0⟩ := m2 o ho
    rw [← e0]
    exact hp l _ hl (.inr ⟨o0, ho0, rfl⟩)

/-- **C119.** A whole episode in the turned world: the same actions give the same list of results. -/
theorem turned_episode (G : Globals) (c : SimConfig) (cls : EnvClass) (hc : DirectionFree cls) (e e' : Env) (as : List AgentAction)
    (rs : List StepResult) (hw : WithoutCircles e.road) (h : Episode G c cls e as rs e') : Episode G c cls e.quarter as rs e'.quarter := by
  have key : Episode G c cls e.quarter as rs e'.quarter ∧ WithoutCircles e'.road := by
    induction h with
    | start => exact ⟨.start, hw⟩
    | step _ hs ih =>
      obtain ⟨h1, h2⟩ := turned_decision G c cls hc _ _ _ _ ih.2 hs
      exact ⟨.step ih.1 h1, h2⟩
  exact key.1

/-- **C119.** A whole episode in the turned world, on any road, provided that everything has a place along the lanes all along its decisions. -/
theorem turned_episode_placed (G : Globals) (c : SimConfig) (cls : EnvClass) (hc : DirectionFree cls) (e e' : Env) (as : List AgentAction)
    (rs : List StepResult) (h : Episode G c cls e as rs e')
    (hp : ∀ as1 a rs1 e1, as1 ++ [a] <+: as → Episode G c cls e as1 rs1 e1 → PlacedAlong G c cls e1 (some a)) :
    Episode G c cls e.quarter as rs e'.quarter := by
  induction h with
  | start => exact .start
  | @step as1 rs1 e1 e2 a res h1 hs ih =>
    refine .step (ih fun as2 a2 rs2 e3 h2 h3 => hp as2 a2 rs2 e3 (h2.trans (List.prefix_append _ _)) h3) ?_
    exact turned_decision_placed G c cls hc _ _ _ _ (hp as1 a rs1 e1 (List.prefix_refl _) h1) hs

private theorem onRoad_same {e : Env} {v : Vehicle} (hw : Placeable e.road) (hv : e.vehicle = .ok v) : v.quarter.onRoad = v.onRoad :=
  Vehicle.onRoad_q (hw _ _ (.inr ⟨v, Env.vehicle_mem hv, rfl⟩) (.inl ⟨v, Env.vehicle_mem hv, rfl⟩))

/-- **C119.** The highway environment depends on no absolute direction. -/
theorem highway_directionFree (cfg : HighwayConfig) : DirectionFree (Highway.cls cfg) where
  terminal e hw := by
    show Highway.terminal cfg _ = Highway.terminal cfg e
    unfold Highway.terminal
    rw [Env.vehicle_q]
    cases hv : e.vehicle with
    | error x => rfl
    | ok v => simp only [Except.map, bind, Except.bind, onRoad_same hw hv]; rfl
  reward e a hw := by
    show Highway.reward cfg _ = Highway.reward cfg e
    unfold Highway.reward
    rw [Env.vehicle_q]
    cases hv : e.vehicle with
    | error x => rfl
    | ok v => simp only [Except.map, bind, Except.bind, onRoad_same hw hv, Env.road_q, Road.network_q, Graph.allSideLanes_q]; rfl
  cost e _ := by
    show Highway.cost _ = Highway.cost e
    unfold Highway.cost
    rw [Env.vehicle_q]
    cases e.vehicle <;> rfl
  after e _ := rfl
  keeps e e' hw h := by cases h; exact hw

/-- **C119.** Neither does the two-way environment. -/
theorem twoway_directionFree (G : Globals) : DirectionFree (TwoWay.cls G) where
  terminal e _ := by
    show TwoWay.terminal _ = TwoWay.terminal e
    unfold TwoWay.terminal
    rw [Env.vehicle_q]
    cases e.vehicle <;> rfl
  reward e a _ := by
    show TwoWay.reward G _ = TwoWay.reward G e
    unfold TwoWay.reward
    rw [Env.vehicle_q]
    cases e.vehicle with
    | error x => rfl
    | ok v => simp only [Except.map, bind, Except.bind, Env.road_q, Road.network_q, Graph.allSideLanes_q]; rfl
  cost e _ := by
    show TwoWay.cost _ = TwoWay.cost e
    unfold TwoWay.cost
    rw [Env.vehicle_q]
    cases e.vehicle <;> rfl
  after e _ := rfl
  keeps e e' hw h := by cases h; exact hw

/-- **C119.** Neither does the roundabout environment. -/
theorem roundabout_directionFree (G : Globals) (cfg : RoundaboutConfig) : DirectionFree (Roundabout.cls G cfg) where
  terminal e _ := by
    show Roundabout.terminal cfg _ = Roundabout.terminal cfg e
    unfold Roundabout.terminal
    rw [Env.vehicle_q]
    cases e.vehicle <;> rfl
  reward e a _ := by
    show Roundabout.reward G _ a = Roundabout.reward G e a
    unfold Roundabout.reward
    rw [Env.vehicle_q]
    cases Roundabout.laneChange a with
    | error x => rfl
    | ok b => cases e.vehicle <;> rfl
  cost e _ := rfl
  after e _ := rfl
  keeps e e' hw h := by cases h; exact hw

/-- A healthy road whose network has no circles: neither are there circles recorded by its vehicles. -/
theorem withoutCircles_of_network (r : Road) (h : Healthy r)
    (hl : ∀ nd ∈ r.network, ∀ ml ∈ nd.2, ∀ l ∈ ml.2, ∃ a b : Vec2, a ≠ b ∧ (l.shape = .straight a b ∨ ∃ amp w ph, l.shape = .sine a b amp w ph)) :
    WithoutCircles r := by
  have hg : r.network.LanesIn Open := fun nd hnd ml hml l hl' => (open_iff l).2 (hl nd hnd ml hml l hl')
  rintro l (⟨nd, hnd, ml, hml, hl'⟩ | ⟨v, hv, rfl⟩)
  · exact hl nd hnd ml hml l hl'
  · exact (open_iff _).1 (Graph.getLane_in hg (h.attached v hv).1.lane)

/-- **C119.** Any episode of the highway environment, after any reset: with the whole world turned by 90°, the same actions give the same
results. -/
theorem highway_turned (G : Globals) (cfg : HighwayConfig) (hc : HighwayOk cfg) (rng : Rng) (e e' : Env) (as : List AgentAction)
    (rs : List StepResult) (h0 : Highway.reset G cfg rng = .ok e) (h : Episode G cfg.sim (Highway.cls cfg) e as rs e') :
    Episode G cfg.sim (Highway.cls cfg) e.quarter as rs e'.quarter := by
  obtain ⟨e1, h1, h2, h3, -⟩ := highway_reset G cfg hc rng
  rw [h1] at h0
  cases h0
  refine turned_episode G _ _ (highway_directionFree cfg) _ _ _ _ (withoutCircles_of_network _ h2.healthy ?_) h
  rw [h3]
  intro nd hnd ml hml l hl
  unfold straightNet at hnd
  rcases List.mem_singleton.1 hnd with rfl
  rcases List.mem_singleton.1 hml with rfl
  obtain ⟨k, -, rfl⟩ := List.mem_map.1 hl
  refine ⟨_, _, fun he => ?_, .inl rfl⟩
  have := congrArg Vec2.x he
  norm_num at this

/-- **C119.** Any episode of the two-way environment, after any reset: with the whole world turned by 90°, the same actions give the same
results. -/
theorem twoway_turned (G : Globals) (cfg : TwoWayConfig) (hc : TwoWayOk G cfg) (rng : Rng) (e e' : Env) (as : List AgentAction)
    (rs : List StepResult) (h0 : TwoWay.reset G cfg rng = .ok e) (h : Episode G cfg.sim (TwoWay.cls G) e as rs e') :
    Episode G cfg.sim (TwoWay.cls G) e.quarter as rs e'.quarter := by
  obtain ⟨e1, v0, v1, v2, v3, v4, v5, h1, h2, h3, -⟩ := twoWay_reset G cfg hc rng
  rw [h1] at h0
  cases h0
  refine turned_episode G _ _ (twoway_directionFree G) _ _ _ _ (withoutCircles_of_network _ h2.healthy ?_) h
  rw [h3.network]
  have hl : ∀ (a b : Vec2), a.x ≠ b.x → a ≠ b := fun a b hab he => hab (congrArg Vec2.x he)
  intro nd hnd ml hml l hl'
  unfold twoWayNet at hnd
  simp only [List.mem_cons, List.not_mem_nil, or_false] at hnd
  rcases hnd with rfl | rfl
  · rcases List.mem_singleton.1 hml with rfl
    simp only [List.mem_cons, List.not_mem_nil, or_false] at hl'
    rcases hl' with rfl | rfl <;> exact ⟨_, _, hl _ _ (by norm_num), .inl rfl⟩
  · rcases List.mem_singleton.1 hml with rfl
    rcases List.mem_singleton.1 hl' with rfl
    exact ⟨_, _, hl _ _ (by norm_num), .inl rfl⟩

/-- **C119.** The description of a vehicle by `to_dict`, absolute or relative to another vehicle, with or without intentions, in the turned world:
positions, velocities and directions are turned, the heading is 90° further, everything else is the same; and the same exceptions are raised. -/
theorem turned_description (g : Graph) (v : Vehicle) (o : Option Vehicle) (b : Bool) :
    v.quarter.toDict g.quarter (o.map Vehicle.quarter) b = (v.toDict g o b).map turnFeatures :=
  Vehicle.toDict_q g v o b

/-- **C119.** On a road without circles the observed vehicles and their order are the same in the turned world. -/
theorem turned_close (r : Road) (v : Vehicle) (hw : WithoutCircles r) (hv : v ∈ r.vehicles) (d : ℝ) (count : Option Int) (seeBehind : Bool) :
    r.quarter.closeVehiclesTo v.quarter d count seeBehind = (r.closeVehiclesTo v d count seeBehind).map Vehicle.quarter :=
  Road.closeVehiclesTo_q open_place ((withoutCircles_iff r).1 hw) (((withoutCircles_iff r).1 hw).vehicles v hv) d count seeBehind

/-- **C119.** On a road without circles the time-to-collision observation is the same in the turned world, the exceptions too. -/
theorem turned_ttc (G : Globals) (r : Road) (i : LaneIndex) (v : Vehicle) (hw : WithoutCircles r) (hv : v ∈ r.vehicles) (horizon pf : ℝ) :
    ttcObserve G r.quarter i v.quarter horizon pf = ttcObserve G r i v horizon pf := by
  have h := fun q => Road.computeTtcGrid_q open_place G ((withoutCircles_iff r).1 hw) i (((withoutCircles_iff r).1 hw).vehicles v hv) q horizon
  unfold ttcObserve
  simp only [h, Vehicle.speedIndex_q]
  rfl

/-- **C119.** And so is the finite Markov decision process. -/
theorem turned_mdp (G : Globals) (r : Road) (v : Vehicle) (w : MdpWeights) (hw : WithoutCircles r) (hv : v ∈ r.vehicles) (q horizon : ℝ) :
    finiteMdp G r.quarter v.quarter w q horizon = finiteMdp G r v w q horizon := by
  have h := fun i => Road.computeTtcGrid_q open_place G ((withoutCircles_iff r).1 hw) i (((withoutCircles_iff r).1 hw).vehicles v hv) q horizon
  unfold finiteMdp
  have hi : v.quarter.laneIndex = v.laneIndex := rfl
  simp only [hi, h, Vehicle.speedIndex_q]

theorem selectDefault_q (d : Dict String ℝ) (row : List ℝ) (h : selectFeatures ["presence", "x", "y", "vx", "vy"] d = .ok row) :
    selectFeatures ["presence", "x", "y", "vx", "vy"] (turnFeatures d) = .ok (turnRow row) := by
  have hd : ∀ f, Dict.get? (turnFeatures d) f = (Dict.get? d f).map fun x =>
      if f = "x" then -(Dict.get? d "y").getD 0 else if f = "y" then (Dict.get? d "x").getD 0
      else if f = "vx" then -(Dict.get? d "vy").getD 0 else if f = "vy" then (Dict.get? d "vx").getD 0
      else if f = "cos_h" then -(Dict.get? d "sin_h").getD 0 else if f = "sin_h" then (Dict.get? d "cos_h").getD 0
      else if f = "cos_d" then -(Dict.get? d "sin_d").getD 0 else if f = "sin_d" then (Dict.get? d "cos_d").getD 0
      else if f = "heading" then x + Real.pi / 2 else x := by
    intro f
    unfold turnFeatures
    dsimp only
    generalize (Dict.get? d "y").getD 0 = a1
    generalize (Dict.get? d "x").getD 0 = a2
    generalize (Dict.get? d "vy").getD 0 = a3
    generalize (Dict.get? d "vx").getD 0 = a4
    generalize (Dict.get? d "sin_h").getD 0 = a5
    generalize (Dict.get? d "cos_h").getD 0 = a6
    generalize (Dict.get? d "sin_d").getD 0 = a7
    generalize (Dict.get? d "cos_d").getD 0 = a8
    clear h
    induction d with
    | nil => rfl
    | cons kv d ih =>
      simp only [List.map_cons, Dict.get?]
      by_cases hk : kv.1 = f
      · rw [if_pos hk, if_pos hk, hk]; rfl
      · rw [if_neg hk, if_neg hk]; exact ih
  unfold selectFeatures at h ⊢
  simp only [List.mapM_cons, List.mapM_nil, Dict.getItem, hd] at h ⊢
  cases h1 : Dict.get? d "presence" with
  | none => rw [h1] at h; cases h
  | some x1 =>
    cases h2 : Dict.get? d "x" with
    | none => rw [h1, h2] at h; cases h
    | some x2 =>
      cases h3 : Dict.get? d "y" with
      | none => rw [h1, h2, h3] at h; cases h
      | some x3 =>
        cases h4 : Dict.get? d "vx" with
        | none => rw [h1, h2, h3, h4] at h; cases h
        | some x4 =>
          cases h5 : Dict.get? d "vy" with
          | none => rw [h1, h2, h3, h4, h5] at h; cases h
          | some x5 =>
            rw [h1, h2, h3, h4, h5] at h
            cases h
            rfl

/-- **C119.** The kinematics observation with the features `presence, x, y, vx, vy`, not normalised and not shuffled, absolute or relative, in the
turned world of a road without circles: the same rows in the same order, with positions and velocities turned. -/
theorem turned_observation (G : Globals) (r : Road) (ego : Vehicle) (cfg cfg' : KinematicsConfig) (rows : List (List ℝ)) (rng : Rng)
    (hw : WithoutCircles r) (hv : ego ∈ r.vehicles) (hf : cfg.features = ["presence", "x", "y", "vx", "vy"]) (hn : cfg.normalize = false)
    (hs : cfg.shuffled = false) (h : Kinematics.observe G r ego cfg = .ok (rows, cfg', rng)) :
    Kinematics.observe G r.quarter ego.quarter cfg = .ok (rows.map turnRow, cfg', rng) := by
  unfold Kinematics.observe at h ⊢
  obtain ⟨d, h1, h⟩ := bind_ok h
  obtain ⟨first, h2, h⟩ := bind_ok h
  obtain ⟨others, h3, h⟩ := bind_ok h
  have e1 : ego.quarter.toDict r.quarter.network = .ok (turnFeatures d) := by
    have := turned_description r.network ego none true
    rw [h1] at this
    exact this
  have e2 : selectFeatures cfg.features (turnFeatures d) = .ok (turnRow first) := by
    rw [hf] at h2 ⊢
    exact selectDefault_q d first h2
  have e3 : Kinematics.traffic r.quarter ego.quarter cfg = .ok (others.map turnRow) := by
    unfold Kinematics.traffic at h3 ⊢
    dsimp only at h3 ⊢
    rw [turned_close r ego hw hv]
    have hsl : ∀ (l : List Vehicle) (k : Int), sliceFrom (l.map Vehicle.quarter) k = (sliceFrom l k).map Vehicle.quarter := by
      intro l k
      unfold sliceFrom
      rw [apply_ite (List.map Vehicle.quarter)]
      simp only [List.length_map, List.map_drop]
    have ho : (if cfg.absolute = true then none else some ego.quarter) = (if cfg.absolute = true then none else some ego).map Vehicle.quarter := by
      by_cases ha : cfg.absolute = true
      · rw [if_pos ha, if_pos ha]; rfl
      · rw [if_neg ha, if_neg ha]; rfl
    rw [hsl, ho]
    revert h3
    generalize sliceFrom _ _ = l
    generalize (if cfg.absolute = true then none else some ego) = o
    intro h3
    clear h
    induction l generalizing others with
    | nil => cases h3; rfl
    | cons w l ih =>
      rw [List.mapM_cons] at h3
      obtain ⟨row, g1, h3⟩ := bind_ok h3
      obtain ⟨rest, g2, h3⟩ := bind_ok h3
      cases h3
      obtain ⟨d', g3, g4⟩ := bind_ok g1
      have e := turned_description r.network w o cfg.observeIntentions
      rw [g3] at e
      have e' : selectFeatures cfg.features (turnFeatures d') = .ok (turnRow row) := by
        rw [hf] at g4 ⊢
        exact selectDefault_q d' row g4
      rw [List.map_cons, List.mapM_cons, ih rest g2]
      show (do let y ← (do let d ← w.quarter.toDict r.network.quarter (o.map Vehicle.quarter) cfg.observeIntentions
                           selectFeatures cfg.features d)
               _) = _
      rw [e]
      simp only [Except.map, bind, Except.bind, e']
      rfl
  have hno : ∀ rows : List (List ℝ), ∀ g v, Kinematics.normalizeRows G g v cfg rows = .ok (rows, cfg) := by
    intro rows g v
    unfold Kinematics.normalizeRows
    rw [if_neg (by rw [hn]; simp)]
  rw [hno] at h
  rw [e1]
  simp only [bind, Except.bind, e2, e3, hno]
  simp only [bind, Except.bind] at h
  unfold Kinematics.reorder at h ⊢
  rw [if_neg (by rw [hs]; simp)] at h ⊢
  cases h
  congr 2
  unfold Kinematics.fill
  have hz : turnRow (List.replicate cfg.features.length 0) = List.replicate cfg.features.length 0 := by
    rw [hf]
    simp [turnRow, List.replicate]
  simp [List.map_append, List.map_replicate, hz]

/-- **C119, counter-example.** The merge environment does depend on a direction: it ends beyond `x = 370`, so the turned scene has another
termination flag. -/
theorem merge_not_directionFree (G : Globals) : ¬ DirectionFree (Merge.cls G) := by
  intro h
  let e : Env := { sampleEnv with road := { sampleEnv.road with vehicles := [Sample.car 0 .mdp 0 (-400) 20] } }
  have hw : WithoutCircles e.road := by
    intro l hl
    have hs : ∃ k, l = Sample.lane k := by
      rcases hl with ⟨nd, hnd, ml, hml, hl⟩ | ⟨v, hv, rfl⟩
      · simp only [e, sampleEnv, Sample.net, List.mem_cons, List.not_mem_nil, or_false] at hnd
        subst hnd
        simp only [List.mem_cons, List.not_mem_nil, or_false] at hml
        subst hml
        simp only [List.mem_cons, List.not_mem_nil, or_false] at hl
        rcases hl with rfl | rfl <;> exact ⟨_, rfl⟩
      · rcases List.mem_singleton.1 hv with rfl
        exact ⟨0, rfl⟩
    obtain ⟨k, rfl⟩ := hs
    refine ⟨_, _, fun he => ?_, .inl rfl⟩
    have := congrArg Vec2.x he
    norm_num at this
  have hv : e.vehicle = .ok (Sample.car 0 .mdp 0 (-400) 20) := rfl
  have h1 : (Merge.cls G).terminal e.quarter = .ok true := by
    show Merge.terminal _ = _
    unfold Merge.terminal
    rw [Env.vehicle_q, hv]
    simp only [Except.map, bind, Except.bind]
    simp [Vehicle.quarter, Vec2.quarter, Sample.car, pure, Except.pure]
    norm_num
  have h2 : (Merge.cls G).terminal e = .ok false := by
    show Merge.terminal _ = _
    unfold Merge.terminal
    rw [hv]
    simp only [bind, Except.bind]
    simp [Sample.car, pure, Except.pure]
  have h3 := h.terminal e (placeable_of_withoutCircles hw)
  rw [h1, h2] at h3
  cases h3

/-- Non-vacuity: the highway environment with its default settings, reset and driven for three decisions, gives the same three results when the
world is turned. -/
example : ∃ e rs e', Highway.reset {} {} ⟨fun _ => 0, fun _ => 0, 0, 0⟩ = .ok e ∧ rs.length = 3 ∧
    Episode {} {} (Highway.cls {}) e [.index 3, .index 0, .index 1] rs e' ∧
    Episode {} {} (Highway.cls {}) e.quarter [.index 3, .index 0, .index 1] rs e'.quarter := by
  obtain ⟨e, rs, e', h1, h2, h3, _⟩ := highway_episode {} {} highway_default_ok.1 (by norm_num) (by norm_num) ⟨fun _ => 0, fun _ => 0, 0, 0⟩
    [.index 3, .index 0, .index 1] (by
      intro a ha
      simp only [List.mem_cons, List.not_mem_nil, or_false] at ha
      rcases ha with rfl | rfl | rfl <;> (show _ ∧ _; decide))
  exact ⟨e, rs, e', h1, h3, h2, highway_turned {} {} highway_default_ok.1 _ _ _ _ _ h1 h2⟩

/-- Non-vacuity of `turned_observation` and `turned_ttc`: the sample scene is observed, and its turned copy shows the turned rows. -/
example : ∃ obs cfg' rng', Kinematics.observe {} sampleEnv.road (Sample.car 0 .mdp 10 0 20) { normalize := false } = .ok (obs, cfg', rng') ∧ obs.length = 5 ∧
    Kinematics.observe {} sampleEnv.road.quarter (Sample.car 0 .mdp 10 0 20).quarter { normalize := false } = .ok (obs.map turnRow, cfg', rng') ∧
    ttcObserve {} sampleEnv.road.quarter ⟨"0", "1", 0⟩ (Sample.car 0 .mdp 10 0 20).quarter 10 1 =
      ttcObserve {} sampleEnv.road ⟨"0", "1", 0⟩ (Sample.car 0 .mdp 10 0 20) 10 1 := by
  have hh : Healthy sampleEnv.road := sample_healthy true
  have hw : WithoutCircles sampleEnv.road := by
    refine withoutCircles_of_network _ hh fun nd hnd ml hml l hl => ?_
    simp only [sampleEnv, Sample.net, List.mem_cons, List.not_mem_nil, or_false] at hnd
    subst hnd
    simp only [List.mem_cons, List.not_mem_nil, or_false] at hml
    subst hml
    simp only [List.mem_cons, List.not_mem_nil, or_false] at hl
    rcases hl with rfl | rfl <;>
    · refine ⟨_, _, fun he => ?_, .inl rfl⟩
      have := congrArg Vec2.x he
      norm_num at this
  have hego : Sample.car 0 .mdp 10 0 20 ∈ sampleEnv.road.vehicles := .head _
  have hob : Observable sampleEnv.road := ⟨hh.wf, fun v hv => ⟨(hh.attached v hv).1, by
    simp only [sampleEnv, List.mem_cons, List.not_mem_nil, or_false] at hv
    rcases hv with rfl | rfl <;> exact fun s hs => by cases hs⟩⟩
  obtain ⟨⟨obs, cfg', rng'⟩, h⟩ := kinematics_never_raises {} _ hob _ hego { normalize := false } ⟨by simp [featureNames], by simp⟩
  exact ⟨obs, cfg', rng', h, (kinematics_rows {} _ _ { normalize := false } cfg' ⟨by simp [featureNames], by simp⟩ 5 rfl (by norm_num) obs rng' h).1,
    turned_observation {} _ _ _ _ _ _ hw hego rfl rfl rfl h, turned_ttc {} _ _ _ hw hego 10 1⟩

/-- Non-vacuity of `turned_decision_placed` with a circle: a vehicle at 10 m/s on a circular lane of radius 20 m, deciding at each frame, in the
sample class; the decision is taken, everything has a place all along, and the turned vehicle receives the same result. -/
example : ∃ (e e' : Env) (res : StepResult), (∃ l, LaneOf e.road l ∧ ∃ c rad p0 p1 cw, l.shape = .circular c rad p0 p1 cw) ∧
    (∃ v ∈ e.road.vehicles, v.speed = 10) ∧ PlacedAlong {} { policyFrequency := 15 } sampleClass e (some (.index 3)) ∧
    e.step {} { policyFrequency := 15 } sampleClass (some (.index 3)) = .ok (e', res) ∧
    e.quarter.step {} { policyFrequency := 15 } sampleClass (some (.index 3)) = .ok (e'.quarter, res) := by
  let l : Lane := { shape := .circular ⟨0, 0⟩ 20 0 3 true }
  let g : Graph := [("0", [("1", [l])])]
  let v : Vehicle := { Sample.car 0 .mdp 20 0 10 with heading := Real.pi / 2, lane := l }
  let r : Road := { network := g, rng := ⟨fun _ => 0, fun _ => 0, 0, 0⟩, vehicles := [v] }
  let e : Env := { road := r, controlled := [0] }
  have hpy : IsPyGraph g := ⟨by simp [g], by simp [g]⟩
  have hwf : WellFormed g := { hpy with nonemptyNode := by simp [g], nonemptyEdge := by simp [g] }
  have hhas : HasLane g "0" "1" 0 l := ⟨[l], ⟨_, by simp [g]; rfl, by simp⟩, rfl⟩
  have h0 : Healthy r := by
    refine ⟨hwf, ?_, ?_, ?_⟩
    · intro w hw
      rcases List.mem_singleton.1 hw with rfl
      exact ⟨⟨⟨0, _, rfl, hhas⟩, Graph.getLane_of_hasLane (k := 0) hpy rfl hhas, ⟨0, _, rfl, hhas⟩⟩, by simp [RouteExists, v, Sample.car]⟩
    · simp [r, v, Sample.car, VKind.isLinear]
    · intro hc; cases hc
  have hl : ∀ k, LaneOf r k → k = l := by
    rintro k (⟨nd, hnd, ml, hml, hk⟩ | ⟨w, hw, rfl⟩)
    · rcases List.mem_singleton.1 hnd with rfl
      rcases List.mem_singleton.1 hml with rfl
      exact List.mem_singleton.1 hk
    · rcases List.mem_singleton.1 hw with rfl
      rfl
  have hready : Ready { policyFrequency := 15 } e := {
    healthy := h0
    manned := ⟨by simp [e, r, v, Sample.car], by simp [e, r, v, Sample.car], by simp [e]⟩
    fitted := by
      intro w hw _
      rcases List.mem_singleton.1 hw with rfl
      rfl
    constructed := ⟨_, rfl⟩
    dt := fun hc => by cases hc }
  have hrel : Reliable {} { policyFrequency := 15 } sampleClass fun _ => True := {
    lasting := fun _ _ _ _ _ _ => trivial
    terminal := fun e h _ => by obtain ⟨v, hv, _⟩ := vehicle_total h; exact ⟨v.crashed, by simp only [sampleClass, hv]; rfl⟩
    reward := fun e a h _ _ => by obtain ⟨v, hv, _⟩ := vehicle_total h; exact ⟨_, by simp only [sampleClass, hv]; rfl⟩
    cost := fun _ _ _ => .inr rfl
    after := fun e h _ => ⟨e, rfl, h, trivial⟩ }
  obtain ⟨e', res, hs, -⟩ := step_never_raises {} { policyFrequency := 15 } sampleClass (fun _ => True) hrel (by norm_num) e hready trivial (.index 3)
    ⟨le_rfl.trans (by norm_num), by norm_num [AgentType.spaceSize, AgentType.actions]⟩
  have hfree : DirectionFree sampleClass := {
    terminal := fun e _ => by
      show (do let v ← e.quarter.vehicle; return v.crashed) = (do let v ← e.vehicle; return v.crashed)
      rw [Env.vehicle_q]
      cases e.vehicle <;> rfl
    reward := fun e a _ => by
      show (do let v ← e.quarter.vehicle; return if v.crashed then (0 : ℝ) else 1) = (do let v ← e.vehicle; return if v.crashed then (0 : ℝ) else 1)
      rw [Env.vehicle_q]
      cases e.vehicle <;> rfl
    cost := fun _ _ => rfl
    after := fun _ _ => rfl
    keeps := fun e e' hw h => by cases h; exact hw }
  have hone : ∀ k, Env.framesPerStep { policyFrequency := 15 } = .ok k → k = 1 := by
    intro k hk
    unfold Env.framesPerStep at hk
    rw [if_neg (by norm_num)] at hk
    injection hk with hk
    rw [← hk]
    norm_num [pyInt]
  have hpl : PlacedAlong {} { policyFrequency := 15 } sampleClass e (some (.index 3)) := by
    refine placedAlong_far _ _ _ _ _ 10 ?_ ?_ ?_ ?_
    · rintro k p hk (⟨w, hw, rfl⟩ | ⟨o, ho, -⟩)
      · rw [hl k hk]
        rcases List.mem_singleton.1 hw with rfl
        intro he
        have := congrArg Vec2.x he
        norm_num [v, Sample.car] at this
      · cases ho
    · intro w hw
      rcases List.mem_singleton.1 hw with rfl
      exact fun hc => by cases hc
    · intro k hk n hn s hs w hw
      rw [hone k hk] at hn
      have hn0 : n = 0 := by
        have : n < 1 := hn
        omega
      subst hn0
      cases hs
      rcases List.mem_singleton.1 hw with rfl
      norm_num [v, Sample.car]
    · intro k hk l' cc rad p0 p1 cw hk' hsh w hw
      rw [hone k hk]
      rw [hl l' hk'] at hsh
      injection hsh with hc
      rcases List.mem_singleton.1 hw with rfl
      subst hc
      have : √((20 : ℝ) ^ 2) = 20 := by rw [Real.sqrt_sq (by norm_num)]
      simp [v, Sample.car, Vec2.norm, this]
      norm_num [abs_of_pos]
  exact ⟨e, e', res, ⟨l, .inl ⟨_, .head _, _, .head _, .head _⟩, _, _, _, _, _, rfl⟩, ⟨v, .head _, rfl⟩, hpl, hs,
    turned_decision_placed _ _ _ hfree _ _ _ _ hpl hs⟩

end HighwayEnv.Props
