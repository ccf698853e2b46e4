import Verif.Spec.Wrapper
import Verif.Props.Contract

/-!
# C105: one reward and one end per agent
-/

noncomputable section
open Classical
namespace HighwayEnv.Props
open HighwayEnv Spec Graph

private theorem full_step_ok {G : Globals} {c : SimConfig} {cls : EnvClass} {view : View} {f f' : Full} {a : Option AgentAction} {x : Obs} {res : StepResult}
    (h : f.step G c cls view a = .ok (x, res, f')) : ∃ e E v, Env.simulate G c cls a { f.env with steps := f.env.steps + 1 } = .ok e ∧ SameButRandom e E ∧
      cls.reward E a = .ok res.reward ∧ cls.terminal E = .ok res.terminal ∧ E.vehicle = .ok v ∧ res.speed = v.speed ∧ res.crashed = v.crashed ∧
      cls.after E = .ok f'.env := by
  unfold Full.step at h
  split at h
  · cases h
  · obtain ⟨e, h1, h⟩ := bind_ok h
    obtain ⟨⟨y, g⟩, h2, h⟩ := bind_ok h
    obtain ⟨⟨e', r⟩, h3, h⟩ := bind_ok h
    cases h
    unfold Full.observe at h2
    obtain ⟨⟨y', o', s'⟩, h4, h2⟩ := bind_ok h2
    cases h2
    unfold Full.conclude at h3
    obtain ⟨x1, h5, h3⟩ := bind_ok h3
    obtain ⟨x2, h6, h3⟩ := bind_ok h3
    obtain ⟨v, h7, h3⟩ := bind_ok h3
    obtain ⟨x3, -, h3⟩ := bind_ok h3
    obtain ⟨e2, h8, h3⟩ := bind_ok h3
    cases h3
    exact ⟨e, _, v, h1, observed_same h4, h5, h6, h7, rfl, rfl, h8⟩

/-- C105: after a `step` of the intersection that returns, the information of the agents can be computed, and is a fair share of the results. -/
theorem inter_step_shared (G : Globals) (cfg : IntersectionConfig) (hc : InterOk cfg) (hp : cfg.sim.policyFrequency ≠ 0) (ord : SetOrder) (view : View)
    (f f' : Full) (h : Ready cfg.sim f.env) (hI : InterRoad cfg.otherVehiclesType f.env.road) (a : AgentAction) (ha : InEnvSpace cfg.sim.action a)
    (x : Obs) (res : StepResult) (hs : f.step (Intersection.egoLadder G) cfg.sim (Intersection.cls G cfg ord) view (some a) = .ok (x, res, f')) :
    ∃ vs rs ds, Agents f'.env vs ∧ f'.env.controlled = f.env.controlled ∧ f'.env.steps = f.env.steps + 1 ∧
      Shared cfg (f.env.steps + 1) vs rs ds res.reward res.terminal ∧
      Intersection.step G cfg ord view f (some a) =
        .ok (x, res.reward, res.terminal, ⟨res.speed, res.crashed, some a, res.cost, some rs, some ds⟩, f') := by
  obtain ⟨e, E, v, h1, h2, h3, h4, h5, h6, h7, h8⟩ := full_step_ok hs
  have hrel := inter_reliable G cfg hc ord
  have r0 : Ready cfg.sim { f.env with steps := f.env.steps + 1 } := ready_run f.env.time _ h (.refl (G := Intersection.egoLadder G) _)
  obtain ⟨r, t, hsim, hrun, hr1, hi1⟩ := simulate_outcome _ _ _ _ hrel hp _ r0 hI a ha
  rw [h1] at hsim
  obtain rfl := Except.ok.inj hsim
  have hr2 := ready_random h2 hr1
  have hi2 : InterRoad cfg.otherVehiclesType E.road := by
    rw [h2]; exact ⟨hi1.network, hi1.regulated, hi1.free, hi1.distinct, hi1.fleet⟩
  obtain ⟨vs, ds, k1, k2, k3, k4, k5⟩ := inter_info G cfg hc ord E f'.env hr2 hi2 h8 (some a)
  obtain ⟨e1, b1, _, _, _, b5, b6, _⟩ := inter_after G cfg hc ord E hr2 hi2
  rw [h8] at b1
  cases b1
  obtain ⟨b, t1, t2⟩ := inter_terminal_iff G cfg ord E hr2.manned (fun v hv _ => (hi2.fleet v hv).attached) vs k1
  rw [h4] at t1
  cases t1
  rw [h3] at k4
  have hE : E.controlled = f.env.controlled ∧ E.steps = f.env.steps + 1 := by rw [h2]; exact ⟨rfl, rfl⟩
  rw [hE.2] at k5 t2
  refine ⟨vs, _, ds, k2, b5.trans hE.1, b6.trans hE.2, ⟨?_, rfl, k5, Except.ok.inj k4, t2⟩, ?_⟩
  · rintro rfl
    exact hr2.manned.someone (by simpa using k1.1.symm)
  · unfold Intersection.step Full.returned
    rw [hs]
    simp only [bind, Except.bind, pure, Except.pure, k3]

/-- C105: consequences of the shares: as many rewards and ends as agents; all agents done means that the episode is over, and the episode being over
means that some agent is done; all rewards in the documented interval. -/
theorem shared_consequences (cfg : IntersectionConfig) (hcol : cfg.collisionReward ≤ 0) (steps : ℕ) (vs : List Vehicle) (rs : List ℝ) (ds : List Bool)
    (reward : ℝ) (done : Bool) (h : Shared cfg steps vs rs ds reward done) :
    rs.length = vs.length ∧ ds.length = vs.length ∧ rs.sum = vs.length * reward ∧ (done = true → ∃ d ∈ ds, d = true) ∧
      ((∃ v ∈ vs, v.crashed = true) ∨ vs.length = 1 → ((∃ d ∈ ds, d = true) → done = true)) ∧ ((∀ d ∈ ds, d = true) → done = true) ∧
      ∀ r ∈ rs, (cfg.normalizeReward = false → cfg.collisionReward ≤ r ∧ r ≤ 1) ∧ (cfg.normalizeReward = true → 0 ≤ r ∧ r ≤ 1) := by
  have hlen := h.ends.length_eq
  have hpick : ∀ v ∈ vs, ∃ d ∈ ds, (d = true ↔ v.crashed = true ∨ OnExit v 25 ∨ TimeOver cfg steps) := by
    intro v hv
    obtain ⟨i, hi, rfl⟩ := List.mem_iff_getElem.1 hv
    exact ⟨ds[i]'(by omega), List.getElem_mem _, (List.forall₂_iff_get.1 h.ends).2 i hi (by omega)⟩
  have hpick' : ∀ d ∈ ds, ∃ v ∈ vs, (d = true ↔ v.crashed = true ∨ OnExit v 25 ∨ TimeOver cfg steps) := by
    intro d hd
    obtain ⟨i, hi, rfl⟩ := List.mem_iff_getElem.1 hd
    exact ⟨vs[i]'(by omega), List.getElem_mem _, (List.forall₂_iff_get.1 h.ends).2 i (by omega) hi⟩
  obtain ⟨v0, hv0⟩ := List.exists_mem_of_ne_nil _ h.someone
  refine ⟨by rw [h.rewards]; simp, hlen.symm, ?_, ?_, ?_, ?_, ?_⟩
  · have : (0 : ℝ) < vs.length := by exact_mod_cast List.length_pos_iff.2 h.someone
    rw [h.mean, mean, h.rewards, List.length_map]
    field_simp
  · intro hd
    rcases h.done.1 hd with ⟨v, hv, hcr⟩ | hall | ht
    · obtain ⟨d, hd, hiff⟩ := hpick v hv
      exact ⟨d, hd, hiff.2 (.inl hcr)⟩
    · obtain ⟨d, hd, hiff⟩ := hpick v0 hv0
      exact ⟨d, hd, hiff.2 (.inr (.inl (hall v0 hv0)))⟩
    · obtain ⟨d, hd, hiff⟩ := hpick v0 hv0
      exact ⟨d, hd, hiff.2 (.inr (.inr ht))⟩
  · rintro (hcr | h1) ⟨d, hd, hdt⟩
    · exact h.done.2 (.inl hcr)
    · obtain ⟨v, hv, hiff⟩ := hpick' d hd
      obtain ⟨w, hw⟩ := List.length_eq_one_iff.1 h1
      rw [hw] at hv
      obtain rfl : v = w := by simpa using hv
      rcases hiff.1 hdt with hcr | hex | ht
      · exact h.done.2 (.inl ⟨v, by rw [hw]; simp, hcr⟩)
      · exact h.done.2 (.inr (.inl (by rw [hw]; simpa using hex)))
      · exact h.done.2 (.inr (.inr ht))
  · intro hall
    by_cases hcr : ∃ v ∈ vs, v.crashed = true
    · exact h.done.2 (.inl hcr)
    · by_cases ht : TimeOver cfg steps
      · exact h.done.2 (.inr (.inr ht))
      · refine h.done.2 (.inr (.inl fun v hv => ?_))
        obtain ⟨d, hd, hiff⟩ := hpick v hv
        rcases hiff.1 (hall d hd) with h1 | h1 | h1
        · exact absurd ⟨v, hv, h1⟩ hcr
        · exact h1
        · exact absurd h1 ht
  · intro r hr
    rw [h.rewards] at hr
    obtain ⟨v, -, rfl⟩ := List.mem_map.1 hr
    exact inter_score_range cfg hcol v

/-- C105: the wrapper returns the rewards and ends of the agents in place of those of the environment, and everything else unchanged; an environment
that does not report them cannot be wrapped (`KeyError` at each step that returns). -/
theorem wrapper_step (base : Full → Option AgentAction → Py (Stepped ℝ Bool)) (f f' : Full) (a : Option AgentAction) (x : Obs) (r : ℝ) (d : Bool) (i : Info)
    (h : base f a = .ok (x, r, d, i, f')) :
    (∀ rs ds, i.agentsRewards = some rs → i.agentsDones = some ds → MultiAgentWrapper.step base f a = .ok (x, rs, ds, i, f')) ∧
    (i.agentsRewards = none → MultiAgentWrapper.step base f a = .error .keyError) := by
  constructor
  · intro rs ds h1 h2
    unfold MultiAgentWrapper.step
    rw [h]
    simp only [bind, Except.bind, h1, h2, Factory.keyed]
    rfl
  · intro h1
    unfold MultiAgentWrapper.step
    rw [h]
    simp only [bind, Except.bind, h1, Factory.keyed]

private theorem play_unique {G : Globals} {c : SimConfig} {cls : EnvClass} {view : View} {f f1 f2 : Full} {as : List AgentAction}
    {rs1 rs2 : List (Obs × StepResult)} (h1 : Play G c cls view f as rs1 f1) (h2 : Play G c cls view f as rs2 f2) : rs1 = rs2 ∧ f1 = f2 := by
  induction h1 generalizing rs2 f2 with
  | start =>
    generalize hl : ([] : List AgentAction) = l at h2
    cases h2 with
    | start => exact ⟨rfl, rfl⟩
    | step _ _ => simp at hl
  | @step as rs g1 g2 a x res hp hs ih =>
    generalize hl : as ++ [a] = l at h2
    cases h2 with
    | start => simp at hl
    | step hp' hs' =>
      obtain ⟨rfl, hb⟩ := List.append_inj' hl rfl
      cases hb
      obtain ⟨rfl, rfl⟩ := ih hp'
      rw [hs] at hs'
      cases hs'
      exact ⟨rfl, rfl⟩

/-- C105: **the multi-agent intersection**, wrapped or not, from any state in which the contract of `step` holds: any joint actions can be played; each
step returns one reward and one end per agent, in the order of the agents, fairly shared. -/
theorem wrapped_play (G : Globals) (cfg : IntersectionConfig) (hc : InterOk cfg) (hp : cfg.sim.policyFrequency ≠ 0) (ord : SetOrder) (view : View)
    (sp : Factory.Spaces) (f : Full) (h : Ready cfg.sim f.env) (hI : InterRoad cfg.otherVehiclesType f.env.road)
    (hplay : Playing (Intersection.egoLadder G) cfg.sim (Intersection.cls G cfg ord) view (fun e => InterRoad cfg.otherVehiclesType e.road) sp f)
    (hact : ∀ a, Playable sp.actionSpace a → InEnvSpace cfg.sim.action a) (as : List AgentAction) (ha : ∀ a ∈ as, Playable sp.actionSpace a) :
    ∃ rs ws f', Turns (Intersection.step G cfg ord view) f as rs f' ∧ Turns (MultiAgentWrapper.step (Intersection.step G cfg ord view)) f as ws f' ∧
      rs.length = as.length ∧ ws.length = as.length ∧ f'.env.controlled = f.env.controlled ∧ f'.env.steps = f.env.steps + as.length ∧
      ∀ k (x : Obs) (r : ℝ) (d : Bool) (i : Info) (y : Obs) (xs : List ℝ) (ds : List Bool) (j : Info), rs[k]? = some (x, r, d, i) →
        ws[k]? = some (y, xs, ds, j) → y = x ∧ j = i ∧ i.action = as[k]? ∧ Member sp.observationSpace x ∧ i.agentsRewards = some xs ∧ i.agentsDones = some ds ∧
        ∃ vs fk, Turns (Intersection.step G cfg ord view) f (as.take (k + 1)) (rs.take (k + 1)) fk ∧
          Turns (MultiAgentWrapper.step (Intersection.step G cfg ord view)) f (as.take (k + 1)) (ws.take (k + 1)) fk ∧ Agents fk.env vs ∧
          vs.map (·.uid) = f.env.controlled ∧ Shared cfg (f.env.steps + k + 1) vs xs ds r d := by
  suffices key : ∃ rs ws ps f', Play (Intersection.egoLadder G) cfg.sim (Intersection.cls G cfg ord) view f as ps f' ∧
      Turns (Intersection.step G cfg ord view) f as rs f' ∧ Turns (MultiAgentWrapper.step (Intersection.step G cfg ord view)) f as ws f' ∧
      rs.length = as.length ∧ ws.length = as.length ∧ f'.env.controlled = f.env.controlled ∧ f'.env.steps = f.env.steps + as.length ∧
      ∀ k (x : Obs) (r : ℝ) (d : Bool) (i : Info) (y : Obs) (xs : List ℝ) (ds : List Bool) (j : Info), rs[k]? = some (x, r, d, i) →
        ws[k]? = some (y, xs, ds, j) → y = x ∧ j = i ∧ i.action = as[k]? ∧ Member sp.observationSpace x ∧ i.agentsRewards = some xs ∧ i.agentsDones = some ds ∧
        ∃ vs fk, Turns (Intersection.step G cfg ord view) f (as.take (k + 1)) (rs.take (k + 1)) fk ∧
          Turns (MultiAgentWrapper.step (Intersection.step G cfg ord view)) f (as.take (k + 1)) (ws.take (k + 1)) fk ∧ Agents fk.env vs ∧
          vs.map (·.uid) = f.env.controlled ∧ Shared cfg (f.env.steps + k + 1) vs xs ds r d by
    obtain ⟨rs, ws, ps, f', -, k⟩ := key
    exact ⟨rs, ws, f', k⟩
  induction as using List.reverseRecOn with
  | nil => exact ⟨[], [], [], f, .start, .start, .start, rfl, rfl, rfl, rfl, by intro k _ _ _ _ _ _ _ _ h; simp at h⟩
  | append_singleton as a ih =>
    obtain ⟨rs, ws, ps, f1, k1, k2, k3, k4, k5, k6, k7, k8⟩ := ih fun b hb => ha b (by simp [hb])
    obtain ⟨ps1, g1, q1, -, -, q4, q5⟩ := hplay as fun b hb => ha b (by simp [hb])
    obtain ⟨rfl, rfl⟩ := play_unique k1 q1
    obtain ⟨ps2, g2, p1, -, p3, -⟩ := hplay (as ++ [a]) ha
    generalize hl : as ++ [a] = l at p1
    cases p1 with
    | start => simp at hl
    | @step as' rs' f1' f2 a' x res hp' hs' =>
      obtain ⟨rfl, hb⟩ := List.append_inj' hl rfl
      cases hb
      obtain ⟨rfl, rfl⟩ := play_unique k1 hp'
      obtain ⟨vs, xs, ds, s1, s2, s3, s4, s5⟩ := inter_step_shared G cfg hc hp ord view f1 g2 q4 q5 a (hact a (ha a (by simp))) x res hs'
      have hw := (wrapper_step _ _ _ _ _ _ _ _ s5).1 xs ds rfl rfl
      refine ⟨_, _, _, g2, .step k1 hs', .step k2 s5, .step k3 hw, by simp [k4], by simp [k5], s2.trans k6, by rw [s3, k7]; simp; omega, ?_⟩
      intro k y r d i z xs' ds' j h1 h2
      rcases lt_trichotomy k as.length with hk | rfl | hk
      · rw [List.getElem?_append_left (by omega)] at h1 h2
        rw [List.getElem?_append_left hk, List.take_append_of_le_length (by omega), List.take_append_of_le_length (by omega),
          List.take_append_of_le_length (by omega)]
        exact k8 k y r d i z xs' ds' j h1 h2
      · have e1 : (rs ++ [(x, res.reward, res.terminal, ({ speed := res.speed, crashed := res.crashed, action := some a, cost := res.cost, agentsRewards := some xs, agentsDones := some ds } : Info))])[as.length]? = some (x, res.reward, res.terminal, ⟨res.speed, res.crashed, some a, res.cost, some xs, some ds⟩) := by
          rw [← k4]; simp
        have e2 : (ws ++ [(x, xs, ds, ({ speed := res.speed, crashed := res.crashed, action := some a, cost := res.cost, agentsRewards := some xs, agentsDones := some ds } : Info))])[as.length]? = some (x, xs, ds, ⟨res.speed, res.crashed, some a, res.cost, some xs, some ds⟩) := by
          rw [← k5]; simp
        rw [e1] at h1
        rw [e2] at h2
        cases h1
        cases h2
        refine ⟨rfl, rfl, by simp, (p3 (x, res) (by simp)).1, rfl, rfl, vs, g2, ?_, ?_, s1, ?_, ?_⟩
        · rw [List.take_of_length_le (by simp), List.take_of_length_le (by simp; omega)]
          exact .step k2 s5
        · rw [List.take_of_length_le (by simp), List.take_of_length_le (by simp; omega)]
          exact .step k3 hw
        · rw [s1.1, s2, k6]
        · rw [← k7]; exact s4
      · rw [List.getElem?_eq_none (by simp; omega)] at h1
        cases h1

/-- C105: **the registered multi-agent intersection.**  After a reset that removed no agent, whatever joint actions of the declared space are played, the
wrapped environment returns at each step an observation of the declared space, and one reward and one end per agent, fairly shared. -/
theorem tuple_contract (G : Globals) (cfg : IntersectionConfig) (hc : InterOk cfg) (hp : cfg.sim.policyFrequency ≠ 0) (view : View)
    (hview : view.classes = fun _ => Intersection.setTraffic cfg.otherVehiclesType G) (od : ObsDict) (hod : GoodObs G od) (ad : ActDict)
    (had : ∀ us, ∃ b, Factory.action us ad = .ok b ∧ SameType b cfg.sim.action) (ord : SetOrder) (rng : Rng) (old : Scene) :
    ∃ e, Intersection.reset G cfg ord rng = .ok (Intersection.setTraffic cfg.otherVehiclesType G, e) ∧
      (cfg.controlledVehicles = 1 ∨ (∀ uid ∈ e.controlled, ∃ v ∈ e.road.vehicles, v.uid = uid) →
        ∃ x sp G' f, Full.resetIn G od ad cfg.sim view (fun _ => Intersection.reset G cfg ord rng) old = .ok (x, sp, G', f) ∧
          Member sp.observationSpace x ∧ f.env.controlled = e.controlled ∧ f.env.steps = e.steps ∧
          ∀ as, (∀ a ∈ as, Playable sp.actionSpace a) → ∃ ws f', Turns (MultiAgentWrapper.step (Intersection.step G' cfg ord view)) f as ws f' ∧
            ws.length = as.length ∧ ∀ k (y : Obs) (xs : List ℝ) (ds : List Bool) (i : Info), ws[k]? = some (y, xs, ds, i) →
              Member sp.observationSpace y ∧ ∃ vs r d fk, Turns (MultiAgentWrapper.step (Intersection.step G' cfg ord view)) f (as.take (k + 1))
                (ws.take (k + 1)) fk ∧ Agents fk.env vs ∧ vs.map (·.uid) = e.controlled ∧ Shared cfg (e.steps + k + 1) vs xs ds r d) := by
  obtain ⟨e, h1, h2⟩ := inter_contract G cfg hc hp view hview od hod ad had ord rng old
  refine ⟨e, h1, fun hpres => ?_⟩
  obtain ⟨x, sp, G', f, r1, r2, r3, r4⟩ := h2 hpres
  have hr := r1
  unfold Full.resetIn at hr
  obtain ⟨first, -, hr⟩ := bind_ok hr
  obtain ⟨⟨G1, e1⟩, he, hr⟩ := bind_ok hr
  dsimp only at he
  rw [h1] at he
  cases he
  obtain ⟨sp1, hd, hr⟩ := bind_ok hr
  obtain ⟨⟨x1, f1⟩, ho, hr⟩ := bind_ok hr
  cases hr
  unfold Full.observe at ho
  obtain ⟨⟨y', o', s'⟩, h4, ho⟩ := bind_ok ho
  cases ho
  have hsame := observed_same h4
  obtain ⟨b, hb, hbs⟩ := had e.controlled
  have hd' := define_ok hd
  have hact : ∀ a, Playable sp1.actionSpace a → InEnvSpace cfg.sim.action a := by
    intro a hpl
    have e1 : sp1.action = b := by
      have := hd'.2.1
      change Factory.action e.controlled ad = .ok sp1.action at this
      rw [hb] at this
      exact (Except.ok.inj this).symm
    rw [hd'.2.2.2] at hpl
    exact (declared_actions_accepted sp1.action cfg.sim.action (by rw [e1]; exact hbs) a hpl).1
  obtain ⟨rs0, f0, p1, p2, -, p4, p5⟩ := r4 [] (by simp)
  have hf0 : f0 = ⟨e.observed s', o'⟩ := by
    generalize hl : ([] : List AgentAction) = l at p1
    cases p1 with
    | start => rfl
    | step _ _ => simp at hl
  subst hf0
  have hco : (e.observed s').controlled = e.controlled ∧ (e.observed s').steps = e.steps := by rw [hsame]; exact ⟨rfl, rfl⟩
  refine ⟨x, _, _, _, r1, r3, hco.1, hco.2, fun as ha => ?_⟩
  obtain ⟨rs, ws, f', t1, t2, t3, t4, -, -, t7⟩ := wrapped_play _ cfg hc hp ord view _ _ p4 p5 r4 hact as ha
  refine ⟨ws, f', t2, t4, fun k y xs ds i hk => ?_⟩
  have hlt : k < rs.length := by
    have := (List.getElem?_eq_some_iff.1 hk).1
    omega
  obtain ⟨rfl, rfl, -, m1, -, -, vs, fk, -, u1, u2, u3, u4⟩ := t7 k rs[k].1 rs[k].2.1 rs[k].2.2.1 rs[k].2.2.2 y xs ds i (List.getElem?_eq_getElem hlt) hk
  exact ⟨m1, vs, _, _, fk, u1, u2, u3.trans hco.1, by rw [← hco.2]; exact u4⟩

/-- C105: the other environments do not report the rewards of the agents: wrapped, their steps never return. -/
theorem wrapper_refuses (G : Globals) (c : SimConfig) (cls : EnvClass) (view : View) (f : Full) (a : Option AgentAction) :
    (∀ y, MultiAgentWrapper.step (fun f a => f.returned G c cls view a) f a ≠ .ok y) ∧
      ∀ y, f.step G c cls view a = .ok y → MultiAgentWrapper.step (fun f a => f.returned G c cls view a) f a = .error .keyError := by
  have h : ∀ y, f.step G c cls view a = .ok y → MultiAgentWrapper.step (fun f a => f.returned G c cls view a) f a = .error .keyError := by
    rintro ⟨x, res, f'⟩ hs
    refine (wrapper_step _ f f' a x res.reward res.terminal { speed := res.speed, crashed := res.crashed, action := a, cost := res.cost } ?_).2 rfl
    simp only [Full.returned, hs, bind, Except.bind]
    rfl
  refine ⟨fun y hy => ?_, h⟩
  cases hs : f.step G c cls view a with
  | ok z => rw [h z hs] at hy; cases hy
  | error z =>
    unfold MultiAgentWrapper.step Full.returned at hy
    dsimp only at hy
    rw [hs] at hy
    cases hy

/-- The registered intersection with one agent, wrapped: ten accelerations, ten rewards. -/
example (ord : SetOrder) (rng : Rng) : ∃ x sp G' f ws f',
    Full.resetIn {} (.flat interObs) { outer := { type := some "DiscreteMetaAction", longitudinal := some true, lateral := some false } }
      ({} : IntersectionConfig).sim { classes := fun _ => Intersection.setTraffic .idm {} } (fun _ => Intersection.reset {} {} ord rng)
      { road := none, controlled := [] } = .ok (x, sp, G', f) ∧
    Turns (MultiAgentWrapper.step (Intersection.step G' {} ord { classes := fun _ => Intersection.setTraffic .idm {} })) f (List.replicate 10 (.index 2)) ws f' ∧
    ws.length = 10 := by
  obtain ⟨e, -, h⟩ := tuple_contract {} {} inter_default_ok.1 (by norm_num) { classes := fun _ => Intersection.setTraffic .idm {} } rfl _ interObs_good
    { outer := { type := some "DiscreteMetaAction", longitudinal := some true, lateral := some false } }
    (fun _ => ⟨.single (.discrete true false), rfl, rfl⟩) ord rng { road := none, controlled := [] }
  obtain ⟨x, sp, G', f, h1, -, -, -, h2⟩ := h (.inl rfl)
  have hsp : sp.actionSpace = .discrete 3 := by
    have h := h1
    unfold Full.resetIn at h
    obtain ⟨_, -, h⟩ := bind_ok h
    obtain ⟨_, -, h⟩ := bind_ok h
    obtain ⟨sp', hd, h⟩ := bind_ok h
    obtain ⟨_, -, h⟩ := bind_ok h
    cases h
    have hd' := define_ok hd
    dsimp only
    rw [hd'.2.2.2, ← Except.ok.inj hd'.2.1]
    rfl
  obtain ⟨ws, f', h3, h4, -⟩ := h2 (List.replicate 10 (.index 2)) (by
    intro a ha
    obtain ⟨_, rfl⟩ := List.mem_replicate.1 ha
    rw [hsp]
    exact .discrete (by norm_num))
  exact ⟨x, sp, G', f, ws, f', h1, h3, by simpa using h4⟩

end HighwayEnv.Props
