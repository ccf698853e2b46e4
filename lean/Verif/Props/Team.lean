import Verif.Props.Wrapper

/-!
# C58, C105: teams of up to four agents at the intersection, from the reset on
-/

noncomputable section
open Classical
namespace HighwayEnv.Props
open HighwayEnv Spec Graph

/-- **C58, teams.**  A reset of the intersection with at most four agents, whatever the seed, provided no normal variate drawn from the generator exceeds 6 (standard deviations):
all agents are on the road, and any sequence of joint meta-actions can be played; each reward is the mean of the agents' scores, and the episode ends exactly when one agent has
crashed, all have arrived, or the time is over. -/
theorem inter_team (G : Globals) (cfg : IntersectionConfig) (hc : InterOk cfg) (h4 : cfg.controlledVehicles ≤ 4) (hp : cfg.sim.policyFrequency ≠ 0)
    (ord : SetOrder) (rng : Rng) (hr : ∀ n, rng.reals n ≤ 6) :
    ∃ e, Intersection.reset G cfg ord rng = .ok (Intersection.setTraffic cfg.otherVehiclesType G, e) ∧ e.controlled.length = cfg.controlledVehicles ∧
      (∀ uid ∈ e.controlled, ∃ v ∈ e.road.vehicles, v.uid = uid ∧ ∃ k, InterAgent cfg k v) ∧
        ∀ as, (∀ a ∈ as, InEnvSpace cfg.sim.action a) →
          ∃ rs e', Episode (Intersection.egoLadder (Intersection.setTraffic cfg.otherVehiclesType G)) cfg.sim
              (Intersection.cls (Intersection.setTraffic cfg.otherVehiclesType G) cfg ord) e as rs e' ∧ rs.length = as.length ∧
            e'.controlled = e.controlled ∧
            ∀ (i : ℕ) (res : StepResult), rs[i]? = some res → ∃ f vs, f.controlled = e.controlled ∧ Agents f vs ∧ vs.length = cfg.controlledVehicles ∧
              res.reward = mean (vs.map (agentScore cfg)) ∧
              (res.terminal = true ↔ (∃ v ∈ vs, v.crashed = true) ∨ (∀ v ∈ vs, OnExit v 25) ∨ TimeOver cfg (i + 1)) := by
  obtain ⟨e, ws, r1, r2, r3, _, _, r6, _, _, r9, r10, _⟩ := inter_reset G cfg hc ord rng
  have hall := inter_four cfg rng.reals _ _ ws (by rw [r6]; exact h4) r9 (by
    intro j v hv
    obtain ⟨n, hn⟩ := r9.drawn j v hv
    have hj : (⟨(j : ℕ) % 4, Nat.mod_lt _ (by norm_num)⟩ : Fin 4) = j := by
      ext; exact Nat.mod_eq_of_lt j.2
    rw [hj] at hn
    rw [hn, (access_point _ _).2.2.2.2]
    change 60 + 5 * rng.reals n ≤ 90
    have := hr n
    linarith)
  refine ⟨e, r1, r6, ?_, fun as ha => ?_⟩
  · intro uid hu
    rw [← r9.identities] at hu
    obtain ⟨v, hv, rfl⟩ := List.mem_map.1 hu
    obtain ⟨j, hj⟩ := List.getElem?_of_mem hv
    exact ⟨v, hall v hv, rfl, _, (r9.placed j v hj).1⟩
  · obtain ⟨rs, e', p1, p2, _, _, p5, p6⟩ := inter_play (Intersection.setTraffic cfg.otherVehiclesType G) cfg hc hp ord e (r10 hall) r2 as ha
    refine ⟨rs, e', p1, p2, p5, fun i res hres => ?_⟩
    obtain ⟨f, vs, _, q2, q3, _, q5, _, _, q8, _⟩ := p6 i res hres
    refine ⟨f, vs, q2, q3, ?_, q5, ?_⟩
    · rw [← List.length_map (f := (·.uid)), q3.1, q2, r6]
    · rw [q8, r3, Nat.zero_add]

/-- **C105, teams.**  The registered multi-agent intersection with at most four agents, under the same proviso: whatever the seed and whatever joint actions of the declared space are
played, the wrapped environment returns at each step an observation of the declared space and one reward and one end per agent, fairly shared. -/
theorem team_contract (G : Globals) (cfg : IntersectionConfig) (hc : InterOk cfg) (h4 : cfg.controlledVehicles ≤ 4) (hp : cfg.sim.policyFrequency ≠ 0) (view : View)
    (hview : view.classes = fun _ => Intersection.setTraffic cfg.otherVehiclesType G) (od : ObsDict) (hod : GoodObs G od) (ad : ActDict)
    (had : ∀ us, ∃ b, Factory.action us ad = .ok b ∧ SameType b cfg.sim.action) (ord : SetOrder) (rng : Rng) (hr : ∀ n, rng.reals n ≤ 6) (old : Scene) :
    ∃ x sp G' f, Full.resetIn G od ad cfg.sim view (fun _ => Intersection.reset G cfg ord rng) old = .ok (x, sp, G', f) ∧
      Member sp.observationSpace x ∧ f.env.controlled.length = cfg.controlledVehicles ∧
      ∀ as, (∀ a ∈ as, Playable sp.actionSpace a) →
        ∃ (ws : List (Obs × List ℝ × List Bool × Info)) (f' : Full), Turns (MultiAgentWrapper.step (Intersection.step G' cfg ord view)) f as ws f' ∧
        ws.length = as.length ∧ ∀ k (y : Obs) (xs : List ℝ) (ds : List Bool) (i : Info), ws[k]? = some (y, xs, ds, i) →
          Member sp.observationSpace y ∧ xs.length = cfg.controlledVehicles ∧ ds.length = cfg.controlledVehicles ∧
          ∃ vs r d fk, Turns (MultiAgentWrapper.step (Intersection.step G' cfg ord view)) f (as.take (k + 1)) (ws.take (k + 1)) fk ∧
            Agents fk.env vs ∧ vs.map (·.uid) = f.env.controlled ∧ Shared cfg (k + 1) vs xs ds r d := by
  obtain ⟨e, t1, t2, t3, _⟩ := inter_team G cfg hc h4 hp ord rng hr
  obtain ⟨e0, _, t0, _, s0, _⟩ := inter_reset G cfg hc ord rng
  obtain ⟨e1, c1, c2⟩ := tuple_contract G cfg hc hp view hview od hod ad had ord rng old
  have he : e1 = e := by
    rw [t1] at c1
    exact (congrArg Prod.snd (Except.ok.inj c1)).symm
  have he0 : e0 = e := by
    rw [t1] at t0
    exact (congrArg Prod.snd (Except.ok.inj t0)).symm
  subst he he0
  obtain ⟨x, sp, G', f, d1, d2, d3, _, d5⟩ := c2 (.inr fun uid hu => by
    obtain ⟨v, hv, hu', _⟩ := t3 uid hu
    exact ⟨v, hv, hu'⟩)
  refine ⟨x, sp, G', f, d1, d2, by rw [d3, t2], fun as ha => ?_⟩
  obtain ⟨rs, f', g1, g2, g3⟩ := d5 as ha
  refine ⟨rs, f', g1, g2, fun k y xs ds i hk => ?_⟩
  obtain ⟨m1, vs, r, d, fk, n1, n2, n3, m5⟩ := g3 k y xs ds i hk
  have hlen : vs.length = cfg.controlledVehicles := by rw [← List.length_map (f := (·.uid)), n3, t2]
  refine ⟨m1, ?_, ?_, vs, r, d, fk, n1, n2, n3.trans d3.symm, ?_⟩
  · rw [← hlen, m5.rewards, List.length_map]
  · rw [← hlen]; exact m5.ends.length_eq.symm
  · rw [s0, Nat.zero_add] at m5; exact m5

/-- Two agents, ten joint actions, and any generator whose normal variates are all 1 (its integers being arbitrary). -/
example (ord : SetOrder) (ints : ℕ → ℕ) : ∃ e rs e',
    Intersection.reset {} { sim := { action := .multi (.discrete true false) }, controlledVehicles := 2 } ord ⟨ints, fun _ => 1, 0, 0⟩ =
      .ok (Intersection.setTraffic .idm {}, e) ∧ e.controlled.length = 2 ∧
    Episode (Intersection.egoLadder (Intersection.setTraffic .idm {})) { action := .multi (.discrete true false) }
      (Intersection.cls (Intersection.setTraffic .idm {}) { sim := { action := .multi (.discrete true false) }, controlledVehicles := 2 } ord) e
      (List.replicate 10 (.tuple [.index 2, .index 0])) rs e' ∧ rs.length = 10 := by
  obtain ⟨e, h1, h2, _, h4⟩ := inter_team {} _ inter_default_ok.2 (by norm_num) (by norm_num) ord ⟨ints, fun _ => 1, 0, 0⟩ (by intro n; norm_num)
  obtain ⟨rs, e', p1, p2, _⟩ := h4 (List.replicate 10 (.tuple [.index 2, .index 0])) (by
    intro a ha
    obtain ⟨_, rfl⟩ := List.mem_replicate.1 ha
    intro b hb
    simp only [List.mem_cons, List.not_mem_nil, or_false] at hb
    rcases hb with rfl | rfl <;> exact ⟨by norm_num, by norm_num [AgentType.spaceSize, AgentType.actions]⟩)
  exact ⟨e, rs, e', h1, h2, p1, by simpa using p2⟩

end HighwayEnv.Props
