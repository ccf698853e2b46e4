import Verif.Props.InterTraffic
import Verif.Props.Controller
import Verif.Lemmas.Stream

/-!
# C58, C59: the intersection environment
-/

noncomputable section
open Classical
namespace HighwayEnv.Props
open HighwayEnv HighwayEnv.Spec Graph

/-! ## C58 — reward and termination -/

private theorem agent_reward (G : Globals) (cfg : IntersectionConfig) (v : Vehicle) (hv : Attached interNet v) (hk : v.kind = .mdp) :
    Intersection.agentReward (Intersection.egoLadder G) cfg v = .ok (agentScore cfg v) := by
  unfold Intersection.agentReward
  rw [if_pos hk]
  dsimp only
  congr 1
  have e : (if Intersection.hasArrived v = true then Intersection.ARRIVED_REWARD else
      cfg.collisionReward * Highway.ofBool v.crashed + Intersection.HIGH_SPEED_REWARD *
        Highway.ofBool (decide (v.speedIndex = ((Intersection.egoLadder G).speedCount : Int) - 1))) =
      interScore cfg.collisionReward (OnExit v 25) (v.crashed = true) (v.speedIndex = 2) := by
    unfold interScore
    have h2 : ((Intersection.egoLadder G).speedCount : Int) - 1 = 2 := by norm_num [Intersection.egoLadder]
    rw [h2]
    by_cases h : Intersection.hasArrived v = true
    · rw [if_pos h, if_pos ((inter_arrived hv).1 h)]; rfl
    · rw [if_neg h, if_neg (fun h' => h ((inter_arrived hv).2 h'))]
      unfold Highway.ofBool Intersection.HIGH_SPEED_REWARD
      by_cases h3 : v.speedIndex = 2 <;> cases v.crashed <;> simp [h3]
  rw [e]
  unfold agentScore
  dsimp only
  split
  · unfold normalised lmap Intersection.ARRIVED_REWARD
    simp
  · rfl

theorem agents_find {r : Road} {uid : ℕ} (h : ∃ v ∈ r.vehicles, v.uid = uid) : ∃ v, r.vehicle? uid = some v ∧ v ∈ r.vehicles ∧ v.uid = uid := by
  obtain ⟨w, hw, hu⟩ := h
  cases hf : r.vehicle? uid with
  | none =>
    unfold Road.vehicle? at hf
    rw [List.find?_eq_none] at hf
    exact absurd hu (by simpa using hf w hw)
  | some v =>
    unfold Road.vehicle? at hf
    exact ⟨v, rfl, List.mem_of_find?_eq_some hf, by simpa using List.find?_some hf⟩

theorem egos_ok {e : Env} (h : ∀ uid ∈ e.controlled, ∃ v ∈ e.road.vehicles, v.uid = uid) :
    ∃ vs, Intersection.egos e = .ok vs ∧ Agents e vs := by
  unfold Intersection.egos Agents
  revert h
  generalize e.controlled = us
  intro h
  induction us with
  | nil => exact ⟨[], rfl, rfl, by simp⟩
  | cons u us ih =>
    obtain ⟨vs, h1, h2, h3⟩ := ih fun x hx => h x (List.mem_cons_of_mem _ hx)
    obtain ⟨v, hv, hm, hu⟩ := agents_find (h u List.mem_cons_self)
    refine ⟨v :: vs, ?_, by simp [hu, h2], ?_⟩
    · rw [List.mapM_cons, h1]
      simp only [hv, bind, Except.bind, pure, Except.pure]
    · intro x hx
      rcases List.mem_cons.1 hx with rfl | hx
      · exact hm
      · exact h3 x hx

/-- The controlled vehicles are determined by their identities. -/
theorem agents_unique {e : Env} (hd : (e.road.vehicles.map (·.uid)).Nodup) {vs ws : List Vehicle} (h : Agents e vs) (h' : Agents e ws) : vs = ws := by
  obtain ⟨h1, h2⟩ := h
  obtain ⟨h3, h4⟩ := h'
  rw [← h3] at h1
  clear h3
  induction vs generalizing ws with
  | nil => simp at h1; rw [h1]
  | cons v vs ih =>
    cases ws with
    | nil => simp at h1
    | cons w ws =>
      simp only [List.map_cons, List.cons.injEq] at h1
      have := List.inj_on_of_nodup_map hd (h2 v List.mem_cons_self) (h4 w List.mem_cons_self) h1.1
      rw [this, ih (ws := ws) (h1 := h1.2) (h2 := fun x hx => h2 x (List.mem_cons_of_mem _ hx)) (h4 := fun x hx => h4 x (List.mem_cons_of_mem _ hx))]

private theorem mapM_scores (G : Globals) (cfg : IntersectionConfig) (vs : List Vehicle) (h : ∀ v ∈ vs, Attached interNet v ∧ v.kind = .mdp) :
    vs.mapM (Intersection.agentReward (Intersection.egoLadder G) cfg) = .ok (vs.map (agentScore cfg)) := by
  induction vs with
  | nil => rfl
  | cons v vs ih =>
    obtain ⟨h1, h2⟩ := h v List.mem_cons_self
    rw [List.mapM_cons, agent_reward G cfg v h1 h2, ih fun x hx => h x (List.mem_cons_of_mem _ hx)]
    rfl

/-- **C58.**  The reward is the mean of the scores of the controlled vehicles. -/
theorem inter_reward (G : Globals) (cfg : IntersectionConfig) (ord : SetOrder) (e : Env) (hm : Manned e)
    (hat : ∀ v ∈ e.road.vehicles, v.uid ∈ e.controlled → Attached interNet v ∧ v.kind = .mdp) (a : Option AgentAction) :
    ∃ vs, Agents e vs ∧ vs ≠ [] ∧ (Intersection.cls G cfg ord).reward e a = .ok (mean (vs.map (agentScore cfg))) ∧
      Intersection.agentsInfo (Intersection.egoLadder G) cfg e = .ok (vs.map (agentScore cfg), vs.map (Intersection.agentTerminal cfg e)) := by
  obtain ⟨vs, h1, h2⟩ := egos_ok hm.onRoad
  have hne : vs ≠ [] := by
    rintro rfl
    exact hm.someone (by simpa using h2.1.symm)
  have hs := mapM_scores G cfg vs fun v hv => hat v (h2.2 v hv) (by rw [← h2.1]; exact List.mem_map.2 ⟨v, hv, rfl⟩)
  refine ⟨vs, h2, hne, ?_, ?_⟩
  · simp only [Intersection.cls, Intersection.reward, h1, hs, bind, Except.bind]
    rw [if_neg (by simpa using hne)]
    rfl
  · simp only [Intersection.agentsInfo, h1, hs, bind, Except.bind, pure, Except.pure]

/-- **C58.**  With a penalty for collisions, a score is between the collision reward and 1 (between 0 and 1 if normalised). -/
theorem inter_score_range (cfg : IntersectionConfig) (h : cfg.collisionReward ≤ 0) (v : Vehicle) :
    (cfg.normalizeReward = false → cfg.collisionReward ≤ agentScore cfg v ∧ agentScore cfg v ≤ 1) ∧
    (cfg.normalizeReward = true → 0 ≤ agentScore cfg v ∧ agentScore cfg v ≤ 1) := by
  have key : cfg.collisionReward ≤ interScore cfg.collisionReward (OnExit v 25) (v.crashed = true) (v.speedIndex = 2) ∧
      interScore cfg.collisionReward (OnExit v 25) (v.crashed = true) (v.speedIndex = 2) ≤ 1 := by
    unfold interScore
    split_ifs <;> constructor <;> linarith
  unfold agentScore
  constructor <;> intro hn <;> simp only [hn, if_true, Bool.false_eq_true, if_false]
  · exact key
  · unfold normalised
    have hp : 0 < 1 - cfg.collisionReward := by linarith
    constructor
    · exact div_nonneg (by linarith [key.1]) hp.le
    · rw [div_le_one hp]; linarith [key.2]

private theorem mean_range {xs : List ℝ} (hne : xs ≠ []) {a b : ℝ} (h : ∀ x ∈ xs, a ≤ x ∧ x ≤ b) : a ≤ mean xs ∧ mean xs ≤ b := by
  have hl : (0 : ℝ) < xs.length := by exact_mod_cast List.length_pos_iff.2 hne
  unfold mean
  rw [le_div_iff₀ hl, div_le_iff₀ hl]
  clear hl hne
  induction xs with
  | nil => simp
  | cons x xs ih =>
    obtain ⟨h1, h2⟩ := ih fun y hy => h y (List.mem_cons_of_mem _ hy)
    obtain ⟨h3, h4⟩ := h x List.mem_cons_self
    simp only [List.sum_cons, List.length_cons]
    push_cast
    constructor <;> linarith

/-- What the score does and does not say: a vehicle that has arrived gets 1 even if it has crashed (its crash is not penalised), a crashed one at the
highest speed level gets one more than the collision reward. -/
theorem inter_score_cases (cfg : IntersectionConfig) (hn : cfg.normalizeReward = false) (v : Vehicle) :
    (OnExit v 25 → agentScore cfg v = 1) ∧
    (¬ OnExit v 25 → v.crashed = true → v.speedIndex = 2 → agentScore cfg v = cfg.collisionReward + 1) ∧
    (¬ OnExit v 25 → v.crashed = true → v.speedIndex ≠ 2 → agentScore cfg v = cfg.collisionReward) ∧
    (¬ OnExit v 25 → v.crashed = false → v.speedIndex = 2 → agentScore cfg v = 1) ∧
    (¬ OnExit v 25 → v.crashed = false → v.speedIndex ≠ 2 → agentScore cfg v = 0) := by
  unfold agentScore interScore
  simp only [hn, Bool.false_eq_true, if_false]
  refine ⟨fun h => if_pos h, ?_, ?_, ?_, ?_⟩ <;> intro h1 h2 h3 <;> simp [h1, h2, h3]

/-- **C58, exact termination**: some agent has crashed, all agents have arrived, or the time is over. -/
theorem inter_terminal_iff (G : Globals) (cfg : IntersectionConfig) (ord : SetOrder) (e : Env) (hm : Manned e)
    (hat : ∀ v ∈ e.road.vehicles, v.uid ∈ e.controlled → Attached interNet v) (vs : List Vehicle) (hvs : Agents e vs) :
    ∃ b, (Intersection.cls G cfg ord).terminal e = .ok b ∧
      (b = true ↔ (∃ v ∈ vs, v.crashed = true) ∨ (∀ v ∈ vs, OnExit v 25) ∨ TimeOver cfg e.steps) := by
  obtain ⟨ws, h1, h2⟩ := egos_ok hm.onRoad
  have := agents_unique hm.distinct hvs h2
  subst this
  have hatt : ∀ v ∈ vs, Attached interNet v := fun v hv => hat v (hvs.2 v hv) (by rw [← hvs.1]; exact List.mem_map.2 ⟨v, hv, rfl⟩)
  refine ⟨_, by simp only [Intersection.cls, Intersection.terminal, h1, bind, Except.bind]; rfl, ?_⟩
  simp only [Bool.or_eq_true, List.any_eq_true, List.all_eq_true, Intersection.timeout, decide_eq_true_eq, TimeOver, or_assoc]
  constructor
  · rintro (h | h | h)
    · exact .inl h
    · exact .inr (.inl fun v hv => (inter_arrived (hatt v hv)).1 (h v hv))
    · exact .inr (.inr h)
  · rintro (h | h | h)
    · exact .inl h
    · exact .inr (.inl fun v hv => (inter_arrived (hatt v hv)).2 (h v hv))
    · exact .inr (.inr h)

/-- **C58, per agent**: an agent is done when it has crashed, has arrived, or the time is over. -/
theorem inter_agent_done_iff (cfg : IntersectionConfig) (e : Env) (v : Vehicle) (hv : Attached interNet v) :
    Intersection.agentTerminal cfg e v = true ↔ v.crashed = true ∨ OnExit v 25 ∨ TimeOver cfg e.steps := by
  unfold Intersection.agentTerminal Intersection.timeout TimeOver
  rw [Bool.or_eq_true, Bool.or_eq_true, inter_arrived hv, decide_eq_true_eq]
  tauto

/-! ## Invariants -/

private theorem controlled_of_idm {k : VKind} (h : k.isIDM = true) : k.isControlled = true := by
  revert h; cases k <;> simp [VKind.isIDM, VKind.isControlled]

private theorem InterVehicle.controlled {k : VKind} (hk : k.isIDM = true) {v : Vehicle} (h : InterVehicle k v) : v.kind.isControlled = true := by
  rcases h.kind with e | e
  · rw [e]; rfl
  · rw [e]; exact controlled_of_idm hk

/-- Roads of the intersection are simulated without exceptions. -/
theorem inter_healthy {k : VKind} (hk : k.isIDM = true) {r : Road} (h : InterRoad k r) : Healthy r where
  wf := by rw [h.network]; exact interNet_wf
  attached := by rw [h.network]; exact fun v hv => ⟨(h.fleet v hv).attached, (h.fleet v hv).route⟩
  linear := fun _ => ⟨fun w hw => InterVehicle.controlled hk (h.fleet w hw), h.free⟩
  regulated := fun _ v hv => by
    rw [h.network]
    exact ⟨InterVehicle.controlled hk (h.fleet v hv), (h.fleet v hv).precise, (h.fleet v hv).yielding⟩

/-- Whatever happens on a road of the intersection, it stays one. -/
theorem inter_run {G : Globals} {k : VKind} (hk : k.isIDM = true) {r r' : Road} (h : InterRoad k r) (hr : RoadRun G r r')
    (hl : (0 < G.speedCount ∧ G.speedCount ≤ 3) ∨ ∀ v ∈ r.vehicles, v.kind ≠ .mdp) : InterRoad k r' := by
  have hH := healthy_forever G r r' (inter_healthy hk h) hr
  have hn : r'.network = interNet := (run_network hr).trans h.network
  have hreg : r'.regulated = true := (regulated_run hr).trans h.regulated
  have hkinds := kinds_run hr
  have hfrom : ∀ v ∈ r'.vehicles, ∃ w ∈ r.vehicles, w.uid = v.uid ∧ w.kind = v.kind := by
    intro v hv
    have : (v.uid, v.kind) ∈ r.vehicles.map (fun v => (v.uid, v.kind)) := by
      rw [← hkinds]; exact List.mem_map.2 ⟨v, hv, rfl⟩
    obtain ⟨w, hw, e⟩ := List.mem_map.1 this
    rw [Prod.mk.injEq] at e
    exact ⟨w, hw, e⟩
  have hu : r'.vehicles.map (·.uid) = r.vehicles.map (·.uid) := by
    have := congrArg (List.map Prod.fst) hkinds
    simpa [List.map_map, Function.comp_def] using this
  refine ⟨hn, hreg, no_obstacle_run hr h.free, by rw [hu]; exact h.distinct, ?_⟩
  intro v hv
  obtain ⟨w, hw, _, e⟩ := hfrom v hv
  obtain ⟨h1, h2⟩ := hH.attached v hv
  obtain ⟨_, h3, h4⟩ := hH.regulated hreg v hv
  rw [hn] at h1 h2 h3
  refine ⟨by rw [← e]; exact (h.fleet w hw).kind, h1, h2, h3, h4, ?_⟩
  rcases hl with ⟨l0, l1⟩ | hl
  · exact index_stays G l0 3 (by exact_mod_cast l1) r r' (fun x hx => (h.fleet x hx).level) hr v hv
  · intro hm
    exact absurd (e.trans hm) (hl w hw)

private theorem inter_sub {k : VKind} {r : Road} (h : InterRoad k r) {vs : List Vehicle} (hs : vs.Sublist r.vehicles) (g : Rng) :
    InterRoad k { r with vehicles := vs, rng := g } :=
  ⟨h.network, h.regulated, h.free, h.distinct.sublist (hs.map _), fun v hv => h.fleet v (hs.subset hv)⟩

private theorem inter_add {k : VKind} {r : Road} (h : InterRoad k r) {v : Vehicle} (hv : InterVehicle k v) (hf : ∀ w ∈ r.vehicles, w.uid ≠ v.uid) (g : Rng) :
    InterRoad k { r with vehicles := r.vehicles ++ [v], rng := g } := by
  refine ⟨h.network, h.regulated, h.free, ?_, ?_⟩
  · simp only [List.map_append, List.map_cons, List.map_nil]
    rw [List.nodup_append]
    refine ⟨h.distinct, by simp, ?_⟩
    intro a ha b hb
    obtain ⟨w, hw, rfl⟩ := List.mem_map.1 ha
    rw [List.mem_singleton] at hb
    subst hb
    exact hf w hw
  · intro w hw
    rcases List.mem_append.1 hw with hw | hw
    · exact h.fleet w hw
    · rw [List.mem_singleton] at hw; subst hw; exact hv

private theorem newcomer_vehicle {k : VKind} (hk : k.isIDM = true) {vs : List Vehicle} {a b : Fin 4} {s x : ℝ} {v : Vehicle} (h : Newcomer k vs a b s x v) :
    InterVehicle k v := by
  refine ⟨.inr h.kind, h.attached, h.route, h.precise, by rw [h.calm]; simp, ?_⟩
  rw [h.kind]
  intro e
  rw [e] at hk; cases hk

/-- An attempt to let a vehicle enter, on a road of the intersection: the road stays one, and the vehicles already there stay unchanged. -/
theorem inter_spawn_road (G : Globals) {kind : VKind} (hidm : kind.isIDM = true) (ord : SetOrder) (lon posDev speedDev prob : ℝ) (go : Bool) (r : Road)
    (n : ℕ) (h : InterRoad kind r) : ∃ r' n', Intersection.spawn G kind ord lon posDev speedDev prob go (r, n) = .ok (r', n') ∧ InterRoad kind r' ∧
      SpawnOutcome kind lon posDev speedDev prob r.rng.uniform01.1 go r.vehicles n r'.vehicles n' := by
  obtain ⟨vs, rng, n', h1, h2⟩ := inter_spawn G hidm ord lon posDev speedDev prob go r n h.network
  refine ⟨_, n', h1, ?_, h2⟩
  cases h2 with
  | unlucky _ => exact inter_sub h (List.Sublist.refl _) rng
  | blocked _ _ _ _ _ _ => exact inter_sub h (List.Sublist.refl _) rng
  | enters a b x y v _ hv _ _ => exact inter_add h (newcomer_vehicle hidm hv) hv.fresh rng

/-- What an attempt can change. -/
theorem spawn_outcome_cases {kind : VKind} {lon pd sd prob draw : ℝ} {go : Bool} {vs vs' : List Vehicle} {n n' : ℕ}
    (h : SpawnOutcome kind lon pd sd prob draw go vs n vs' n') :
    vs' = vs ∨ ∃ v, vs' = vs ++ [v] ∧ v.kind = kind ∧ ∀ w ∈ vs, w.uid ≠ v.uid ∧ 15 ≤ (w.pos - v.pos).norm := by
  cases h with
  | unlucky _ => exact .inl rfl
  | blocked _ _ _ _ _ _ => exact .inl rfl
  | enters a b x y v _ hv _ _ => exact .inr ⟨v, rfl, hv.kind, fun w hw => ⟨hv.fresh w hw, hv.apart w hw⟩⟩

/-- **C59, a whole decision**: after the common part of `step`, the leaving vehicles are taken off and one attempt is made to let a vehicle enter; no
exception, and the environment stays ready. -/
theorem inter_after (G : Globals) (cfg : IntersectionConfig) (hc : InterOk cfg) (ord : SetOrder) (e : Env) (h : Ready cfg.sim e)
    (hI : InterRoad cfg.otherVehiclesType e.road) :
    ∃ e', (Intersection.cls G cfg ord).after e = .ok e' ∧ Ready cfg.sim e' ∧ InterRoad cfg.otherVehiclesType e'.road ∧
      SpawnOutcome cfg.otherVehiclesType 0 1 1 cfg.spawnProbability e.road.rng.uniform01.1 false (Intersection.clear e).road.vehicles e.nextUid
        e'.road.vehicles e'.nextUid ∧ e'.controlled = e.controlled ∧ e'.steps = e.steps ∧ e'.time = e.time ∧ e'.done = e.done := by
  have hsub : InterRoad cfg.otherVehiclesType (Intersection.clear e).road := inter_sub hI List.filter_sublist e.road.rng
  obtain ⟨r', n', h1, h2, h3⟩ := inter_spawn_road G hc.traffic ord 0 1 1 cfg.spawnProbability false (Intersection.clear e).road e.nextUid hsub
  refine ⟨{ Intersection.clear e with road := r', nextUid := n' }, ?_, ⟨inter_healthy hc.traffic h2, ⟨h2.distinct, ?_, h.manned.someone⟩, ?_, h.constructed, ?_⟩,
    h2, h3, rfl, rfl, rfl, rfl⟩
  · have hn : (Intersection.clear e).nextUid = e.nextUid := rfl
    simp only [Intersection.cls, Intersection.after, bind, Except.bind, hn, h1, pure, Except.pure]
  · intro uid hu
    obtain ⟨v, hv, rfl⟩ := h.manned.onRoad uid hu
    have hk := inter_keeps_agents e v hv hu
    refine ⟨v, ?_, rfl⟩
    rcases spawn_outcome_cases h3 with e1 | ⟨w, e1, _⟩
    · dsimp only; rw [e1]; exact hk
    · dsimp only; rw [e1]; exact List.mem_append_left _ hk
  · intro v hv hu
    change v ∈ r'.vehicles at hv
    change v.uid ∈ e.controlled at hu
    have old : v ∈ (Intersection.clear e).road.vehicles → v.kind = (agentOf cfg.sim.action).vehicleClass := fun hv =>
      h.fitted v ((List.filter_sublist).subset hv) hu
    rcases spawn_outcome_cases h3 with e1 | ⟨w, e1, _, e3⟩
    · rw [e1] at hv; exact old hv
    · rw [e1] at hv
      rcases List.mem_append.1 hv with hv | hv
      · exact old hv
      · rw [List.mem_singleton] at hv
        subst hv
        obtain ⟨x, hx, hxu⟩ := h.manned.onRoad _ hu
        have hk := inter_keeps_agents e x hx (by rw [hxu]; exact hu)
        exact absurd hxu (e3 x hk).1
  · intro hreg
    exact h.dt hI.regulated

private theorem space_class {cfg : IntersectionConfig} (hc : InterOk cfg) : (agentOf cfg.sim.action).vehicleClass = .mdp := by
  obtain ⟨lo, la, h | h, _⟩ := hc.action <;> rw [h] <;> rfl

/-- The methods of the intersection raise nothing. -/
theorem inter_reliable (G : Globals) (cfg : IntersectionConfig) (hc : InterOk cfg) (ord : SetOrder) :
    Reliable (Intersection.egoLadder G) cfg.sim (Intersection.cls G cfg ord) (fun e => InterRoad cfg.otherVehiclesType e.road) where
  lasting := fun e r _ _ h hr => inter_run hc.traffic h hr (.inl (by norm_num [Intersection.egoLadder]))
  terminal := fun e h hI => by
    obtain ⟨vs, _, hvs⟩ := egos_ok h.manned.onRoad
    obtain ⟨b, hb, _⟩ := inter_terminal_iff G cfg ord e h.manned (fun v hv _ => (hI.fleet v hv).attached) vs hvs
    exact ⟨b, hb⟩
  reward := fun e a h hI _ => by
    obtain ⟨vs, _, _, hr, _⟩ := inter_reward G cfg ord e h.manned
      (fun v hv hu => ⟨(hI.fleet v hv).attached, (h.fitted v hv hu).trans (space_class hc)⟩) (some a)
    exact ⟨_, hr⟩
  cost := fun e h _ => by
    obtain ⟨v, hv, _⟩ := vehicle_total h
    exact .inl ⟨_, by simp only [Intersection.cls, Intersection.cost, hv, bind, Except.bind]; rfl⟩
  after := fun e h hI => by
    obtain ⟨e', h1, h2, h3, _⟩ := inter_after G cfg hc ord e h hI
    exact ⟨e', h1, h2, h3⟩

private theorem mk_uid {G : Globals} {g : Graph} {uid : ℕ} {kind : VKind} {i : LaneIndex} {s : ℝ} {x : Option ℝ} {v : Vehicle}
    (h : Vehicle.makeOnLane G g uid kind i s x = .ok v) : v.uid = uid := by
  unfold Vehicle.makeOnLane Vehicle.mk' at h
  obtain ⟨l, _, h⟩ := bind_ok h
  obtain ⟨j, _, h⟩ := bind_ok h
  obtain ⟨m, _, h⟩ := bind_ok h
  cases h; rfl

private theorem plan_uid {g : Graph} {ord : SetOrder} {v w : Vehicle} {d : String} (h : v.planRouteTo g ord d = .ok w) : w.uid = v.uid := by
  unfold Vehicle.planRouteTo at h
  cases hsp : g.shortestPath ord v.laneIndex.dst d with
  | ok p => rw [hsp] at h; cases h; rfl
  | error e => rw [hsp] at h; cases e <;> cases h; rfl

private theorem prepare_uid {g : Graph} {ord : SetOrder} {v v' : Vehicle} {d : String} {rng rng' : Rng}
    (h : Intersection.prepare g ord v d rng = .ok (v', rng')) : v'.uid = v.uid := by
  unfold Intersection.prepare at h
  split at h
  · obtain ⟨w, hw, h⟩ := bind_ok h
    rw [← plan_uid hw]
    have e := Except.ok.inj h
    have := congrArg Prod.fst e
    dsimp only at this
    rw [← this]
    unfold Env.randomizeVehicle
    split <;> rfl
  · cases h

private theorem fresh_uid (vs : List Vehicle) (n : ℕ) : ∀ w ∈ vs, w.uid < Intersection.freshUid vs n := by
  unfold Intersection.freshUid
  induction vs with
  | nil => simp
  | cons v vs ih =>
    simp only [List.foldr_cons, List.mem_cons]
    rintro w (rfl | hw)
    · exact lt_of_lt_of_le (Nat.lt_succ_self _) (le_max_left _ _)
    · exact lt_of_lt_of_le (ih w hw) (le_max_right _ _)

/-- On any road, an attempt adds at most one vehicle, with an identity of its own. -/
theorem spawn_shape {G : Globals} {kind : VKind} {ord : SetOrder} {lon pd sd prob : ℝ} {go : Bool} {r r' : Road} {n n' : ℕ}
    (h : Intersection.spawn G kind ord lon pd sd prob go (r, n) = .ok (r', n')) :
    r'.vehicles = r.vehicles ∨ ∃ v, r'.vehicles = r.vehicles ++ [v] ∧ ∀ w ∈ r.vehicles, w.uid ≠ v.uid := by
  unfold Intersection.spawn at h
  dsimp only at h
  split at h
  · cases h; exact .inl rfl
  · obtain ⟨⟨ab, g⟩, _, h⟩ := bind_ok h
    dsimp only at h
    obtain ⟨v, hv, h⟩ := bind_ok h
    split at h
    · cases h; exact .inl rfl
    · obtain ⟨⟨v', g'⟩, hv', h⟩ := bind_ok h
      cases h
      refine .inr ⟨v', rfl, ?_⟩
      intro w hw
      rw [prepare_uid hv', mk_uid hv]
      exact (fresh_uid r.vehicles n w hw).ne

/-- The changes of the traffic keep the controlled vehicles and the counters. -/
theorem inter_tidy (G : Globals) (cfg : IntersectionConfig) (ord : SetOrder) : Tidy (Intersection.cls G cfg ord) := by
  have key : ∀ e e', (Intersection.cls G cfg ord).after e = .ok e' → ∃ r n, e' = { Intersection.clear e with road := r, nextUid := n } ∧
      (r.vehicles = (Intersection.clear e).road.vehicles ∨
        ∃ v, r.vehicles = (Intersection.clear e).road.vehicles ++ [v] ∧ ∀ w ∈ (Intersection.clear e).road.vehicles, w.uid ≠ v.uid) := by
    intro e e' h
    simp only [Intersection.cls, Intersection.after] at h
    obtain ⟨⟨r, n⟩, h1, h⟩ := bind_ok h
    cases h
    exact ⟨r, n, rfl, spawn_shape h1⟩
  refine ⟨?_, ?_, ?_, ?_, ?_⟩ <;> intro e e' h <;> obtain ⟨r, n, rfl, h2⟩ := key e e' h
  · rfl
  · rfl
  · rfl
  · rfl
  · intro hm
    have hd : ((Intersection.clear e).road.vehicles.map (·.uid)).Nodup := hm.distinct.sublist (List.filter_sublist.map _)
    refine ⟨?_, ?_, hm.someone⟩
    · dsimp only
      rcases h2 with h2 | ⟨v, h2, h3⟩
      · rw [h2]; exact hd
      · rw [h2]
        simp only [List.map_append, List.map_cons, List.map_nil]
        rw [List.nodup_append]
        refine ⟨hd, by simp, ?_⟩
        intro a ha b hb
        obtain ⟨w, hw, rfl⟩ := List.mem_map.1 ha
        rw [List.mem_singleton] at hb
        subst hb
        exact h3 w hw
    · intro uid hu
      obtain ⟨v, hv, rfl⟩ := hm.onRoad uid hu
      have hk := inter_keeps_agents e v hv hu
      refine ⟨v, ?_, rfl⟩
      rcases h2 with h2 | ⟨w, h2, _⟩
      · dsimp only; rw [h2]; exact hk
      · dsimp only; rw [h2]; exact List.mem_append_left _ hk

/-! ## Placing the agents: removal while iterating -/

private theorem removal_sublist (near : Vehicle → Bool) (vs : List Vehicle) : (Intersection.removeWhileIterating near vs).Sublist vs := by
  fun_induction Intersection.removeWhileIterating near vs with
  | case1 => exact .slnil
  | case2 v h => exact List.nil_sublist _
  | case3 v h w ws ih => exact .cons _ (.cons₂ _ ih)
  | case4 v vs h ih => exact .cons₂ _ ih

/-- **C59, reset**: only vehicles that are near an agent are removed. -/
theorem removal_only_near (near : Vehicle → Bool) (vs : List Vehicle) :
    (Intersection.removeWhileIterating near vs).Sublist vs ∧ ∀ v ∈ vs, near v = false → v ∈ Intersection.removeWhileIterating near vs := by
  refine ⟨removal_sublist near vs, ?_⟩
  fun_induction Intersection.removeWhileIterating near vs with
  | case1 => simp
  | case2 v h =>
    intro x hx hn
    rw [List.mem_singleton] at hx
    subst hx
    rw [hn] at h; cases h
  | case3 v h w ws ih =>
    intro x hx hn
    simp only [List.mem_cons] at hx ⊢
    rcases hx with rfl | rfl | hx
    · rw [hn] at h; cases h
    · exact .inl rfl
    · exact .inr (ih x hx hn)
  | case4 v vs h ih =>
    intro x hx hn
    simp only [List.mem_cons] at hx ⊢
    rcases hx with rfl | hx
    · exact .inl rfl
    · exact .inr (ih x hx hn)

/-- When no two near vehicles follow each other in the list, exactly the near ones are removed. -/
theorem removal_exact_partial (near : Vehicle → Bool) (vs : List Vehicle) (h : vs.IsChain fun v w => ¬ (near v = true ∧ near w = true)) :
    Intersection.removeWhileIterating near vs = vs.filter fun v => !near v := by
  fun_induction Intersection.removeWhileIterating near vs with
  | case1 => rfl
  | case2 v hv => simp [hv]
  | case3 v hv w ws ih =>
    have hw : near w = false := by
      rw [List.isChain_cons_cons] at h
      simpa [hv] using h.1
    have hc : ws.IsChain fun v w => ¬ (near v = true ∧ near w = true) := h.tail.tail
    rw [ih hc]
    simp [hv, hw]
  | case4 v vs hv ih =>
    rw [ih h.tail]
    simp [hv]

/-- The removal is incomplete in general: of two near vehicles that follow each other, the second one stays. -/
theorem removal_skips (near : Vehicle → Bool) (v w : Vehicle) (ws : List Vehicle) (hv : near v = true) (_hw : near w = true) :
    w ∈ Intersection.removeWhileIterating near (v :: w :: ws) := by
  simp [Intersection.removeWhileIterating, hv]

/-! ## Reset -/

private theorem traffic_kinds {kind : VKind} {lon pd sd prob draw : ℝ} {go : Bool} {vs vs' : List Vehicle} {n n' : ℕ}
    (h : SpawnOutcome kind lon pd sd prob draw go vs n vs' n') (hk : ∀ v ∈ vs, v.kind = kind) : ∀ v ∈ vs', v.kind = kind := by
  rcases spawn_outcome_cases h with e | ⟨w, e, hw, _⟩
  · rw [e]; exact hk
  · rw [e]
    intro v hv
    rcases List.mem_append.1 hv with hv | hv
    · exact hk v hv
    · rw [List.mem_singleton] at hv; rw [hv]; exact hw

private theorem spawnAll_ok (G : Globals) (cfg : IntersectionConfig) (hc : InterOk cfg) (ord : SetOrder) (r : Road) (n : ℕ)
    (h : InterRoad cfg.otherVehiclesType r) (hk : ∀ v ∈ r.vehicles, v.kind = cfg.otherVehiclesType) :
    ∃ s, Intersection.spawnAll G cfg ord (r, n) = .ok s ∧ InterRoad cfg.otherVehiclesType s.1 ∧ ∀ v ∈ s.1.vehicles, v.kind = cfg.otherVehiclesType := by
  unfold Intersection.spawnAll
  obtain ⟨s, h1, h2⟩ := Road.foldlM_total (I := fun s : Road × ℕ => InterRoad cfg.otherVehiclesType s.1 ∧ ∀ v ∈ s.1.vehicles, v.kind = cfg.otherVehiclesType)
    (f := fun s t => Intersection.spawn G cfg.otherVehiclesType ord (Intersection.linspace80 cfg.initialVehicleCount t) 1 1 (6 / 10) false s)
    (List.range (cfg.initialVehicleCount - 1)) (by
      rintro ⟨r, n⟩ t _ ⟨h1, h2⟩
      obtain ⟨r', n', e, h3, h4⟩ := inter_spawn_road G hc.traffic ord (Intersection.linspace80 cfg.initialVehicleCount t) 1 1 (6 / 10) false r n h1
      exact ⟨(r', n'), e, h3, traffic_kinds h4 h2⟩) (r, n) ⟨h, hk⟩
  exact ⟨s, h1, h2⟩

/-- **C59, the traffic created by a reset** (before the three seconds during which it drives): one attempt less than the configured number of vehicles. -/
theorem inter_initial_traffic (G : Globals) (cfg : IntersectionConfig) (hc : InterOk cfg) (ord : SetOrder) (r : Road) (n : ℕ)
    (h : InterRoad cfg.otherVehiclesType r) (he : r.vehicles = []) :
    ∃ r' n', Intersection.spawnAll G cfg ord (r, n) = .ok (r', n') ∧ InitialTraffic cfg.otherVehiclesType cfg.initialVehicleCount (cfg.initialVehicleCount - 1) r'.vehicles := by
  unfold Intersection.spawnAll
  generalize cfg.initialVehicleCount - 1 = k
  have key : ∃ r' n', (List.range k).foldlM (fun s t => Intersection.spawn G cfg.otherVehiclesType ord (Intersection.linspace80 cfg.initialVehicleCount t) 1 1 (6 / 10) false s) (r, n) = .ok (r', n') ∧
      InterRoad cfg.otherVehiclesType r' ∧ InitialTraffic cfg.otherVehiclesType cfg.initialVehicleCount k r'.vehicles := by
    induction k with
    | zero => exact ⟨r, n, rfl, h, by rw [he]; exact ⟨by simp, .nil, by simp⟩⟩
    | succ k ih =>
      obtain ⟨r1, n1, e1, h1, t1⟩ := ih
      obtain ⟨r2, n2, e2, h2, o⟩ := inter_spawn_road G hc.traffic ord (Intersection.linspace80 cfg.initialVehicleCount k) 1 1 (6 / 10) false r1 n1 h1
      refine ⟨r2, n2, ?_, h2, ?_⟩
      · rw [List.range_succ, List.foldlM_append, e1]
        simp only [bind, Except.bind, List.foldlM_cons, List.foldlM_nil, e2]
        rfl
      · have old : ∀ v ∈ r1.vehicles, ∃ t < k + 1, ∃ (a b : Fin 4) (x y : ℝ), Newcomer cfg.otherVehiclesType [] a b (80 * ((t : ℝ) / ((cfg.initialVehicleCount : ℝ) - 1)) + 5 + x) (8 + y) v := by
          intro v hv
          obtain ⟨t, ht, q⟩ := t1.each v hv
          exact ⟨t, by omega, q⟩
        have same : InitialTraffic cfg.otherVehiclesType cfg.initialVehicleCount (k + 1) r1.vehicles := ⟨t1.atMost.trans (Nat.le_succ k), t1.apart, old⟩
        generalize hvs : r2.vehicles = vs at o
        generalize r1.rng.uniform01.1 = draw at o
        cases o with
        | unlucky _ => exact same
        | blocked _ _ _ _ _ _ => exact same
        | enters a b x y v _ hv _ _ =>
          refine ⟨?_, ?_, ?_⟩
          · rw [List.length_append]; exact Nat.succ_le_succ t1.atMost
          · rw [List.pairwise_append]
            refine ⟨t1.apart, by simp, fun w hw v' hv' => ?_⟩
            rw [List.mem_singleton] at hv'
            rw [hv']
            exact ⟨hv.apart w hw, hv.fresh w hw⟩
          · intro w hw
            rcases List.mem_append.1 hw with hw | hw
            · exact old w hw
            · rw [List.mem_singleton] at hw
              rw [hw]
              refine ⟨k, Nat.lt_succ_self k, a, b, x, y, ?_⟩
              have e : 80 * ((k : ℝ) / ((cfg.initialVehicleCount : ℝ) - 1)) + 5 + x = Intersection.linspace80 cfg.initialVehicleCount k + 5 + x * 1 := by
                unfold Intersection.linspace80; ring
              rw [e, show 8 + y = 8 + y * 1 by ring]
              exact { hv with fresh := by simp, apart := by simp }
  obtain ⟨r', n', e, -, t⟩ := key
  exact ⟨r', n', e, t⟩

private theorem frames_ok (G : Globals) {k : VKind} (hk : k.isIDM = true) (dt : ℝ) (d0 : 0 < dt) (d1 : dt ≤ 1 / 2) (n : ℕ) (r : Road) (h : InterRoad k r)
    (hv : ∀ v ∈ r.vehicles, v.kind = k) : ∃ r', Intersection.runFrames G dt n r = .ok r' ∧ InterRoad k r' ∧ ∀ v ∈ r'.vehicles, v.kind = k := by
  have hne : k ≠ .mdp := by rintro rfl; cases hk
  have keep : ∀ {r r' : Road}, InterRoad k r → (∀ v ∈ r.vehicles, v.kind = k) → RoadRun G r r' → InterRoad k r' ∧ ∀ v ∈ r'.vehicles, v.kind = k := by
    intro r r' h hv hr
    refine ⟨inter_run hk h hr (.inr fun v hm => by rw [hv v hm]; exact hne), ?_⟩
    intro v hm
    have : (v.uid, v.kind) ∈ r.vehicles.map (fun v => (v.uid, v.kind)) := by
      rw [← kinds_run hr]; exact List.mem_map.2 ⟨v, hm, rfl⟩
    obtain ⟨w, hw, e⟩ := List.mem_map.1 this
    rw [Prod.mk.injEq] at e
    rw [← e.2]; exact hv w hw
  induction n generalizing r with
  | zero => exact ⟨r, rfl, h, hv⟩
  | succ n ih =>
    obtain ⟨r1, h1⟩ := roadAct_never_raises G r (inter_healthy hk h)
    obtain ⟨k1, k2⟩ := keep h hv (.tail (.refl _) (.act h1))
    obtain ⟨r2, h2⟩ := roadStep_never_raises r1 (inter_healthy hk k1) dt (fun _ => ⟨d0, d1⟩)
    obtain ⟨k3, k4⟩ := keep k1 k2 (.tail (.refl _) (.step dt h2))
    obtain ⟨r', h3, h4⟩ := ih r2 k3 k4
    refine ⟨r', ?_, h4⟩
    unfold Intersection.runFrames Intersection.runFrame
    simp only [h1, h2, h3, bind, Except.bind]

private theorem ego_level (G : Globals) : Vehicle.speedToIndex (Intersection.egoLadder G) 10 = 2 ∧ Vehicle.indexToSpeed (Intersection.egoLadder G) 2 = 9 := by
  constructor
  · unfold Vehicle.speedToIndex Intersection.egoLadder
    dsimp only
    have h := abs_le.1 (npRound_near ((10 - 0) / (9 - 0) * (((3 : ℕ) : ℝ) - 1)))
    have e : npRound ((10 - 0) / (9 - 0) * (((3 : ℕ) : ℝ) - 1)) = 2 := by
      set k := npRound ((10 - 0) / (9 - 0) * (((3 : ℕ) : ℝ) - 1))
      norm_num at h
      have h1 : (1 : ℝ) < k := by linarith
      have h2 : (k : ℝ) < 3 := by linarith
      have h3 : (1 : ℤ) < k := by exact_mod_cast h1
      have h4 : k < (3 : ℤ) := by exact_mod_cast h2
      omega
    rw [e]; rfl
  · unfold Vehicle.indexToSpeed Intersection.egoLadder
    norm_num

private theorem destination_ok (cfg : IntersectionConfig) (rng : Rng) : ∃ d g, Intersection.egoDestination cfg rng = .ok (d, g) ∧ Bound cfg d := by
  have random : ∃ d g, Intersection.egoDestination.randomDestination rng = .ok (d, g) ∧ ∃ b : Fin 4, b ≠ 0 ∧ d = outer b := by
    obtain ⟨k, g, hk, hl⟩ := randint_ok rng (n := 3) (by norm_num)
    refine ⟨_, g, by unfold Intersection.egoDestination.randomDestination; simp only [hk, bind, Except.bind, pure, Except.pure]; rfl, ⟨k + 1, by omega⟩, ?_, ?_⟩
    · intro h
      have := congrArg Fin.val h
      simp at this
    · have : k = 0 ∨ k = 1 ∨ k = 2 := by omega
      rcases this with rfl | rfl | rfl <;> rfl
  unfold Intersection.egoDestination
  cases hd : cfg.destination with
  | none =>
    obtain ⟨d, g, h1, h2⟩ := random
    exact ⟨d, g, h1, .inr ⟨.inl hd, h2⟩⟩
  | some d =>
    dsimp only
    by_cases h : d ≠ ""
    · rw [if_pos h]; exact ⟨d, rng, rfl, .inl ⟨d, hd, h, rfl⟩⟩
    · rw [if_neg h]
      push Not at h
      subst h
      obtain ⟨d, g, h1, h2⟩ := random
      exact ⟨d, g, h1, .inr ⟨.inr hd, h2⟩⟩

/-- What holds while the agents are being placed, `m` of them already. -/
private structure Placing (cfg : IntersectionConfig) (draws : ℕ → ℝ) (m : ℕ) (s : Road × ℕ × List ℕ) : Prop where
  road : InterRoad cfg.otherVehiclesType s.1
  count : s.2.2.length = m
  below : ∀ u ∈ s.2.2, u < s.2.1
  distinct : s.2.2.Nodup
  agents : ∀ v ∈ s.1.vehicles, v.uid ∈ s.2.2 → v.kind = .mdp
  others : ∀ v ∈ s.1.vehicles, v.uid ∉ s.2.2 → v.kind = cfg.otherVehiclesType
  stream : s.1.rng.reals = draws
  starts : ∃ ws, Starts cfg draws s.2.2 s.1.vehicles ws

private theorem fresh_from (vs : List Vehicle) (n : ℕ) : n ≤ Intersection.freshUid vs n := by
  unfold Intersection.freshUid
  induction vs with
  | nil => simp
  | cons v vs ih => exact ih.trans (le_max_right _ _)

private theorem addEgo_ok (G : Globals) (cfg : IntersectionConfig) (hc : InterOk cfg) (ord : SetOrder) (draws : ℕ → ℝ) (m : ℕ) (s : Road × ℕ × List ℕ)
    (h : Placing cfg draws m s) : ∃ s', Intersection.addEgo G cfg ord s m = .ok s' ∧ Placing cfg draws (m + 1) s' := by
  obtain ⟨r, n, us⟩ := s
  have hwf := interNet_wf
  have hclass : cfg.sim.action.agent.vehicleClass = .mdp := by rw [← agentOf_agent]; exact space_class hc
  set K : Fin 4 := ⟨m % 4, Nat.mod_lt _ (by norm_num)⟩ with hK
  have hnames : Intersection.node "o" (m % 4) = outer K ∧ Intersection.node "ir" (m % 4) = ingress K :=
    side_names (m % 4) (Nat.mod_lt _ (by norm_num))
  obtain ⟨d, g, hd, hb⟩ := destination_ok cfg r.rng
  set x := g.normal.1 with hx
  set uid := Intersection.freshUid r.vehicles n with huid
  obtain ⟨a1, _, a3, a4, _⟩ := access_point K 60
  have hhead : (accessLane K).headingAt 60 = (accessLane K).headingAt (60 + 5 * x) := a3.trans (access_point K (60 + 5 * x)).2.2.1.symm
  obtain ⟨v, h1, h2, h3, h4⟩ := mk'_total G hwf (by simp [interNet]) uid .mdp ((accessLane K).position (60 + 5 * x) 0) ((accessLane K).headingAt 60)
    (accessLane K).speedLimit
  obtain ⟨route, hp1, _, _⟩ := planRoute_spec interNet hwf.toIsPyGraph ord v d
  obtain ⟨hq1, _, _⟩ := planRoute_route interNet hwf.toIsPyGraph ord v _ d h3.here hp1
  have hq4 := planned_precise ord v d h3.here _ hp1
  obtain ⟨l1, l2⟩ := ego_level G
  set w : Vehicle := { v with route := some (v.laneIndex.toStep :: route), speedIndex := 2, targetSpeed := 9 } with hw
  set near : Vehicle → Bool := fun y => decide (y.uid ≠ uid) && decide ((y.pos - w.pos).norm < 20) with hnear
  set vs := Intersection.removeWhileIterating near (r.vehicles ++ [w]) with hvs
  obtain ⟨hsub, hkeep⟩ := removal_only_near near (r.vehicles ++ [w])
  have hwu : w.uid = uid := h2.uid
  have hfr : ∀ y ∈ r.vehicles, y.uid ≠ w.uid := fun y hy => by rw [hwu]; exact (fresh_uid r.vehicles n y hy).ne
  have hun : n ≤ uid := fresh_from r.vehicles n
  have hnotin : uid ∉ us := fun hin => by have := h.below uid hin; dsimp only at this; omega
  have hwI : InterVehicle cfg.otherVehiclesType w :=
    ⟨.inl h2.kind, ⟨h3.here, h3.lane, h3.target⟩, hq1, hq4, by
      change v.isYielding = true → _
      rw [h2.yielding]; simp, fun _ => by change 0 ≤ (2 : ℤ) ∧ (2 : ℤ) < 3; norm_num⟩
  have hroad : InterRoad cfg.otherVehiclesType { r with vehicles := vs, rng := g.normal.2 } := by
    have := inter_sub (inter_add h.road hwI hfr g.normal.2) (vs := vs) hsub g.normal.2
    exact this
  have hmem : ∀ y ∈ vs, y ∈ r.vehicles ∨ y = w := by
    intro y hy
    rcases List.mem_append.1 (hsub.subset hy) with hy | hy
    · exact .inl hy
    · rw [List.mem_singleton] at hy; exact .inr hy
  have hself : w ∈ vs := hkeep w (by simp) (by simp [hnear, hwu])
  have hagent : InterAgent cfg K w := by
    refine ⟨h2.kind, h2.speed.trans a4, rfl, rfl, h2.crashed, x, d, hb, h2.pos, h2.heading.trans hhead, ?_⟩
    intro x0 x1
    rw [hhead, inter_here K (60 + 5 * x) (by linarith) (by linarith)] at h4
    have hi : v.laneIndex = ⟨outer K, ingress K, 0⟩ := (Except.ok.inj h4).symm
    refine ⟨hi, ?_⟩
    rintro b hbk rfl
    rw [inter_trip ord v K b hbk.symm 0 hi] at hp1
    exact (congrArg Vehicle.route (Except.ok.inj hp1)).symm
  refine ⟨({ r with vehicles := vs, rng := g.normal.2 }, uid + 1, us ++ [uid]), ?_, ⟨hroad, ?_, ?_, ?_, ?_, ?_, ?_, ?_⟩⟩
  · have hlane : r.network.getLane ⟨Intersection.node "o" (m % 4), Intersection.node "ir" (m % 4), 0⟩ = .ok (accessLane K) := by
      rw [hnames.1, hnames.2, h.road.network]
      exact getLane_of_hasLane hwf.toIsPyGraph (i := ⟨outer K, ingress K, 0⟩) rfl (access_lane K)
    have hr : r.network = interNet := h.road.network
    unfold Intersection.addEgo
    dsimp only
    rw [hlane]
    simp only [bind, Except.bind, hd]
    rw [hclass, hr, h1]
    dsimp only
    rw [if_pos h2.kind, hp1]
    dsimp only
    rw [a4, l1, l2]
    rfl
  · simp [← h.count]
  · intro u hu
    rcases List.mem_append.1 hu with hu | hu
    · have := h.below u hu
      dsimp only at this ⊢
      omega
    · rw [List.mem_singleton] at hu
      subst hu
      exact Nat.lt_succ_self _
  · dsimp only
    rw [List.nodup_append]
    refine ⟨h.distinct, by simp, ?_⟩
    intro a ha b hb
    rw [List.mem_singleton] at hb
    subst hb
    exact fun e => hnotin (e ▸ ha)
  · intro y hy hu
    rcases hmem y hy with hy | rfl
    · rcases List.mem_append.1 hu with hu | hu
      · exact h.agents y hy hu
      · rw [List.mem_singleton] at hu
        exact absurd (hu.trans hwu.symm) (hfr y hy)
    · exact h2.kind
  · intro y hy hu
    rcases hmem y hy with hy | rfl
    · exact h.others y hy fun hin => hu (List.mem_append_left _ hin)
    · exact absurd (List.mem_append_right us (List.mem_singleton.2 hwu)) hu
  · have hl := (Intersection.destination_later hd).reals
    have hs := h.stream
    exact hl.trans hs
  · obtain ⟨ws, g1, g2, g3, g4⟩ := h.starts
    dsimp only at g1 g2 g3
    have hlen : ws.length = m := by rw [← h.count]; dsimp only; rw [← g1, List.length_map]
    refine ⟨ws ++ [w], by simp [g1, hwu], ?_, ?_, ?_⟩
    rotate_left 2
    · intro j y hj
      rcases Nat.lt_or_ge j m with hlt | hge
      · rw [List.getElem?_append_left (by omega)] at hj
        exact g4 j y hj
      · rw [List.getElem?_append_right (by omega), hlen] at hj
        have hjm : j - m = 0 := by
          have := (List.getElem?_eq_some_iff.1 hj).1
          simpa using this
        obtain rfl : j = m := by omega
        rw [Nat.sub_self] at hj
        obtain rfl : w = y := by simpa using hj
        refine ⟨g.rpos, ?_⟩
        have hl := (Intersection.destination_later hd).reals
        have hs := h.stream
        dsimp only at hs
        rw [← hs, ← hl]
        exact h2.pos
    · intro y hy hu
      rcases hmem y hy with hy | rfl
      · rcases List.mem_append.1 hu with hu | hu
        · exact List.mem_append_left _ (g2 y hy hu)
        · rw [List.mem_singleton] at hu
          exact absurd (hu.trans hwu.symm) (hfr y hy)
      · simp
    · intro j y hj
      have hlast : (ws ++ [w])[m]? = some w := by
        rw [List.getElem?_append_right (by omega), hlen]; simp
      rcases Nat.lt_trichotomy j m with hlt | heq | hgt
      · rw [List.getElem?_append_left (by omega)] at hj
        obtain ⟨k1, k2⟩ := g3 j y hj
        refine ⟨k1, ?_⟩
        rcases k2 with k2 | ⟨k, y', k3, k4, k5⟩
        · by_cases hd : (y.pos - w.pos).norm < 20
          · exact .inr ⟨m, w, hlt, hlast, hd⟩
          · exact .inl (hkeep y (List.mem_append_left _ k2) (by simp only [hnear, decide_eq_false hd, Bool.and_false]))
        · refine .inr ⟨k, y', k3, ?_, k5⟩
          rw [List.getElem?_append_left (List.getElem?_eq_some_iff.1 k4).1]; exact k4
      · subst heq
        rw [hlast] at hj
        cases hj
        exact ⟨hagent, .inl hself⟩
      · rw [List.getElem?_eq_none (by simp; omega)] at hj
        cases hj

private theorem addAll_ok (G : Globals) (cfg : IntersectionConfig) (hc : InterOk cfg) (ord : SetOrder) (draws : ℕ → ℝ) (m : ℕ) (r : Road) (n : ℕ)
    (h : Placing cfg draws 0 (r, n, [])) : ∃ s, (List.range m).foldlM (Intersection.addEgo G cfg ord) (r, n, []) = .ok s ∧ Placing cfg draws m s := by
  induction m with
  | zero => exact ⟨_, rfl, h⟩
  | succ m ih =>
    obtain ⟨s, h1, h2⟩ := ih
    obtain ⟨s', h3, h4⟩ := addEgo_ok G cfg hc ord draws m s h2
    refine ⟨s', ?_, h4⟩
    rw [List.range_succ, List.foldlM_append, h1]
    simp only [bind, Except.bind, List.foldlM_cons, List.foldlM_nil, h3, pure, Except.pure]

/-- **Reset of the intersection.**  Whatever the seed, it succeeds, leaves the class attributes changed, and gives the configured number of agents, placed
as documented, in a traffic of the configured class.  The environment is ready if all agents are on the road: with one agent it is always so, and an
agent is missing only if a later one has started within 20 m of it. -/
theorem inter_reset (G : Globals) (cfg : IntersectionConfig) (hc : InterOk cfg) (ord : SetOrder) (rng : Rng) :
    ∃ e ws, Intersection.reset G cfg ord rng = .ok (Intersection.setTraffic cfg.otherVehiclesType G, e) ∧ InterRoad cfg.otherVehiclesType e.road ∧
      e.steps = 0 ∧ e.time = 0 ∧ e.done = false ∧ e.controlled.length = cfg.controlledVehicles ∧ e.controlled.Nodup ∧
      (∀ v ∈ e.road.vehicles, v.uid ∉ e.controlled → v.kind = cfg.otherVehiclesType) ∧ Starts cfg rng.reals e.controlled e.road.vehicles ws ∧
      ((∀ v ∈ ws, v ∈ e.road.vehicles) → Ready cfg.sim e) ∧
      (cfg.controlledVehicles = 1 → Ready cfg.sim e) := by
  obtain ⟨f, hf2, hf⟩ := hc.frequency
  obtain ⟨lo, la, hact, hlola⟩ := hc.action
  have hagent : cfg.sim.action.agent = .discrete lo la := by
    rcases hact with hact | hact <;> rw [hact] <;> rfl
  have hinit : AgentType.init (.discrete lo la) = .ok (.discrete lo la) := by
    rcases hlola with rfl | rfl
    · cases la <;> rfl
    · cases lo <;> rfl
  set G' := Intersection.setTraffic cfg.otherVehiclesType G with hG'
  have h0 : InterRoad cfg.otherVehiclesType (Intersection.makeRoad cfg rng) :=
    ⟨inter_network, rfl, by intro o ho; exact absurd ho (List.not_mem_nil), by simp [Intersection.makeRoad], by intro v hv; exact absurd hv (List.not_mem_nil)⟩
  obtain ⟨s1, p1, q1, k1⟩ := spawnAll_ok G' cfg hc ord _ 0 h0 (by intro v hv; cases hv)
  have hpos : (0 : ℝ) < f := by exact_mod_cast (by omega : 0 < f)
  have d0 : 0 < 1 / cfg.sim.simulationFrequency := by rw [hf]; positivity
  have d1 : 1 / cfg.sim.simulationFrequency ≤ 1 / 2 := by
    rw [hf]
    exact one_div_le_one_div_of_le (by norm_num) (by exact_mod_cast hf2)
  have hwarm : Intersection.warmupFrames cfg = .ok (3 * f) := by
    unfold Intersection.warmupFrames
    rw [hf]
    simp
  obtain ⟨r2, p2, q2, k2⟩ := frames_ok G' hc.traffic _ d0 d1 (3 * f) s1.1 q1 k1
  obtain ⟨r3, n3, p3, q3, o3⟩ := inter_spawn_road G' hc.traffic ord 60 (1 / 10) 0 1 true r2 s1.2 q2
  have k3 := traffic_kinds o3 k2
  obtain ⟨⟨r4, n4, us⟩, p4, q4⟩ := addAll_ok G' cfg hc ord rng.reals cfg.controlledVehicles r3 n3
    ⟨q3, rfl, by simp, by simp, by simp, fun v hv _ => k3 v hv,
      ((Intersection.spawnAll_later p1).trans ((Intersection.runFrames_later p2).trans (Intersection.spawn_later p3))).reals, [], rfl, by simp, by simp, by simp⟩
  have hmade : Intersection.makeVehicles G cfg ord (Intersection.makeRoad cfg rng) = .ok (G', r4, n4, us) := by
    unfold Intersection.makeVehicles
    simp only [bind, Except.bind, pure, Except.pure]
    rw [← hG', p1, hwarm]
    dsimp only
    rw [p2]
    dsimp only
    rw [p3]
    dsimp only
    rw [p4]
  have hready : (∀ uid ∈ us, ∃ v ∈ r4.vehicles, v.uid = uid) → Ready cfg.sim { road := r4, controlled := us, nextUid := n4 } := by
    intro hon
    refine ⟨inter_healthy hc.traffic q4.road, ⟨q4.road.distinct, hon, ?_⟩, ?_, ?_, fun _ => ⟨d0, d1⟩⟩
    · intro hnil
      have := q4.count
      dsimp only at hnil this
      rw [hnil] at this
      have h1 := hc.someone
      rw [← this] at h1
      simp at h1
    · intro v hv hu
      rw [space_class hc]
      exact q4.agents v hv hu
    · rw [agentOf_agent, hagent]; exact ⟨_, hinit⟩
  obtain ⟨ws, w1, w2, w3, w4⟩ := q4.starts
  dsimp only at w1 w2 w3
  have hready' : (∀ v ∈ ws, v ∈ r4.vehicles) → Ready cfg.sim { road := r4, controlled := us, nextUid := n4 } := by
    intro h
    refine hready fun uid hu => ?_
    rw [← w1] at hu
    obtain ⟨v, hv, rfl⟩ := List.mem_map.1 hu
    exact ⟨v, h v hv, rfl⟩
  refine ⟨{ road := r4, controlled := us, nextUid := n4 }, ws, ?_, q4.road, rfl, rfl, rfl, q4.count, q4.distinct, q4.others, ⟨w1, w2, w3, w4⟩, hready', ?_⟩
  · unfold Intersection.reset
    rw [hagent, hinit]
    simp only [bind, Except.bind]
    rw [hmade]
    rfl
  · intro h1
    refine hready' ?_
    have hl : ws.length = 1 := by
      have hc := q4.count
      dsimp only at hc
      rw [h1, ← w1, List.length_map] at hc
      exact hc
    obtain ⟨v, rfl⟩ := List.length_eq_one_iff.1 hl
    intro y hy
    rw [List.mem_singleton] at hy
    subst hy
    rcases (w3 0 y rfl).2 with h | ⟨k, y', k1, k2, _⟩
    · exact h
    · rw [List.getElem?_eq_none (by simpa using Nat.succ_le_of_lt k1)] at k2
      cases k2

private theorem norm_far {v : Vec2} (h : 20 ≤ |v.x| ∨ 20 ≤ |v.y|) : ¬ v.norm < 20 := by
  rw [not_lt]
  rcases h with h | h
  · exact h.trans (Real.abs_le_sqrt (by nlinarith [sq_nonneg v.y]))
  · exact h.trans (Real.abs_le_sqrt (by nlinarith [sq_nonneg v.x]))

/-- Up to four agents that start on different sides, no further than 90 m along their access lanes (10 m before the crossing; they are drawn around 60 m
with a deviation of 5 m), do not remove each other: the environment is ready. -/
theorem inter_four (cfg : IntersectionConfig) (draws : ℕ → ℝ) (us : List ℕ) (vs ws : List Vehicle) (h4 : us.length ≤ 4) (h : Starts cfg draws us vs ws)
    (hx : ∀ (j : Fin 4) (v : Vehicle), ws[(j : ℕ)]? = some v → ((accessLane j).localCoordinates v.pos).1 ≤ 90) : ∀ v ∈ ws, v ∈ vs := by
  obtain ⟨h1, h2, h3, _⟩ := h
  have hl : ws.length ≤ 4 := by rw [← h1, List.length_map] at h4; exact h4
  have at_ : ∀ (j : ℕ) (v : Vehicle) (hj : ws[j]? = some v), ∃ (hj4 : j < 4) (s : ℝ), s ≤ 90 ∧ v.pos = (accessLane ⟨j, hj4⟩).position s 0 := by
    intro j v hj
    have hlt := (List.getElem?_eq_some_iff.1 hj).1
    obtain ⟨x, d, _, hp, _⟩ := (h3 j v hj).1.place
    have hmod : (⟨j % 4, Nat.mod_lt _ (by norm_num)⟩ : Fin 4) = ⟨j, by omega⟩ := by
      ext; exact Nat.mod_eq_of_lt (by omega)
    rw [hmod] at hp
    refine ⟨by omega, 60 + 5 * x, ?_, hp⟩
    have := hx ⟨j, by omega⟩ v hj
    rw [hp, (access_point _ _).2.2.2.2] at this
    exact this
  intro v hv
  obtain ⟨j, hj⟩ := List.getElem?_of_mem hv
  rcases (h3 j v hj).2 with h | ⟨k, w, k1, k2, k3⟩
  · exact h
  · exfalso
    obtain ⟨j4, s, hs, hp⟩ := at_ j v hj
    obtain ⟨k4, t, ht, hq⟩ := at_ k w k2
    rw [hp, hq, (access_point _ _).1, (access_point _ _).1] at k3
    revert k3
    apply norm_far
    have : (j = 0 ∧ k = 1) ∨ (j = 0 ∧ k = 2) ∨ (j = 0 ∧ k = 3) ∨ (j = 1 ∧ k = 2) ∨ (j = 1 ∧ k = 3) ∨ (j = 2 ∧ k = 3) := by omega
    rcases this with ⟨rfl, rfl⟩ | ⟨rfl, rfl⟩ | ⟨rfl, rfl⟩ | ⟨rfl, rfl⟩ | ⟨rfl, rfl⟩ | ⟨rfl, rfl⟩
    · left; change 20 ≤ |2 - (-111 + t)|; rw [le_abs]; left; linarith
    · right; change 20 ≤ |(111 - s) - (-111 + t)|; rw [le_abs]; left; linarith
    · right; change 20 ≤ |(111 - s) - (-2)|; rw [le_abs]; left; linarith
    · right; change 20 ≤ |2 - (-111 + t)|; rw [le_abs]; left; linarith
    · left; change 20 ≤ |(-111 + s) - (111 - t)|; rw [le_abs]; right; linarith
    · left; change 20 ≤ |-2 - (111 - t)|; rw [le_abs]; right; linarith

/-! ## Whole episodes -/

/-- `info["agents_rewards"]` and `info["agents_dones"]`, computed after the traffic has been updated, describe the agents as they were when the reward
was computed: the reward of the step is the mean of `agents_rewards`, and an agent is done when it has crashed, has arrived, or the time is over. -/
theorem inter_info (G : Globals) (cfg : IntersectionConfig) (hc : InterOk cfg) (ord : SetOrder) (e e' : Env) (h : Ready cfg.sim e)
    (hI : InterRoad cfg.otherVehiclesType e.road) (he : (Intersection.cls G cfg ord).after e = .ok e') (a : Option AgentAction) :
    ∃ vs dones, Agents e vs ∧ Agents e' vs ∧ Intersection.agentsInfo (Intersection.egoLadder G) cfg e' = .ok (vs.map (agentScore cfg), dones) ∧
      (Intersection.cls G cfg ord).reward e a = .ok (mean (vs.map (agentScore cfg))) ∧
      List.Forall₂ (fun v d => (d : Bool) = true ↔ v.crashed = true ∨ OnExit v 25 ∨ TimeOver cfg e.steps) vs dones := by
  obtain ⟨e1, h1, h2, h3, h4, h5, h6, _, _⟩ := inter_after G cfg hc ord e h hI
  rw [he] at h1
  cases h1
  have fit : ∀ f : Env, Ready cfg.sim f → InterRoad cfg.otherVehiclesType f.road →
      ∀ v ∈ f.road.vehicles, v.uid ∈ f.controlled → Attached interNet v ∧ v.kind = .mdp :=
    fun f hf hi v hv hu => ⟨(hi.fleet v hv).attached, (hf.fitted v hv hu).trans (space_class hc)⟩
  obtain ⟨vs, a1, a2, a3, _⟩ := inter_reward G cfg ord e h.manned (fit e h hI) a
  obtain ⟨ws, b1, b2, _, b4⟩ := inter_reward G cfg ord e' h2.manned (fit e' h2 h3) a
  have hsame : Agents e' vs := by
    refine ⟨a1.1.trans h5.symm, fun v hv => ?_⟩
    have hk : v ∈ (Intersection.clear e).road.vehicles :=
      inter_keeps_agents e v (a1.2 v hv) (by rw [← a1.1]; exact List.mem_map.2 ⟨v, hv, rfl⟩)
    rcases spawn_outcome_cases h4 with e1 | ⟨w, e1, _⟩
    · rw [e1]; exact hk
    · rw [e1]; exact List.mem_append_left _ hk
  have := agents_unique h2.manned.distinct b1 hsame
  subst this
  refine ⟨ws, _, a1, hsame, b4, a3, ?_⟩
  rw [List.forall₂_map_right_iff, List.forall₂_same]
  intro v hv
  rw [← h6]
  exact inter_agent_done_iff cfg e' v (h3.fleet v (hsame.2 v hv)).attached

/-- **C58, whole episodes.**  From any ready state of the intersection, any sequence of meta-actions can be played without an exception; each reward is
the mean of the documented scores of the agents in one state, hence between the collision reward and 1 (between 0 and 1 when normalised); the episode
terminates exactly when an agent has crashed, all have arrived, or the time is over; the cost is 1 when the first agent has crashed and 0 otherwise.
The agents stay the same, and the roads too. -/
theorem inter_play (G : Globals) (cfg : IntersectionConfig) (hc : InterOk cfg) (hp : cfg.sim.policyFrequency ≠ 0) (ord : SetOrder) (e : Env)
    (h : Ready cfg.sim e) (hI : InterRoad cfg.otherVehiclesType e.road) (as : List AgentAction) (ha : ∀ a ∈ as, InEnvSpace cfg.sim.action a) :
    ∃ rs e', Episode (Intersection.egoLadder G) cfg.sim (Intersection.cls G cfg ord) e as rs e' ∧ rs.length = as.length ∧
      Ready cfg.sim e' ∧ InterRoad cfg.otherVehiclesType e'.road ∧ e'.controlled = e.controlled ∧
      ∀ (i : ℕ) (res : StepResult), rs[i]? = some res → ∃ f vs, InterRoad cfg.otherVehiclesType f.road ∧ f.controlled = e.controlled ∧
        Agents f vs ∧ vs ≠ [] ∧ res.reward = mean (vs.map (agentScore cfg)) ∧
        (cfg.normalizeReward = false → cfg.collisionReward ≤ res.reward ∧ res.reward ≤ 1) ∧
        (cfg.normalizeReward = true → 0 ≤ res.reward ∧ res.reward ≤ 1) ∧
        (res.terminal = true ↔ (∃ v ∈ vs, v.crashed = true) ∨ (∀ v ∈ vs, OnExit v 25) ∨ TimeOver cfg (e.steps + i + 1)) ∧
        (∃ v, vs.head? = some v ∧ res.speed = v.speed ∧ res.crashed = v.crashed ∧ res.cost = some (if v.crashed = true then 1 else 0)) := by
  have hrel := inter_reliable G cfg hc ord
  obtain ⟨rs, e', hep, hlen, _, _⟩ := episode_never_raises _ cfg.sim _ _ hrel hp e h hI as ha
  obtain ⟨o1, o2, o3, _, _, hout⟩ := episode_outcomes _ cfg.sim _ _ hrel (inter_tidy G cfg ord) hp e e' h hI as rs ha hep
  refine ⟨rs, e', hep, hlen, o1, o2, o3, ?_⟩
  intro i res hres
  have hi : i < as.length := by rw [← hlen]; exact (List.getElem?_eq_some_iff.1 hres).1
  obtain ⟨f, v, q1, q2, q3, q4, q5, q6, q7, q8, q9, q10⟩ := hout i _ res (List.getElem?_eq_getElem hi) hres
  obtain ⟨vs, a1, a2, a3, _⟩ := inter_reward G cfg ord f q1.manned
    (fun v hv hu => ⟨(q2.fleet v hv).attached, (q1.fitted v hv hu).trans (space_class hc)⟩) (some as[i])
  have hr : res.reward = mean (vs.map (agentScore cfg)) := by rw [q5] at a3; exact Except.ok.inj a3
  obtain ⟨b, t1, t2⟩ := inter_terminal_iff G cfg ord f q1.manned (fun v hv _ => (q2.fleet v hv).attached) vs a1
  rw [q6] at t1
  cases t1
  rw [q3] at t2
  have range : ∀ lo : ℝ, (∀ v ∈ vs, lo ≤ agentScore cfg v ∧ agentScore cfg v ≤ 1) → lo ≤ res.reward ∧ res.reward ≤ 1 := by
    intro lo hb
    rw [hr]
    refine mean_range (by simpa using a2) ?_
    intro x hx
    obtain ⟨v, hv, rfl⟩ := List.mem_map.1 hx
    exact hb v hv
  refine ⟨f, vs, q2, q4, a1, a2, hr, fun hn => range _ fun v _ => (inter_score_range cfg hc.penalty v).1 hn,
    fun hn => range _ fun v _ => (inter_score_range cfg hc.penalty v).2 hn, t2, v, ?_, q8, q9, ?_⟩
  · cases vs with
    | nil => exact absurd rfl a2
    | cons w ws =>
      rw [List.head?_cons]
      congr 1
      unfold Env.vehicle at q7
      have hw := a1.1
      rw [List.map_cons] at hw
      rw [← hw] at q7
      dsimp only at q7
      obtain ⟨x, x1, x2, x3⟩ := agents_find (r := f.road) (uid := w.uid) ⟨w, a1.2 w List.mem_cons_self, rfl⟩
      rw [x1] at q7
      cases q7
      exact List.inj_on_of_nodup_map q1.manned.distinct (a1.2 w List.mem_cons_self) x2 x3.symm
  · rw [q10]
    simp only [Intersection.cls, Intersection.cost, q7, bind, Except.bind, pure, Except.pure, Highway.ofBool]

/-- **C58, from a reset** with one agent (the default), whatever the seed. -/
theorem inter_episode (G : Globals) (cfg : IntersectionConfig) (hc : InterOk cfg) (h1 : cfg.controlledVehicles = 1) (hp : cfg.sim.policyFrequency ≠ 0)
    (ord : SetOrder) (rng : Rng) (as : List AgentAction) (ha : ∀ a ∈ as, InEnvSpace cfg.sim.action a) :
    ∃ G' e uid rs e', Intersection.reset G cfg ord rng = .ok (G', e) ∧ e.controlled = [uid] ∧
      Episode (Intersection.egoLadder G') cfg.sim (Intersection.cls G' cfg ord) e as rs e' ∧ rs.length = as.length ∧
      ∀ (i : ℕ) (res : StepResult), rs[i]? = some res → ∃ r v, InterRoad cfg.otherVehiclesType r ∧ v ∈ r.vehicles ∧ v.uid = uid ∧
        res.speed = v.speed ∧ res.crashed = v.crashed ∧ res.reward = agentScore cfg v ∧
        (res.terminal = true ↔ v.crashed = true ∨ OnExit v 25 ∨ TimeOver cfg (i + 1)) ∧ res.cost = some (if v.crashed = true then 1 else 0) := by
  obtain ⟨e, ws, r1, r2, r3, _, _, r6, _, _, _, _, r11⟩ := inter_reset G cfg hc ord rng
  rw [h1] at r6
  obtain ⟨uid, hu⟩ := List.length_eq_one_iff.1 r6
  obtain ⟨rs, e', p1, p2, _, _, _, p6⟩ := inter_play (Intersection.setTraffic cfg.otherVehiclesType G) cfg hc hp ord e (r11 h1) r2 as ha
  refine ⟨_, e, uid, rs, e', r1, hu, p1, p2, ?_⟩
  intro i res hres
  obtain ⟨f, vs, q1, q2, q3, q4, q5, _, _, q8, v, q9, q10, q11, q12⟩ := p6 i res hres
  have hl : vs.length = 1 := by rw [← List.length_map (f := (·.uid)), q3.1, q2, hu]; rfl
  obtain ⟨w, rfl⟩ := List.length_eq_one_iff.1 hl
  have hvw : w = v := by simpa using q9
  subst hvw
  have hwu : w.uid = uid := by
    have := q3.1
    rw [q2, hu] at this
    simpa using this
  refine ⟨f.road, w, q1, q3.2 w (by simp), hwu, q10, q11, by rw [q5]; simp [mean], ?_, q12⟩
  rw [r3, Nat.zero_add] at q8
  simpa using q8

/-- Non-vacuity: the default configuration is playable; so is the multi-agent one. -/
theorem inter_default_ok : InterOk {} ∧ InterOk { sim := { action := .multi (.discrete true false) }, controlledVehicles := 2 } :=
  ⟨⟨⟨true, false, .inl rfl, .inl rfl⟩, rfl, le_rfl, ⟨15, by norm_num, by norm_num⟩, by norm_num⟩,
    ⟨⟨true, false, .inr rfl, .inl rfl⟩, rfl, by norm_num, ⟨15, by norm_num, by norm_num⟩, by norm_num⟩⟩

example (G : Globals) (ord : SetOrder) (rng : Rng) : ∃ r n, Intersection.spawnAll G {} ord (Intersection.makeRoad {} rng, 0) = .ok (r, n) ∧ InitialTraffic .idm 10 9 r.vehicles :=
  inter_initial_traffic G {} inter_default_ok.1 ord (Intersection.makeRoad {} rng) 0
    ⟨inter_network, rfl, by intro o ho; exact absurd ho (List.not_mem_nil), by simp [Intersection.makeRoad], by intro v hv; exact absurd hv (List.not_mem_nil)⟩ rfl

example (ord : SetOrder) (rng : Rng) : ∃ G' e rs e', Intersection.reset {} {} ord rng = .ok (G', e) ∧
    Episode (Intersection.egoLadder G') ({} : IntersectionConfig).sim (Intersection.cls G' {} ord) e [.index 1, .index 2, .index 0] rs e' ∧ rs.length = 3 := by
  obtain ⟨G', e, _, rs, e', h1, _, h2, h3, _⟩ := inter_episode {} {} inter_default_ok.1 rfl (by norm_num) ord rng [.index 1, .index 2, .index 0] (by
    intro a ha
    simp only [List.mem_cons, List.not_mem_nil, or_false] at ha
    rcases ha with rfl | rfl | rfl <;> exact ⟨by norm_num, by norm_num [AgentType.spaceSize, AgentType.actions]⟩)
  exact ⟨G', e, rs, e', h1, h2, h3⟩

/-! ## C62 — what a reset leaves behind -/

/-- **C62 fails for the intersection.**  A reset in a fresh process changes how the IDM vehicles of all environments drive: starting on a free road, a
vehicle of the configured class accelerates at 6 m/s² instead of 3 m/s², and a stopped one behind a stopped vehicle wants a gap of 7 m instead
of 10 m. -/
theorem inter_spoils_others (cfg : IntersectionConfig) (hc : InterOk cfg) (ord : SetOrder) (rng : Rng) :
    ∃ G' e, Intersection.reset {} cfg ord rng = .ok (G', e) ∧ ∀ (v : Vehicle), v.kind = cfg.otherVehiclesType → v.speed = 0 →
      Vehicle.idmAcceleration {} v.kind v none = 3 ∧ Vehicle.idmAcceleration G' v.kind v none = 6 ∧
      ∀ f, Vehicle.desiredGap {} v.kind v f = 10 ∧ Vehicle.desiredGap G' v.kind v f = 7 := by
  obtain ⟨e, _, r1, _⟩ := inter_reset {} cfg hc ord rng
  refine ⟨_, e, r1, ?_⟩
  intro v hk hs
  have ht : Intersection.inherits v.kind cfg.otherVehiclesType = true := by
    have ht := hc.traffic
    rw [hk]
    revert ht
    generalize cfg.otherVehiclesType = k
    cases k <;> simp [Intersection.inherits, VKind.isIDM]
  simp [Vehicle.idmAcceleration, Vehicle.desiredGap, hs, Intersection.setTraffic, ht]

/-- C62, what does hold: only these three attributes are touched, only for the configured class and the classes inheriting from it, and a second reset with
the same traffic changes nothing more. -/
theorem inter_reset_settles (G : Globals) (cfg cfg' : IntersectionConfig) (hc : InterOk cfg) (hc' : InterOk cfg')
    (hk : cfg'.otherVehiclesType = cfg.otherVehiclesType) (ord : SetOrder) (rng rng' : Rng) :
    ∃ G1 e1 e2, Intersection.reset G cfg ord rng = .ok (G1, e1) ∧ Intersection.reset G1 cfg' ord rng' = .ok (G1, e2) ∧
      G1.speedCount = G.speedCount ∧ G1.speedMin = G.speedMin ∧ G1.speedMax = G.speedMax ∧
      ∀ k, Intersection.inherits k cfg.otherVehiclesType = false →
        G1.distanceWanted k = G.distanceWanted k ∧ G1.comfortAccMax k = G.comfortAccMax k ∧ G1.comfortAccMin k = G.comfortAccMin k := by
  obtain ⟨e1, _, a1, _⟩ := inter_reset G cfg hc ord rng
  obtain ⟨e2, _, b1, _⟩ := inter_reset (Intersection.setTraffic cfg.otherVehiclesType G) cfg' hc' ord rng'
  have same : Intersection.setTraffic cfg'.otherVehiclesType (Intersection.setTraffic cfg.otherVehiclesType G) =
      Intersection.setTraffic cfg.otherVehiclesType G := by
    rw [hk]
    unfold Intersection.setTraffic
    congr 1 <;> funext k <;> dsimp only <;> split_ifs <;> rfl
  rw [same] at b1
  refine ⟨_, e1, e2, a1, b1, rfl, rfl, rfl, ?_⟩
  intro k h
  simp [Intersection.setTraffic, h]

end HighwayEnv.Props
