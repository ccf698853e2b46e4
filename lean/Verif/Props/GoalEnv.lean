import Verif.Props.Full
import Verif.Props.Summon
import Verif.Spec.GoalEnv

/-!
# Properties of the environments with a goal, observation included (C103)
-/

noncomputable section
open Classical
namespace HighwayEnv.Props
open HighwayEnv HighwayEnv.Spec

/-! ## The observation, the reward, the success and the end of the episode agree -/

theorem simulate_controlled {G : Globals} {c : SimConfig} {cls : EnvClass} {a : Option AgentAction} {e e' : Env}
    (h : Env.simulate G c cls a e = .ok e') : e'.controlled = e.controlled ∧ e'.steps = e.steps := by
  have hf : ∀ (k : Int) (e e' : Env), e.frame G c k a = .ok e' → e'.controlled = e.controlled ∧ e'.steps = e.steps := by
    intro k e e' h
    unfold Env.frame at h
    obtain ⟨e1, h1, h⟩ := bind_ok h
    obtain ⟨r1, -, h⟩ := bind_ok h
    obtain ⟨r2, -, h⟩ := bind_ok h
    cases h
    unfold Env.forward at h1
    cases a with
    | none => cases h1; exact ⟨rfl, rfl⟩
    | some a =>
      dsimp only at h1
      split at h1
      · obtain ⟨r, -, h1⟩ := bind_ok h1
        cases h1; exact ⟨rfl, rfl⟩
      · cases h1; exact ⟨rfl, rfl⟩
  have hl : ∀ (k : Int) (n : ℕ) (e e' : Env), Env.simulateLoop G c cls k a n e = .ok e' → e'.controlled = e.controlled ∧ e'.steps = e.steps := by
    intro k n
    induction n with
    | zero => intro e e' h; cases h; exact ⟨rfl, rfl⟩
    | succ n ih =>
      intro e e' h
      rw [Env.simulateLoop] at h
      obtain ⟨e1, h1, h⟩ := bind_ok h
      obtain ⟨b, -, h⟩ := bind_ok h
      obtain ⟨f1, f2⟩ := hf k _ _ h1
      split at h
      · cases h; exact ⟨f1, f2⟩
      · obtain ⟨g1, g2⟩ := ih _ _ h
        exact ⟨g1.trans f1, g2.trans f2⟩
  unfold Env.simulate at h
  obtain ⟨k, -, h⟩ := bind_ok h
  exact hl k _ _ _ h

private theorem components_ofList (l : List ℝ) : GoalEnv.components (.array (ObsType.ofList l)) = l := by
  show (List.range l.length).map (fun i => (ObsType.ofList l).entry [i]) = l
  apply List.ext_getElem
  · simp
  · intro i h1 h2
    simp [ObsType.ofList, h2]

/-- A triple as a view. -/
private def viewOf (t : List ℝ × List ℝ × List ℝ) : GoalView := ⟨t.1, t.2.1, t.2.2⟩

private theorem view_goal {e : Env} {o : RoadObject} (h : Parking.goal e = .ok o) : GoalEnv.view.goal e = some o := by
  simp only [GoalEnv.view, h]

private theorem observeOne_shown {cfg : ParkingConfig} {c : SimConfig} {e : Env} {u : ℕ} {t : List ℝ × List ℝ × List ℝ}
    (h : Parking.observeOne cfg e u = .ok t) (w : Option ℕ) (hw : ∀ v, e.road.vehicle? u = some v → ObsType.watched (e.scene GoalEnv.view c) e.road w = some v) :
    ObsType.observeGoal (e.scene GoalEnv.view c) cfg.features cfg.scales w = .ok (viewOf t).shown := by
  unfold Parking.observeOne at h
  cases hv : e.road.vehicle? u with
  | none => rw [hv] at h; cases h
  | some v =>
    rw [hv] at h
    dsimp only at h
    obtain ⟨o, h1, h2⟩ := bind_ok h
    unfold ObsType.observeGoal
    have : ((e.scene GoalEnv.view c).road.bind fun r => (ObsType.watched (e.scene GoalEnv.view c) r w).map fun v => (r, v)) = some (e.road, v) := by
      simp only [Env.scene, Option.bind_some]
      have := hw v hv
      simp only [Env.scene] at this
      rw [this]
      rfl
    rw [this]
    have hg : (e.scene GoalEnv.view c).goal = some o := view_goal h1
    simp only [hg, h2, bind, Except.bind]
    rfl

private theorem goal_list {G : Globals} {cfg : ParkingConfig} {c : SimConfig} {e : Env} : ∀ (us : List ℕ) (ts : List (List ℝ × List ℝ × List ℝ)),
    us.mapM (Parking.observeOne cfg e) = .ok ts →
    ObsType.observeList G (us.map fun u => .goal cfg.features cfg.scales (some u)) (e.scene GoalEnv.view c) =
      .ok ((ts.map viewOf).map (·.shown), us.map fun u => .goal cfg.features cfg.scales (some u), e.scene GoalEnv.view c)
  | [], ts, h => by
    cases h
    rw [List.map_nil, ObsType.observeList]
    rfl
  | u :: us, ts, h => by
    rw [List.mapM_cons] at h
    obtain ⟨t, h1, h⟩ := bind_ok h
    obtain ⟨ts', h2, h⟩ := bind_ok h
    cases h
    have := observeOne_shown (c := c) h1 (some u) (fun v hv => hv)
    rw [List.map_cons, ObsType.observeList, ObsType.observe, this]
    simp only [bind, Except.bind, pure, Except.pure, goal_list us ts' h2]
    rfl

/-- What the observer of the configuration shows is what the reward is computed from. -/
private theorem observations_shown {G : Globals} {cfg : ParkingConfig} {c : SimConfig} {e : Env} {o : ObsType} (ho : GoalObserver cfg ⟨e, o⟩)
    (hne : e.controlled ≠ []) {ts : List (List ℝ × List ℝ × List ℝ)} (h : Parking.observations cfg e = .ok ts) :
    ∃ x, o.observe G (e.scene GoalEnv.view c) = .ok (x, o, e.scene GoalEnv.view c) ∧ Shows cfg.severalObservers (ts.map viewOf) x := by
  unfold GoalObserver at ho
  dsimp only at ho
  unfold Parking.observations at h
  unfold Shows
  by_cases hs : cfg.severalObservers = true
  · rw [if_pos hs] at ho h
    refine ⟨.tuple ((ts.map viewOf).map (·.shown)), ?_, by rw [if_pos hs]⟩
    rw [ho, ObsType.observe, goal_list _ _ h]
    rfl
  · rw [if_neg hs] at ho h
    cases hc : e.controlled with
    | nil => exact absurd hc hne
    | cons u us =>
      rw [hc] at h
      dsimp only at h
      obtain ⟨t, h1, h⟩ := bind_ok h
      cases h
      refine ⟨(viewOf t).shown, ?_, by rw [if_neg hs]; exact ⟨viewOf t, rfl, rfl⟩⟩
      have := observeOne_shown (c := c) h1 none (fun v hv => by simp [ObsType.watched, Env.scene, hc, hv])
      rw [ho, ObsType.observe, this]
      rfl

private theorem goal_quiet {cfg : ParkingConfig} {s : Full} (h : GoalObserver cfg s) : Quiet s.observer := by
  unfold GoalObserver at h
  rw [h]
  split
  · refine .multi _ fun o ho => ?_
    obtain ⟨u, -, rfl⟩ := List.mem_map.1 ho
    exact .goal _ _ _
  · exact .goal _ _ _

private theorem mapM_forall₂ {α β : Type} {f : α → Py β} : ∀ {l : List α} {bs : List β}, l.mapM f = .ok bs → List.Forall₂ (fun a b => f a = .ok b) l bs
  | [], bs, h => by cases h; exact .nil
  | a :: l, bs, h => by
    rw [List.mapM_cons] at h
    obtain ⟨b, h1, h⟩ := bind_ok h
    obtain ⟨bs', h2, h⟩ := bind_ok h
    cases h
    exact .cons h1 (mapM_forall₂ h2)

private theorem success_shown {f : List ℝ → List ℝ → Py ℝ} {g : GoalView} {y : ℝ} (h : f g.achieved g.desired = .ok y) :
    GoalEnv.success f g.shown = .ok (decide (-(12 / 100) < y)) := by
  have e1 : Dict.getItem [("observation", Obs.array (ObsType.ofList g.observation)), ("achieved_goal", Obs.array (ObsType.ofList g.achieved)),
    ("desired_goal", Obs.array (ObsType.ofList g.desired))] "achieved_goal" = .ok (.array (ObsType.ofList g.achieved)) := rfl
  have e2 : Dict.getItem [("observation", Obs.array (ObsType.ofList g.observation)), ("achieved_goal", Obs.array (ObsType.ofList g.achieved)),
    ("desired_goal", Obs.array (ObsType.ofList g.desired))] "desired_goal" = .ok (.array (ObsType.ofList g.desired)) := rfl
  unfold GoalEnv.success GoalView.shown
  dsimp only
  rw [e1]
  simp only [bind, Except.bind]
  rw [e2]
  dsimp only
  rw [components_ofList, components_ofList]
  unfold Parking.isSuccessWith
  rw [h, Parking.SUCCESS_GOAL_REWARD]
  rfl

private theorem successes_shown {f : List ℝ → List ℝ → Py ℝ} {cfg : ParkingConfig} {s : Full} (ho : GoalObserver cfg s) {gs : List GoalView} {x : Obs}
    (hx : Shows cfg.severalObservers gs x) {ys : List ℝ} (h : List.Forall₂ (fun g y => f g.achieved g.desired = .ok y) gs ys) :
    GoalEnv.successes f s.observer x = .ok (ys.map fun y => decide (-(12 / 100) < y)) := by
  unfold GoalObserver at ho
  unfold Shows at hx
  rw [ho]
  by_cases hs : cfg.severalObservers = true
  · rw [if_pos hs] at hx ⊢
    rw [hx]
    show (gs.map (·.shown)).mapM (GoalEnv.success f) = _
    clear hx
    induction h with
    | nil => rfl
    | cons h1 _ ih =>
      rw [List.map_cons, List.mapM_cons, success_shown h1, ih]
      rfl
  · rw [if_neg hs] at hx ⊢
    obtain ⟨g, rfl, rfl⟩ := hx
    cases h with
    | cons h1 h2 =>
      cases h2
      show (do let b ← GoalEnv.success f g.shown; return [b] : Py (List Bool)) = _
      rw [success_shown h1]
      rfl

private theorem allSuccess_iff {f : List ℝ → List ℝ → Py ℝ} : ∀ {ts : List (List ℝ × List ℝ × List ℝ)} {ys : List ℝ},
    List.Forall₂ (fun t y => f t.2.1 t.2.2 = .ok y) ts ys → ∀ b, Parking.allSuccessWith f ts = .ok b → (b = true ↔ ∀ y ∈ ys, -(12 / 100) < y)
  | [], _, .nil, b, h => by cases h; simp
  | t :: ts, _, .cons (l₂ := ys) (b := y) h1 h2, b, h => by
    rw [Parking.allSuccessWith] at h
    unfold Parking.isSuccessWith at h
    rw [h1] at h
    simp only [bind, Except.bind, pure, Except.pure] at h
    by_cases hy : -Parking.SUCCESS_GOAL_REWARD < y
    · simp only [hy, decide_true, if_true] at h
      rw [allSuccess_iff h2 b h]
      rw [Parking.SUCCESS_GOAL_REWARD] at hy
      simp [hy]
    · simp only [hy, decide_false, Bool.false_eq_true, if_false] at h
      cases h
      rw [Parking.SUCCESS_GOAL_REWARD] at hy
      simp [hy]

private theorem parkEgos {e : Env} {vs : List Vehicle} (h : Parking.egos e = .ok vs) :
    vs.any (·.crashed) = true ↔ ∃ u ∈ e.controlled, ∃ v, e.road.vehicle? u = some v ∧ v.crashed = true := by
  unfold Parking.egos at h
  have h' := mapM_forall₂ h
  generalize e.controlled = us at h'
  clear h
  induction h' with
  | nil => simp
  | @cons u v us vs h1 _ ih =>
    have hv : e.road.vehicle? u = some v := by
      cases hv : e.road.vehicle? u with
      | none => rw [hv] at h1; cases h1
      | some w => rw [hv] at h1; cases h1; rfl
    have ih' : vs.any (·.crashed) = true ↔ ∃ u ∈ us, ∃ v, e.road.vehicle? u = some v ∧ v.crashed = true := ih
    rw [List.any_cons, Bool.or_eq_true, ih']
    simp [hv]

private theorem goal_core {G : Globals} {cfg : ParkingConfig} {cls : EnvClass} {f : Env → List ℝ → List ℝ → Py ℝ} (hcls : GoalClass cfg cls f) {s s' : Full}
    (ho : GoalObserver cfg s) {a : Option AgentAction} {x : Obs} {res : StepResult} (h1 : s.step G cfg.sim cls GoalEnv.view a = .ok (x, res, s')) :
    ∃ gs ys, Shows cfg.severalObservers gs x ∧ List.Forall₂ (fun g y => f s'.env g.achieved g.desired = .ok y) gs ys ∧ res.reward = ys.sum ∧
      (res.terminal = true ↔ cfg.duration ≤ s'.env.steps ∨ (∃ u ∈ s'.env.controlled, ∃ v, s'.env.road.vehicle? u = some v ∧ v.crashed = true) ∨
        ∀ y ∈ ys, -(12 / 100) < y) ∧ GoalObserver cfg s' ∧ s'.env.steps = s.env.steps + 1 ∧ s'.env.controlled = s.env.controlled ∧
      s'.observer.observe G (s'.env.scene GoalEnv.view cfg.sim) = .ok (x, s'.observer, s'.env.scene GoalEnv.view cfg.sim) := by
  obtain ⟨k1, -, e, k2, k3⟩ := (step_with_observation G cfg.sim cls GoalEnv.view s (goal_quiet ho) a).1 _ _ _ h1
  have hne : s.env.controlled ≠ [] := by
    intro hc
    unfold Env.step at k1
    rw [if_pos hc] at k1
    cases k1
  have k1' : Full.conclude cls e a = .ok (s'.env, res) := by
    rw [step_split, if_neg hne, k2] at k1
    exact k1
  obtain ⟨c1, c2⟩ := simulate_controlled k2
  dsimp only at c1 c2
  have ho' : GoalObserver cfg ⟨e, s.observer⟩ := by
    unfold GoalObserver at ho ⊢
    dsimp only
    rw [c1]; exact ho
  unfold Full.conclude at k1'
  obtain ⟨y1, d1, k1'⟩ := bind_ok k1'
  obtain ⟨y2, d2, k1'⟩ := bind_ok k1'
  obtain ⟨y3, -, k1'⟩ := bind_ok k1'
  obtain ⟨y4, -, k1'⟩ := bind_ok k1'
  obtain ⟨y5, d5, k1'⟩ := bind_ok k1'
  rw [hcls.after] at d5
  cases d5
  have hinj := Except.ok.inj k1'
  have henv : s'.env = e := (congrArg Prod.fst hinj).symm
  have hres : res = _ := (congrArg Prod.snd hinj).symm
  dsimp only at hres
  rw [hcls.reward] at d1
  rw [hcls.terminal] at d2
  unfold Parking.rewardWith at d1
  obtain ⟨ts, t1, d1⟩ := bind_ok d1
  obtain ⟨ys, t2, d1⟩ := bind_ok d1
  have hy := mapM_forall₂ t2
  have hys : y1 = ys.sum := (Except.ok.inj d1).symm
  unfold Parking.terminalWith at d2
  obtain ⟨vs, u1, d2⟩ := bind_ok d2
  obtain ⟨ts', u2, d2⟩ := bind_ok d2
  rw [t1] at u2
  cases u2
  obtain ⟨b, u3, d2⟩ := bind_ok d2
  have hb := allSuccess_iff hy b u3
  have hterm : y2 = _ := (Except.ok.inj d2).symm
  obtain ⟨x', o1, o2⟩ := observations_shown (G := G) (c := cfg.sim) ho' (by rw [c1]; exact hne) t1
  change s.observer.observe G _ = _ at k3
  rw [o1] at k3
  have hk := Except.ok.inj k3
  have hxx : x' = x := congrArg (fun p => p.1) hk
  have hob : s.observer = s'.observer := congrArg (fun p => p.2.1) hk
  subst hxx
  have hs' : GoalObserver cfg s' := by
    unfold GoalObserver at ho' ⊢
    rw [henv, ← hob]; exact ho'
  refine ⟨ts.map viewOf, ys, o2, ?_, by rw [hres]; exact hys, ?_, hs', by rw [henv, c2], by rw [henv, c1], by rw [henv, ← hob]; exact o1⟩
  · rw [henv]
    clear * - hy
    induction hy with
    | nil => exact .nil
    | cons g1 _ ih => exact .cons g1 ih
  · rw [hres, henv]
    dsimp only
    rw [hterm, Bool.or_eq_true, Bool.or_eq_true, decide_eq_true_eq, parkEgos u1, hb, or_assoc]

private theorem core_agrees {cfg : ParkingConfig} {f : Env → List ℝ → List ℝ → Py ℝ} {e : Env} {gs : List GoalView} {ys : List ℝ} {res : StepResult}
    (h1 : List.Forall₂ (fun g y => f e g.achieved g.desired = .ok y) gs ys) (h2 : res.reward = ys.sum)
    (h3 : res.terminal = true ↔ cfg.duration ≤ e.steps ∨ (∃ u ∈ e.controlled, ∃ v, e.road.vehicle? u = some v ∧ v.crashed = true) ∨
        ∀ y ∈ ys, -(12 / 100) < y) : Agrees cfg f e gs res (ys.map fun y => decide (-(12 / 100) < y)) := by
  refine ⟨ys, h1, h2, ?_, ?_⟩
  · clear * -
    induction ys with
    | nil => exact .nil
    | cons y ys ih => exact .cons (by simp) ih
  · rw [h3]
    simp

/-- C103: **the goals shown to the agents are those they are rewarded for.**  Whatever the state, if `step` returns, then its observation shows
each agent the goals that it has achieved and that it desires, in the state reached; `compute_reward` applied to the goals shown gives the
rewards of the agents, whose sum is the reward returned; `is_success` tells which of them are above -0.12; the episode ends exactly when all agents
succeed, or the time is over, or an agent has crashed; looking again at the state reached shows the same; and the observer is ready for the
next step. -/
theorem goal_step (G : Globals) (cfg : ParkingConfig) (cls : EnvClass) (f : Env → List ℝ → List ℝ → Py ℝ) (hcls : GoalClass cfg cls f) (s s' : Full)
    (ho : GoalObserver cfg s) (a : Option AgentAction) (x : Obs) (res : StepResult) (ok : List Bool)
    (h : GoalEnv.step G cfg.sim cls f s a = .ok (x, res, ok, s')) :
    ∃ gs, Shows cfg.severalObservers gs x ∧ Agrees cfg f s'.env gs res ok ∧ GoalObserver cfg s' ∧ s'.env.steps = s.env.steps + 1 ∧
      s'.observer.observe G (s'.env.scene GoalEnv.view cfg.sim) = .ok (x, s'.observer, s'.env.scene GoalEnv.view cfg.sim) := by
  unfold GoalEnv.step at h
  obtain ⟨⟨x1, res1, s1⟩, h1, h⟩ := bind_ok h
  obtain ⟨ok1, h2, h⟩ := bind_ok h
  cases h
  obtain ⟨gs, ys, k1, k2, k3, k4, k5, k6, -, k7⟩ := goal_core hcls ho h1
  rw [successes_shown k5 k1 k2] at h2
  cases h2
  exact ⟨gs, k1, core_agrees k2 k3 k4, k5, k6, k7⟩

/-- C103: the added `is_success` never makes `step` raise: if the step of the base class returns, so does the step of the environment. -/
theorem goal_step_total (G : Globals) (cfg : ParkingConfig) (cls : EnvClass) (f : Env → List ℝ → List ℝ → Py ℝ) (hcls : GoalClass cfg cls f) (s s' : Full)
    (ho : GoalObserver cfg s) (a : Option AgentAction) (x : Obs) (res : StepResult) (h : s.step G cfg.sim cls GoalEnv.view a = .ok (x, res, s')) :
    ∃ ok, GoalEnv.step G cfg.sim cls f s a = .ok (x, res, ok, s') := by
  obtain ⟨gs, ys, k1, k2, k3, k4, k5, -⟩ := goal_core hcls ho h
  refine ⟨ys.map fun y => decide (-(12 / 100) < y), ?_⟩
  unfold GoalEnv.step
  rw [h]
  simp only [bind, Except.bind, successes_shown k5 k1 k2]
  rfl

/-- The parking and summon environments. -/
theorem parking_goalClass (cfg : ParkingConfig) : GoalClass cfg (Parking.cls cfg) (fun _ a d => Parking.computeReward a d) :=
  ⟨fun _ _ => rfl, fun _ => rfl, fun _ => rfl⟩

theorem summon_goalClass (cfg : SummonConfig) : GoalClass cfg.base (Summon.cls cfg) (fun e a d => Summon.computeReward e a d) :=
  ⟨fun _ _ => rfl, fun _ => rfl, fun _ => rfl⟩

/-! ## The contract -/

theorem goalScene_random (us : List ℕ) : NoRandom (GoalScene us) := by
  rintro s ⟨h1, h2, r, o, h3, h4, h5, h6⟩ r' rng hr
  rw [h3] at hr
  cases hr
  exact ⟨h1, h2, _, o, rfl, h4, h5, h6⟩

/-- The space of one goal observer. -/
private def goalSpace (n : ℕ) : Space := .dict [("observation", .free [n]), ("achieved_goal", .free [n]), ("desired_goal", .free [n])]

private theorem goal_observes {cfg : ParkingConfig} (hc : ParkingOk cfg) {us : List ℕ} {v : Option ℕ} (hv : ∀ uid, v = some uid → uid ∈ us) {s : Scene}
    (hs : s.road = none ∨ GoalScene us s) : ∃ g : GoalView, ObsType.observeGoal s cfg.features cfg.scales v = .ok g.shown ∧
      g.observation.length = cfg.features.length ∧ g.achieved.length = cfg.features.length ∧ g.desired.length = cfg.features.length := by
  have key : ∃ x, ObsType.observeGoal s cfg.features cfg.scales v = .ok x := by
    unfold ObsType.observeGoal
    rcases hs with hs | ⟨h1, h2, r, o, h3, h4, h5, h6⟩
    · rw [hs]; exact ⟨_, rfl⟩
    · rw [h3]
      have hw : ∃ w, ObsType.watched s r v = some w ∧ w ∈ r.vehicles ∧ w.uid ∈ us := by
        cases v with
        | some uid =>
          obtain ⟨w, w1, w2, w3⟩ := agents_find (h5 uid (hv uid rfl))
          exact ⟨w, w1, w2, by rw [w3]; exact hv uid rfl⟩
        | none =>
          cases us with
          | nil => exact absurd rfl h1
          | cons u us =>
            obtain ⟨w, w1, w2, w3⟩ := agents_find (h5 u (by simp))
            exact ⟨w, by simp [ObsType.watched, h2, w1], w2, by rw [w3]; simp⟩
      obtain ⟨w, w1, w2, w3⟩ := hw
      simp only [Option.bind_some, w1, Option.map_some, h4]
      obtain ⟨a, d, e1, -⟩ := goal_seen cfg hc r.network w o (h6 w w2 w3)
      rw [e1]
      exact ⟨_, rfl⟩
  obtain ⟨x, hx⟩ := key
  obtain ⟨a, b, d, l1, l2, l3, rfl⟩ := goal_shape hx
  exact ⟨⟨a, b, d⟩, hx, l1, l2, l3⟩

/-- C103: goal observers can be relied upon in the scenes with a goal. -/
theorem goal_serves (G : Globals) (cfg : ParkingConfig) (hc : ParkingOk cfg) (us : List ℕ) (v : Option ℕ) (hv : ∀ uid, v = some uid → uid ∈ us) :
    Serves G (GoalScene us) (.goal cfg.features cfg.scales v)
      (.dict [("observation", .free [cfg.features.length]), ("achieved_goal", .free [cfg.features.length]), ("desired_goal", .free [cfg.features.length])]) := by
  refine ⟨fun o => o = .goal cfg.features cfg.scales v, rfl, ?_⟩
  rintro _ s rfl hs
  obtain ⟨g, e1, l1, l2, l3⟩ := goal_observes hc hv (.inr hs)
  refine ⟨g.shown, _, s, ?_, ?_, rfl⟩
  · rw [ObsType.observe, e1]
    rfl
  · refine .dict rfl (.cons (.free ?_) (.cons (.free ?_) (.cons (.free ?_) .nil))) <;> simp [ObsType.ofList, l1, l2, l3]

private theorem goal_space {G : Globals} {cfg : ParkingConfig} (hc : ParkingOk cfg) {us : List ℕ} {v : Option ℕ} (hv : ∀ uid, v = some uid → uid ∈ us)
    {s : Scene} (hs : s.road = none ∨ GoalScene us s) : (ObsType.goal cfg.features cfg.scales v).space G s = .ok (goalSpace cfg.features.length) := by
  obtain ⟨g, e1, l1, l2, l3⟩ := goal_observes hc hv hs
  rw [ObsType.space, e1]
  simp [bind, Except.bind, GoalView.shown, ObsType.orBare, goalSpace, ObsType.shapeOf, ObsType.ofList, l1, l2, l3, pure, Except.pure]

private theorem goal_defined (G : Globals) {cfg : ParkingConfig} (hc : ParkingOk cfg) {od : ObsDict} (hod : GoalConfig cfg od) (ad : ActDict) (s : Scene)
    (us : List ℕ) (hus : s.controlled = us) (hs : s.road = none ∨ GoalScene us s) (b : Factory.Built) (hb : Factory.action s.controlled ad = .ok b) :
    ∃ sp, Factory.defineSpaces G od ad s = .ok sp ∧ sp.action = b ∧ Serves G (GoalScene us) sp.observer sp.observationSpace ∧
      sp.observer = if cfg.severalObservers then .multi (us.map fun u => .goal cfg.features cfg.scales (some u)) else .goal cfg.features cfg.scales none := by
  obtain ⟨q, q1, q2, q3, q4⟩ := hod
  have hflat : ∀ c, Factory.observer c (.flat q) = .ok (.goal cfg.features cfg.scales none) := by
    intro c
    rw [Factory.observer, q1]
    simp only [Factory.keyed, bind, Except.bind]
    rw [if_neg (by decide)]
    unfold Factory.singleObserver
    rw [if_neg (by decide), if_neg (by decide), if_neg (by decide), if_pos rfl, q3, q2]
    rfl
  unfold Factory.defineSpaces
  rw [hb]
  by_cases hsev : cfg.severalObservers = true
  · rw [if_pos hsev] at q4
    obtain ⟨p, hp, rfl⟩ := q4
    have hm : Factory.observer s.controlled (.nested p (.flat q)) = .ok (.multi (us.map fun uid => .goal cfg.features cfg.scales (some uid))) := by
      rw [Factory.observer, hp, hus]
      simp only [Factory.keyed, bind, Except.bind, if_true]
      have : ∀ l : List ℕ, l.mapM (fun uid => (Factory.observer us (.flat q)).map (Factory.bind uid)) =
          .ok (l.map fun uid => .goal cfg.features cfg.scales (some uid)) := by
        intro l
        induction l with
        | nil => rfl
        | cons a l ih => rw [List.mapM_cons, ih, hflat]; rfl
      rw [this]
      rfl
    rw [hm]
    simp only [bind, Except.bind]
    rw [ObsType.space]
    have hl : ∀ l : List ℕ, (∀ uid ∈ l, uid ∈ us) →
        ObsType.spaceList G s (l.map fun uid => .goal cfg.features cfg.scales (some uid)) = .ok (l.map fun _ => goalSpace cfg.features.length) ∧
        List.Forall₂ (Serves G (GoalScene us)) (l.map fun uid => .goal cfg.features cfg.scales (some uid)) (l.map fun _ => goalSpace cfg.features.length) := by
      intro l
      induction l with
      | nil => intro _; exact ⟨by rw [List.map_nil, ObsType.spaceList]; rfl, .nil⟩
      | cons a l ih =>
        intro hl
        obtain ⟨i1, i2⟩ := ih fun u hu => hl u (by simp [hu])
        have ha : ∀ uid, some a = some uid → uid ∈ us := fun u hu => by cases hu; exact hl a (by simp)
        refine ⟨?_, .cons (goal_serves G cfg hc us (some a) ha) i2⟩
        rw [List.map_cons, ObsType.spaceList, goal_space hc ha hs, i1]
        rfl
    obtain ⟨i1, i2⟩ := hl us fun _ h => h
    rw [i1]
    exact ⟨_, rfl, rfl, serves_multi G _ (goalScene_random us) _ _ i2, by rw [if_pos hsev]⟩
  · rw [if_neg hsev] at q4
    subst q4
    rw [hflat]
    simp only [bind, Except.bind]
    rw [goal_space hc (us := us) (by simp) hs]
    exact ⟨_, rfl, rfl, goal_serves G cfg hc us none (by simp), by rw [if_neg hsev]⟩

private theorem play_goal {G : Globals} {cfg : ParkingConfig} {cls : EnvClass} {f : Env → List ℝ → List ℝ → Py ℝ} (hcls : GoalClass cfg cls f)
    {s s' : Full} (ho : GoalObserver cfg s) {as : List AgentAction} {rs : List (Obs × StepResult)} (h : Play G cfg.sim cls GoalEnv.view s as rs s') :
    ∃ rs', GoalPlay G cfg.sim cls f s as rs' s' ∧ rs = rs'.map (fun r => (r.1, r.2.1)) ∧ GoalObserver cfg s' ∧
      ∀ (i : ℕ) (r : Obs × StepResult × List Bool), rs'[i]? = some r → ∃ e gs, Shows cfg.severalObservers gs r.1 ∧ Agrees cfg f e gs r.2.1 r.2.2 ∧
        e.steps = s.env.steps + (i + 1) ∧ e.controlled = s.env.controlled := by
  suffices H : ∃ rs', GoalPlay G cfg.sim cls f s as rs' s' ∧ rs = rs'.map (fun r => (r.1, r.2.1)) ∧ GoalObserver cfg s' ∧
      (∀ (i : ℕ) (r : Obs × StepResult × List Bool), rs'[i]? = some r → ∃ e gs, Shows cfg.severalObservers gs r.1 ∧ Agrees cfg f e gs r.2.1 r.2.2 ∧
        e.steps = s.env.steps + (i + 1) ∧ e.controlled = s.env.controlled) ∧ s'.env.steps = s.env.steps + rs'.length ∧ s'.env.controlled = s.env.controlled by
    obtain ⟨rs', h1, h2, h3, h4, -⟩ := H
    exact ⟨rs', h1, h2, h3, h4⟩
  induction h with
  | start => exact ⟨[], .start, rfl, ho, by simp, rfl, rfl⟩
  | @step as rs s1 s2 a x res hp hs ih =>
    obtain ⟨rs', h1, h2, h3, h4, h5, h6⟩ := ih
    obtain ⟨ok, hok⟩ := goal_step_total G cfg cls f hcls s1 s2 h3 (some a) x res hs
    obtain ⟨gs, k1, k2, k3, k4, -⟩ := goal_step G cfg cls f hcls s1 s2 h3 (some a) x res ok hok
    obtain ⟨_, _, -, -, -, -, -, -, c, -⟩ := goal_core hcls h3 hs
    refine ⟨rs' ++ [(x, res, ok)], .step h1 hok, by rw [h2]; simp, k3, ?_, by rw [k4, h5]; simp; ring, c.trans h6⟩
    intro i r hr
    by_cases hi : i < rs'.length
    · rw [List.getElem?_append_left hi] at hr
      exact h4 i r hr
    · have : i = rs'.length := by
        have := (List.getElem?_eq_some_iff.1 hr).1
        simp at this
        omega
      subst this
      simp at hr
      subst hr
      exact ⟨s2.env, gs, k1, k2, by rw [k4, h5]; ring, c.trans h6⟩

/-- C103: resetting and then playing an environment with a goal whose methods are reliable. -/
theorem goal_contract (G : Globals) (cfg : ParkingConfig) (hc : ParkingOk cfg) (hp : cfg.sim.policyFrequency ≠ 0) (cls : EnvClass)
    (f : Env → List ℝ → List ℝ → Py ℝ) (hcls : GoalClass cfg cls f) (net : Graph) (o : RoadObject) (hrel : Reliable G cfg.sim cls (ParkingScene net o))
    (od : ObsDict) (hod : GoalConfig cfg od) (ad : ActDict) (had : ∀ us, ∃ b, Factory.action us ad = .ok b ∧ SameType b cfg.sim.action)
    (make : Factory.Built → Py Env) (e : Env) (hmake : ∀ b, make b = .ok e) (h : Ready cfg.sim e) (hI : ParkingScene net o e) (hsteps : e.steps = 0)
    (old : Scene) (hold : old.road = none ∨ GoalScene old.controlled old) :
    ∃ x sp s, Full.reset G od ad cfg.sim GoalEnv.view make old = .ok (x, sp, s) ∧ Member sp.observationSpace x ∧
      (∃ gs, Shows cfg.severalObservers gs x) ∧
      ∀ as, (∀ a ∈ as, Playable sp.actionSpace a) → ∃ rs s', GoalPlay G cfg.sim cls f s as rs s' ∧ rs.length = as.length ∧
        GoalScene s'.env.controlled (s'.env.scene GoalEnv.view cfg.sim) ∧
        ∀ (i : ℕ) (r : Obs × StepResult × List Bool), rs[i]? = some r → Member sp.observationSpace r.1 ∧
          ∃ e gs, Shows cfg.severalObservers gs r.1 ∧ Agrees cfg f e gs r.2.1 r.2.2 ∧ e.steps = i + 1 := by
  obtain ⟨c, hact, -⟩ := hc.action
  have hkind : ∀ f, Ready cfg.sim f → ∀ v ∈ f.road.vehicles, v.uid ∈ f.controlled → v.kind.isControlled = false := by
    intro f hf v hv hu
    rw [hf.fitted v hv hu]
    rcases hact with hact | hact <;> rw [hact] <;> simp only [agentOf, AgentType.vehicleClass] <;> split <;> rfl
  let I : Env → Prop := fun f => ParkingScene net o f ∧ f.controlled = e.controlled
  have hreli : Reliable G cfg.sim cls I := {
    lasting := fun f r t s h hr => ⟨hrel.lasting f r t s h.1 hr, h.2⟩
    terminal := fun f h hI => hrel.terminal f h hI.1
    reward := fun f a h hI ha => hrel.reward f a h hI.1 ha
    cost := fun f h hI => hrel.cost f h hI.1
    after := fun f h hI => ⟨f, hcls.after f, h, hI⟩ }
  have hrand : ∀ f f', SameButRandom f f' → I f → I f' := by
    rintro f f' hs ⟨i1, i2⟩
    rw [hs]
    exact ⟨⟨i1.network, i1.goal, i1.landmark, i1.pointer⟩, i2⟩
  have hscene : ∀ f, Ready cfg.sim f → ParkingScene net o f → GoalScene f.controlled (f.scene GoalEnv.view cfg.sim) := by
    intro f hr hI
    obtain ⟨hit, ho⟩ := hI.goal
    have hgoal : Parking.goal f = .ok { o with hit := hit } := by
      unfold Parking.goal
      rw [ho, hI.pointer]
      simp
    exact ⟨hr.manned.someone, rfl, f.road, _, rfl, view_goal hgoal, hr.manned.onRoad, hkind f hr⟩
  have hok : ∀ f, Ready cfg.sim f → I f → GoalScene e.controlled (f.scene GoalEnv.view cfg.sim) := by
    intro f hr hI
    rw [← hI.2]
    exact hscene f hr hI.1
  obtain ⟨b0, hb0, -⟩ := had old.controlled
  obtain ⟨first, hfirst, -⟩ := goal_defined G hc hod ad old old.controlled rfl hold b0 hb0
  obtain ⟨b, hb, hbs⟩ := had e.controlled
  obtain ⟨sp, hsp, hspb, hserve, hobs⟩ := goal_defined G hc hod ad (e.scene GoalEnv.view cfg.sim) e.controlled rfl (.inr (hscene e h hI)) b hb
  obtain ⟨x, sp', s, r1, r2, r3, r4, r5, r6⟩ := reset_contract G cfg.sim cls GoalEnv.view I hreli hrand (GoalScene e.controlled) hok hp od ad
    make old first hfirst e (hmake _) h ⟨hI, rfl⟩ sp hsp (by rw [hspb]; exact hbs) hserve
  have hq : Quiet sp.observer := goal_quiet (cfg := cfg) (s := ⟨e, sp.observer⟩) hobs
  have hfull : ∃ x1 s1, Full.observe G cfg.sim GoalEnv.view ⟨e, sp.observer⟩ = .ok (x1, s1) ∧ x1 = x ∧ s1 = s := by
    unfold Full.reset at r1
    change (Factory.defineSpaces G od ad old).bind _ = _ at r1
    have hid : GoalEnv.view.classes G = G := rfl
    rw [hfirst] at r1
    simp only [hid] at r1
    simp only [bind, Except.bind, hmake, hsp] at r1
    cases ho : Full.observe G cfg.sim GoalEnv.view ⟨e, sp.observer⟩ with
    | error err => rw [ho] at r1; cases r1
    | ok p =>
      rw [ho] at r1
      have := Except.ok.inj r1
      exact ⟨p.1, p.2, rfl, congrArg (fun p => p.1) this, congrArg (fun p => p.2.2) this⟩
  obtain ⟨_, _, hfo, rfl, rfl⟩ := hfull
  obtain ⟨o1, s1, ho1, ho2⟩ := full_observe_ok hfo
  obtain ⟨ts, hts⟩ : ∃ ts, Parking.observations cfg e = .ok ts := by
    obtain ⟨a, ha⟩ : ∃ b, cls.terminal e = .ok b := hrel.terminal e h hI
    rw [hcls.terminal] at ha
    unfold Parking.terminalWith at ha
    obtain ⟨_, -, ha⟩ := bind_ok ha
    obtain ⟨ts, hts, -⟩ := bind_ok ha
    exact ⟨ts, hts⟩
  obtain ⟨x', p1, p2⟩ := observations_shown (G := G) (c := cfg.sim) (e := e) (o := sp.observer) hobs h.manned.someone hts
  dsimp only at ho1
  change sp.observer.observe G _ = _ at ho1
  rw [p1] at ho1
  have hinj := Except.ok.inj ho1
  have hx' : x' = _ := congrArg (fun p => p.1) hinj
  have ho' : sp.observer = o1 := congrArg (fun p => p.2.1) hinj
  have hs' : e.scene GoalEnv.view cfg.sim = s1 := congrArg (fun p => p.2.2) hinj
  dsimp only at hx'
  subst hx' hs' ho'
  rw [ho2] at r1 r5 r6
  refine ⟨x', sp', _, r1, r4, ⟨_, p2⟩, fun as ha => ?_⟩
  obtain ⟨rs, s', q1, q2, q3, q4, q5⟩ := r6 as ha
  obtain ⟨rs', t1, t2, t3, t4⟩ := play_goal hcls (s := ⟨e.observed (e.scene GoalEnv.view cfg.sim), sp.observer⟩) hobs q1
  refine ⟨rs', s', t1, by rw [← q2, t2]; simp, hscene s'.env q4 q5.1, fun i r hr => ⟨?_, ?_⟩⟩
  · refine (q3 (r.1, r.2.1) ?_).1
    rw [t2]
    exact List.mem_map.2 ⟨r, List.mem_of_getElem? hr, rfl⟩
  · obtain ⟨e', gs, u1, u2, u3, -⟩ := t4 i r hr
    refine ⟨e', gs, u1, u2, ?_⟩
    rw [u3]
    show e.steps + (i + 1) = i + 1
    omega

/-- C103: **the parking environment is a goal environment.**  With any positive number of agents, any seed, and whatever was there before: `reset`
returns an observation of the declared space showing the goals; then any sequence of actions of the declared action space can be played; every
`step` returns an observation of the declared space, and the rewards, successes and ends of episode that the goals shown imply.  The scene left
is one that can be reset again. -/
theorem parking_contract (G : Globals) (cfg : ParkingConfig) (hc : ParkingOk cfg) (hn : 0 < cfg.controlledVehicles) (hp : cfg.sim.policyFrequency ≠ 0)
    (od : ObsDict) (hod : GoalConfig cfg od) (ad : ActDict) (had : ∀ us, ∃ b, Factory.action us ad = .ok b ∧ SameType b cfg.sim.action) (rng : Rng)
    (old : Scene) (hold : old.road = none ∨ GoalScene old.controlled old) :
    ∃ x sp s, Full.reset G od ad cfg.sim GoalEnv.view (fun _ => Parking.reset G cfg rng) old = .ok (x, sp, s) ∧ Member sp.observationSpace x ∧
      (∃ gs, Shows cfg.severalObservers gs x) ∧
      ∀ as, (∀ a ∈ as, Playable sp.actionSpace a) → ∃ rs s',
        GoalPlay G cfg.sim (Parking.cls cfg) (fun _ a d => Parking.computeReward a d) s as rs s' ∧ rs.length = as.length ∧
        GoalScene s'.env.controlled (s'.env.scene GoalEnv.view cfg.sim) ∧
        ∀ (i : ℕ) (r : Obs × StepResult × List Bool), rs[i]? = some r → Member sp.observationSpace r.1 ∧
          ∃ e gs, Shows cfg.severalObservers gs r.1 ∧ Agrees cfg (fun _ a d => Parking.computeReward a d) e gs r.2.1 r.2.2 ∧ e.steps = i + 1 := by
  obtain ⟨e, o, _, _, h1, h2, h3, h4, -⟩ := parking_reset G cfg hc hn rng
  exact goal_contract G cfg hc hp _ _ (parking_goalClass cfg) (parkingNet 15) o (parking_reliable G cfg hc _ o) od hod ad had _ e (fun _ => h1) h2 h3 h4
    old hold

/-- C103: **so is the summon environment**, where the reward also depends on whether the first agent has crashed. -/
theorem summon_contract (G : Globals) (cfg : SummonConfig) (hc : SummonOk cfg) (hp : cfg.base.sim.policyFrequency ≠ 0)
    (od : ObsDict) (hod : GoalConfig cfg.base od) (ad : ActDict) (had : ∀ us, ∃ b, Factory.action us ad = .ok b ∧ SameType b cfg.base.sim.action)
    (rng : Rng) (old : Scene) (hold : old.road = none ∨ GoalScene old.controlled old) :
    ∃ x sp s, Full.reset G od ad cfg.base.sim GoalEnv.view (fun _ => Summon.reset G cfg rng) old = .ok (x, sp, s) ∧ Member sp.observationSpace x ∧
      (∃ gs, Shows cfg.base.severalObservers gs x) ∧
      ∀ as, (∀ a ∈ as, Playable sp.actionSpace a) → ∃ rs s',
        GoalPlay G cfg.base.sim (Summon.cls cfg) (fun e a d => Summon.computeReward e a d) s as rs s' ∧ rs.length = as.length ∧
        GoalScene s'.env.controlled (s'.env.scene GoalEnv.view cfg.base.sim) ∧
        ∀ (i : ℕ) (r : Obs × StepResult × List Bool), rs[i]? = some r → Member sp.observationSpace r.1 ∧
          ∃ e gs, Shows cfg.base.severalObservers gs r.1 ∧ Agrees cfg.base (fun e a d => Summon.computeReward e a d) e gs r.2.1 r.2.2 ∧ e.steps = i + 1 := by
  obtain ⟨e, o, _, _, h1, h2, h3, h4, -⟩ := summon_reset G cfg hc rng
  exact goal_contract G cfg.base hc.base hp _ _ (summon_goalClass cfg) summonNet o (summon_reliable G cfg hc.base _ o) od hod ad had _ e (fun _ => h1) h2 h3 h4
    old hold

/-- C103: the reward can be recomputed from the goals shown and nothing else: two steps of the parking with one agent, from whatever states, that show
the same goals give the same reward and the same success. -/
theorem parking_reward_from_goals (G : Globals) (cfg : ParkingConfig) (hs : cfg.severalObservers = false) (s t s' t' : Full) (hos : GoalObserver cfg s)
    (hot : GoalObserver cfg t) (a b : Option AgentAction) (x y : Obs) (r1 r2 : StepResult) (k1 k2 : List Bool)
    (h1 : GoalEnv.step G cfg.sim (Parking.cls cfg) (fun _ a d => Parking.computeReward a d) s a = .ok (x, r1, k1, s'))
    (h2 : GoalEnv.step G cfg.sim (Parking.cls cfg) (fun _ a d => Parking.computeReward a d) t b = .ok (y, r2, k2, t'))
    (g g' : GoalView) (hx : x = g.shown) (hy : y = g'.shown) (hga : g.achieved = g'.achieved) (hgd : g.desired = g'.desired) :
    r1.reward = r2.reward ∧ k1 = k2 := by
  obtain ⟨gs, a1, ⟨ys, a2, a3, a4, -⟩, -⟩ := goal_step G cfg _ _ (parking_goalClass cfg) s s' hos a x r1 k1 h1
  obtain ⟨gs', b1, ⟨ys', b2, b3, b4, -⟩, -⟩ := goal_step G cfg _ _ (parking_goalClass cfg) t t' hot b y r2 k2 h2
  unfold Shows at a1 b1
  rw [if_neg (by simp [hs])] at a1 b1
  obtain ⟨v, rfl, e1⟩ := a1
  obtain ⟨w, rfl, e2⟩ := b1
  have inj : ∀ l m : List ℝ, ObsType.ofList l = ObsType.ofList m → l = m := by
    intro l m h
    have := congrArg (fun a => GoalEnv.components (.array a)) h
    simpa only [components_ofList] using this
  have shown : ∀ u v : GoalView, u.shown = v.shown → u.achieved = v.achieved ∧ u.desired = v.desired := by
    intro u v h
    unfold GoalView.shown at h
    simp only [Obs.dict.injEq, List.cons.injEq, Prod.mk.injEq, Obs.array.injEq, true_and, and_true] at h
    exact ⟨inj _ _ h.2.1, inj _ _ h.2.2⟩
  obtain ⟨p1, p2⟩ := shown v g (e1.symm.trans hx)
  obtain ⟨q1, q2⟩ := shown w g' (e2.symm.trans hy)
  cases a2 with
  | cons a5 a6 =>
    cases a6
    cases b2 with
    | cons b5 b6 =>
      cases b6
      dsimp only at a5 b5
      rw [p1, p2, hga, hgd] at a5
      rw [q1, q2, a5] at b5
      cases b5
      refine ⟨by rw [a3, b3], ?_⟩
      cases a4 with
      | cons a7 a8 =>
        cases a8
        cases b4 with
        | cons b7 b8 =>
          cases b8
          rw [Bool.eq_iff_iff.2 (a7.trans b7.symm)]

/-! ### The hypotheses are met -/

/-- The default observation of the parking. -/
def parkingObs : ObsDict :=
  .flat { type := some "KinematicsGoal", features := some ["x", "y", "vx", "vy", "cos_h", "sin_h"], scales := some [100, 100, 5, 5, 1, 1] }

theorem parkingObs_ok : GoalConfig {} parkingObs := ⟨_, rfl, rfl, rfl, rfl⟩

/-- The default parking: from scratch, fifty steps at full throttle, then a reset and fifty more. -/
example (rng rng' : Rng) : ∃ x sp s rs s' x' sp' t rs' t',
    Full.reset {} parkingObs { outer := { type := some "ContinuousAction" } } ({} : ParkingConfig).sim GoalEnv.view (fun _ => Parking.reset {} {} rng)
      { road := none, controlled := [] } = .ok (x, sp, s) ∧ sp.actionSpace = .box (-1) 1 [2] ∧
    GoalPlay {} ({} : ParkingConfig).sim (Parking.cls {}) (fun _ a d => Parking.computeReward a d) s (List.replicate 50 (.vector [1, 0])) rs s' ∧
    Full.reset {} parkingObs { outer := { type := some "ContinuousAction" } } ({} : ParkingConfig).sim GoalEnv.view (fun _ => Parking.reset {} {} rng')
      (s'.env.scene GoalEnv.view ({} : ParkingConfig).sim) = .ok (x', sp', t) ∧
    GoalPlay {} ({} : ParkingConfig).sim (Parking.cls {}) (fun _ a d => Parking.computeReward a d) t (List.replicate 50 (.vector [1, 0])) rs' t' := by
  have had : ∀ us : List ℕ, ∃ b, Factory.action us { outer := { type := some "ContinuousAction" } } = .ok b ∧ SameType b ({} : ParkingConfig).sim.action :=
    fun us => ⟨.single (.continuous {}), rfl, rfl⟩
  have hact : ∀ make old x sp s, Full.reset {} parkingObs { outer := { type := some "ContinuousAction" } } ({} : ParkingConfig).sim GoalEnv.view make old =
      .ok (x, sp, s) → sp.actionSpace = .box (-1) 1 [2] := by
    intro make old x sp s h
    unfold Full.reset at h
    obtain ⟨first, -, h⟩ := bind_ok h
    obtain ⟨e, -, h⟩ := bind_ok h
    obtain ⟨sp', hd, h⟩ := bind_ok h
    obtain ⟨⟨y, f1⟩, -, h⟩ := bind_ok h
    cases h
    have hd' := define_ok hd
    dsimp only
    rw [hd'.2.2.2, ← Except.ok.inj hd'.2.1]
    rfl
  have hplay : ∀ a ∈ List.replicate 50 (AgentAction.vector [1, 0]), Playable (.box (-1) 1 [2]) a := by
    intro a ha
    obtain ⟨_, rfl⟩ := List.mem_replicate.1 ha
    exact .box rfl (by intro x hx; simp at hx; rcases hx with rfl | rfl <;> norm_num)
  obtain ⟨x, sp, s, h1, -, -, h2⟩ := parking_contract {} {} parking_default_ok.1 (by norm_num) (by norm_num) parkingObs parkingObs_ok
    { outer := { type := some "ContinuousAction" } } had rng { road := none, controlled := [] } (.inl rfl)
  have e1 := hact _ _ _ _ _ h1
  obtain ⟨rs, s', h3, -, h4, -⟩ := h2 (List.replicate 50 (.vector [1, 0])) (by rw [e1]; exact hplay)
  obtain ⟨x', sp', t, h5, -, -, h6⟩ := parking_contract {} {} parking_default_ok.1 (by norm_num) (by norm_num) parkingObs parkingObs_ok
    { outer := { type := some "ContinuousAction" } } had rng'
    (s'.env.scene GoalEnv.view ({} : ParkingConfig).sim) (.inr h4)
  obtain ⟨rs', t', h7, -⟩ := h6 (List.replicate 50 (.vector [1, 0])) (by rw [hact _ _ _ _ _ h5]; exact hplay)
  exact ⟨x, sp, s, rs, s', x', sp', t, rs', t', h1, e1, h3, h5, h7⟩

/-- Two agents with an observation each. -/
example : GoalConfig { sim := { action := .multi (.continuous {}), policyFrequency := 5 }, severalObservers := true, controlledVehicles := 2 }
    (.nested { type := some "MultiAgentObservation" } parkingObs) := ⟨_, rfl, rfl, rfl, _, rfl, rfl⟩

/-- The summon environment. -/
example : SummonOk {} ∧ GoalConfig ({} : SummonConfig).base parkingObs := ⟨⟨parking_default_ok.1, by norm_num, rfl⟩, parkingObs_ok⟩

end HighwayEnv.Props
