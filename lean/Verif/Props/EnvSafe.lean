import Verif.Props.Episode
import Verif.Props.NoRaise
import Mathlib.Tactic.IntervalCases

/-!
# C78: environments never raise
-/

noncomputable section
open Classical
namespace HighwayEnv.Props
open HighwayEnv Spec

/-- Every action of the space of an agent stands for a command, which the class of vehicle prescribed by the action type accepts. -/
theorem command_total (t t' : AgentType) (ht : t.init = .ok t') (a : AgentAction) (ha : InSpace t a) :
    ∃ c, t.command a = .ok c ∧ ∀ v : Vehicle, v.kind = t.vehicleClass → Accepts v c := by
  cases t with
  | discrete lo la =>
    cases a with
    | index i =>
      obtain ⟨h0, h1⟩ := ha
      have : ∃ c, AgentType.command (.discrete lo la) (.index i) = .ok c := by
        unfold AgentType.command
        cases lo <;> cases la <;> simp only [AgentType.spaceSize, AgentType.actions, AgentType.init] at h1 ht ⊢
        · cases ht
        all_goals
          norm_num at h1
          interval_cases i <;> simp [Dict.getItem, Dict.get?]
      obtain ⟨c, hc⟩ := this
      exact ⟨c, hc, fun v hv => .inl (by rw [hv]; rfl)⟩
    | vector xs => exact ha.elim
    | tuple as => exact ha.elim
  | continuous cfg =>
    cases a with
    | index i => exact ha.elim
    | tuple as => exact ha.elim
    | vector xs =>
      have hlen : (AgentType.clipVector cfg xs).length = xs.length := by
        unfold AgentType.clipVector; split <;> simp
      have : ∃ s ac, AgentType.command (.continuous cfg) (.vector xs) = .ok (.control s ac) := by
        simp only [InSpace, AgentType.spaceSize] at ha
        simp only [AgentType.command, AgentType.continuousCommand]
        generalize hys : AgentType.clipVector cfg xs = ys at hlen ⊢
        rw [← hlen] at ha
        cases hlo : cfg.longitudinal <;> cases hla : cfg.lateral <;> simp only [hlo, hla] at ha ⊢
        · simp [AgentType.init, hlo, hla] at ht
        · obtain ⟨x, rfl⟩ := List.length_eq_one_iff.1 (by simpa using ha)
          exact ⟨_, _, rfl⟩
        · obtain ⟨x, rfl⟩ := List.length_eq_one_iff.1 (by simpa using ha)
          exact ⟨_, _, rfl⟩
        · obtain ⟨x, y, rfl⟩ := List.length_eq_two.1 (by simpa using ha)
          exact ⟨_, _, rfl⟩
      obtain ⟨s, ac, h⟩ := this
      exact ⟨_, h, fun v _ => .inr (.inr ⟨s, ac, rfl⟩)⟩

private theorem kinds_event {G : Globals} {r r' : Road} (h : RoadEvent G r r') :
    r'.vehicles.map (fun v => (v.uid, v.kind)) = r.vehicles.map (fun v => (v.uid, v.kind)) := by
  cases h with
  | actAt i a h => exact (Road.actAt_frame h).1.map_eq fun _ _ h => by rw [h.uid, h.kind]
  | act h => exact (Road.act_frame h).1.map_eq fun _ _ h => by rw [h.uid, h.kind]
  | step dt h =>
    refine (Road.step_frame h).1.map_eq ?_
    rintro v w ⟨u, hu, hs⟩
    rw [hs.mind.1, hs.mind.2.1, hu.body.uid, hu.body.kind]

/-- Identities and classes of the vehicles never change. -/
theorem kinds_run {G : Globals} {r r' : Road} (h : RoadRun G r r') :
    r'.vehicles.map (fun v => (v.uid, v.kind)) = r.vehicles.map (fun v => (v.uid, v.kind)) := by
  induction h with
  | refl => rfl
  | tail _ hev ih => exact (kinds_event hev).trans ih

theorem regulated_run {G : Globals} {r r' : Road} (h : RoadRun G r r') : r'.regulated = r.regulated := by
  induction h with
  | refl => rfl
  | tail _ hev ih =>
    refine Eq.trans ?_ ih
    cases hev with
    | actAt i a h => exact (Road.actAt_frame h).2.regulated
    | act h => exact (Road.act_frame h).2.regulated
    | step dt h => exact (Road.step_frame h).2.2.2.1

theorem ready_run {G : Globals} {c : SimConfig} {e : Env} {r : Road} (t s : ℕ) (h : Ready c e) (hr : RoadRun G e.road r) :
    Ready c { e with road := r, time := t, steps := s } := by
  have hk := kinds_run hr
  have hu := Road.uids_run hr
  refine ⟨healthy_forever G _ _ h.healthy hr, ⟨?_, fun uid hin => ?_, h.manned.someone⟩, fun v hv hin => ?_, h.constructed, ?_⟩
  · change r.uids.Nodup
    rw [hu]; exact h.manned.distinct
  · have : uid ∈ r.uids := by
      rw [hu]
      obtain ⟨v, hv, h⟩ := h.manned.onRoad uid hin
      exact List.mem_map.2 ⟨v, hv, h⟩
    obtain ⟨v, hv, h⟩ := List.mem_map.1 this
    exact ⟨v, hv, h⟩
  · have : (v.uid, v.kind) ∈ e.road.vehicles.map (fun v => (v.uid, v.kind)) := by
      rw [← hk]; exact List.mem_map.2 ⟨v, hv, rfl⟩
    obtain ⟨w, hw, heq⟩ := List.mem_map.1 this
    rw [Prod.mk.injEq] at heq
    rw [← heq.2]
    exact h.fitted w hw (by rw [heq.1]; exact hin)
  · intro hreg
    exact h.dt (by rw [← regulated_run hr]; exact hreg)

private theorem agentAct_total {G : Globals} {t t' : AgentType} (ht : t.init = .ok t') {r : Road} (hr : Healthy r) {uid : ℕ}
    (hfit : ∀ v ∈ r.vehicles, v.uid = uid → v.kind = t.vehicleClass) {a : AgentAction} (ha : InSpace t a) :
    ∃ r', r.agentAct G t uid a = .ok r' ∧ RoadRun G r r' := by
  obtain ⟨c, hc, hacc⟩ := command_total t t' ht a ha
  unfold Road.agentAct
  rw [hc]
  simp only [bind, Except.bind]
  cases hi : r.indexOf uid with
  | none => exact ⟨r, rfl, .refl _⟩
  | some i =>
    dsimp only
    unfold Road.indexOf at hi
    obtain ⟨hlt, hu, _⟩ := List.findIdx?_eq_some_iff_getElem.1 hi
    obtain ⟨r', hr'⟩ := (never_raises G r r hr (.refl _)).1 i r.vehicles[i] c (List.getElem?_eq_getElem hlt)
      (hacc _ (hfit _ (List.getElem_mem hlt) (by simpa using hu)))
    exact ⟨r', hr', .tail (.refl _) (.actAt _ _ hr')⟩

theorem envAct_total {G : Globals} {c : SimConfig} {e : Env} (h : Ready c e) {a : AgentAction}
    (ha : InEnvSpace c.action a) : ∃ r', e.road.envAct G c.action e.controlled a = .ok r' ∧ RoadRun G e.road r' := by
  obtain ⟨t', ht⟩ := h.constructed
  have hfit := h.fitted
  cases hact : c.action with
  | single t =>
    rw [hact] at ht hfit ha
    cases hctl : e.controlled with
    | nil => exact absurd hctl h.manned.someone
    | cons u us =>
      exact agentAct_total ht h.healthy (fun v hv hu => hfit v hv (by rw [hctl, hu]; simp)) ha
  | multi t =>
    rw [hact] at ht hfit ha
    cases a with
    | index i => exact ha.elim
    | vector xs => exact ha.elim
    | tuple as =>
      simp only [InEnvSpace] at ha
      have := Road.foldlM_total (I := fun s => RoadRun G e.road s) (f := fun r (au : AgentAction × ℕ) => r.agentAct G t au.2 au.1)
        (as.zip e.controlled) (by
        intro s au hau hs
        have hR := ready_run (c := c) e.time e.steps h hs
        obtain ⟨s', h1, h2⟩ := agentAct_total (G := G) ht hR.healthy (uid := au.2)
          (fun v hv hu => by
            have := hR.fitted v hv (by rw [hu]; exact (List.of_mem_zip hau).2)
            rw [hact] at this; exact this) (ha au.1 (List.of_mem_zip hau).1)
        exact ⟨s', h1, Road.RoadRun.trans hs h2⟩) e.road (.refl _)
      exact this

/-- One frame of a ready environment never raises. -/
theorem frame_total {G : Globals} {c : SimConfig} {e : Env} (h : Ready c e) (k : Int) (a : Option AgentAction)
    (ha : ∀ x, a = some x → InEnvSpace c.action x) :
    ∃ r, e.frame G c k a = .ok { e with road := r, time := e.time + 1 } ∧ RoadRun G e.road r := by
  have hf : ∃ r, e.forward G c k a = .ok { e with road := r } ∧ RoadRun G e.road r := by
    unfold Env.forward
    cases a with
    | none => exact ⟨e.road, rfl, .refl _⟩
    | some x =>
      dsimp only
      split
      · obtain ⟨r, hr, hrun⟩ := envAct_total (G := G) h (ha x rfl)
        exact ⟨r, by rw [hr]; rfl, hrun⟩
      · exact ⟨e.road, rfl, .refl _⟩
  obtain ⟨r1, h1, run1⟩ := hf
  have hR1 := ready_run e.time e.steps h run1
  obtain ⟨r2, h2⟩ := roadAct_never_raises G r1 hR1.healthy
  have run2 : RoadRun G e.road r2 := .tail run1 (.act h2)
  have hR2 := ready_run e.time e.steps h run2
  obtain ⟨r3, h3⟩ := roadStep_never_raises r2 hR2.healthy _ hR2.dt
  refine ⟨r3, ?_, .tail run2 (.step _ h3)⟩
  unfold Env.frame
  rw [h1]
  simp only [bind, Except.bind, h2, h3]; rfl

private theorem stops_total {G : Globals} {c : SimConfig} {cls : EnvClass} {I : Env → Prop} (hcls : Reliable G c cls I) {e : Env}
    (h : Ready c e) (hI : I e) : ∃ b, Env.stops cls e = .ok b := by
  unfold Env.stops
  split
  · exact ⟨_, rfl⟩
  · exact hcls.terminal e h hI

private theorem loop_total {G : Globals} {c : SimConfig} {cls : EnvClass} {I : Env → Prop} (hcls : Reliable G c cls I) (k : Int)
    (a : Option AgentAction) (ha : ∀ x, a = some x → InEnvSpace c.action x) (n : ℕ) (e : Env) (h : Ready c e) (hI : I e) :
    ∃ r t, Env.simulateLoop G c cls k a n e = .ok { e with road := r, time := t } ∧ RoadRun G e.road r ∧
      Ready c { e with road := r, time := t } ∧ I { e with road := r, time := t } := by
  induction n generalizing e with
  | zero => exact ⟨e.road, e.time, rfl, .refl _, h, hI⟩
  | succ n ih =>
    obtain ⟨r, hr, hrun⟩ := frame_total (G := G) h k a ha
    have h1 : Ready c { e with road := r, time := e.time + 1 } := ready_run _ e.steps h hrun
    have hI1 : I { e with road := r, time := e.time + 1 } := hcls.lasting e r _ e.steps hI hrun
    obtain ⟨b, hb⟩ := stops_total hcls h1 hI1
    unfold Env.simulateLoop
    simp only [hr, hb, bind, Except.bind]
    split
    · exact ⟨r, e.time + 1, rfl, hrun, h1, hI1⟩
    · obtain ⟨r', t', q1, q2, q3⟩ := ih _ h1 hI1
      exact ⟨r', t', q1, Road.RoadRun.trans hrun q2, q3⟩

/-- `_simulate` from a ready state succeeds and leaves a ready state, by a history of the road. -/
theorem simulate_outcome (G : Globals) (c : SimConfig) (cls : EnvClass) (I : Env → Prop) (hcls : Reliable G c cls I)
    (hc : c.policyFrequency ≠ 0) (e : Env) (h : Ready c e) (hI : I e) (a : AgentAction) (ha : InEnvSpace c.action a) :
    ∃ r t, Env.simulate G c cls (some a) e = .ok { e with road := r, time := t } ∧ RoadRun G e.road r ∧
      Ready c { e with road := r, time := t } ∧ I { e with road := r, time := t } := by
  obtain ⟨r1, t1, hsim, hrun, h2, hI2⟩ := loop_total hcls
    (pyInt ((⌊c.simulationFrequency / c.policyFrequency⌋ : Int) : ℝ)) (some a) (fun x hx => by cases hx; exact ha)
    (pyInt ((⌊c.simulationFrequency / c.policyFrequency⌋ : Int) : ℝ)).toNat _ h hI
  refine ⟨r1, t1, ?_, hrun, h2, hI2⟩
  unfold Env.simulate Env.framesPerStep
  rw [if_neg hc]
  exact hsim

/-- What the results of one `step` from a ready state are: the methods of the concrete environment evaluated in one and the same ready
state `e1`, which comes from the state before by a history of the road and a step counter larger by one. -/
theorem step_outcome (G : Globals) (c : SimConfig) (cls : EnvClass) (I : Env → Prop) (hcls : Reliable G c cls I)
    (hc : c.policyFrequency ≠ 0) (e : Env) (h : Ready c e) (hI : I e) (a : AgentAction) (ha : InEnvSpace c.action a) :
    ∃ e1 e' res v, e.step G c cls (some a) = .ok (e', res) ∧ Ready c e1 ∧ I e1 ∧ RoadRun G e.road e1.road ∧
      e1.steps = e.steps + 1 ∧ e1.controlled = e.controlled ∧ e1.done = e.done ∧ e1.goal = e.goal ∧ e1.nextUid = e.nextUid ∧
      cls.reward e1 (some a) = .ok res.reward ∧ cls.terminal e1 = .ok res.terminal ∧
      e1.vehicle = .ok v ∧ res.speed = v.speed ∧ res.crashed = v.crashed ∧
      (∀ x, res.cost = some x ↔ cls.cost e1 = .ok x) ∧ cls.after e1 = .ok e' ∧ Ready c e' ∧ I e' := by
  have h1 : Ready c { e with steps := e.steps + 1 } := ready_run e.time _ h (.refl (G := G) _)
  have hI1 : I { e with steps := e.steps + 1 } := hcls.lasting e e.road e.time _ hI (.refl _)
  obtain ⟨r1, t1, hsim, hrun, h2, hI2⟩ := loop_total hcls
    (pyInt ((⌊c.simulationFrequency / c.policyFrequency⌋ : Int) : ℝ)) (some a) (fun x hx => by cases hx; exact ha)
    (pyInt ((⌊c.simulationFrequency / c.policyFrequency⌋ : Int) : ℝ)).toNat _ h1 hI1
  set e1 : Env := { e with steps := e.steps + 1, road := r1, time := t1 } with he1
  change Ready c e1 at h2
  change I e1 at hI2
  obtain ⟨x, hx⟩ := hcls.reward e1 a h2 hI2 ha
  obtain ⟨b, hb⟩ := hcls.terminal e1 h2 hI2
  have hv : ∃ v, e1.vehicle = .ok v := by
    unfold Env.vehicle
    cases hctl : e1.controlled with
    | nil => exact absurd hctl h2.manned.someone
    | cons u us =>
      dsimp only
      obtain ⟨w, hw, hu⟩ := h2.manned.onRoad u (by rw [hctl]; simp)
      cases hf : e1.road.vehicle? u with
      | none =>
        unfold Road.vehicle? at hf
        rw [List.find?_eq_none] at hf
        exact absurd hu (by simpa using hf w hw)
      | some v => exact ⟨v, rfl⟩
  obtain ⟨v, hv⟩ := hv
  have hcost : ∃ y, Env.tryCost cls e1 = .ok y ∧ ∀ x, y = some x ↔ cls.cost e1 = .ok x := by
    unfold Env.tryCost
    rcases hcls.cost e1 h2 hI2 with ⟨y, hy⟩ | hy
    · rw [hy]; exact ⟨_, rfl, by simp⟩
    · rw [hy]; exact ⟨_, rfl, by simp⟩
  obtain ⟨y, hy, hy'⟩ := hcost
  obtain ⟨e2, he2, h3, hI3⟩ := hcls.after e1 h2 hI2
  refine ⟨e1, e2, ⟨x, b, v.speed, v.crashed, y⟩, v, ?_, h2, hI2, hrun, rfl, rfl, rfl, rfl, rfl, hx, hb, hv, rfl, rfl, hy', he2, h3, hI3⟩
  unfold Env.step
  rw [if_neg h.manned.someone]
  unfold Env.simulate Env.framesPerStep
  rw [if_neg hc]
  simp only [hsim, bind, Except.bind]
  simp only [hx, hb, hv, hy, he2]; rfl

/-- **C78.**  An environment whose methods are reliable never raises: from any ready state, `step` with any action of the space
succeeds, whatever the random draws, and leaves a ready state. -/
theorem step_never_raises (G : Globals) (c : SimConfig) (cls : EnvClass) (I : Env → Prop) (hcls : Reliable G c cls I)
    (hc : c.policyFrequency ≠ 0) (e : Env) (h : Ready c e) (hI : I e) (a : AgentAction) (ha : InEnvSpace c.action a) :
    ∃ e' res, e.step G c cls (some a) = .ok (e', res) ∧ Ready c e' ∧ I e' := by
  obtain ⟨_, e', res, _, hs, _, _, _, _, _, _, _, _, _, _, _, _, _, _, _, h1, h2⟩ := step_outcome G c cls I hcls hc e h hI a ha
  exact ⟨e', res, hs, h1, h2⟩

/-- **C78, whole episodes.**  Any sequence of actions of the space, of any length, can be played. -/
theorem episode_never_raises (G : Globals) (c : SimConfig) (cls : EnvClass) (I : Env → Prop) (hcls : Reliable G c cls I)
    (hc : c.policyFrequency ≠ 0) (e : Env) (h : Ready c e) (hI : I e) (as : List AgentAction)
    (ha : ∀ a ∈ as, InEnvSpace c.action a) :
    ∃ rs e', Episode G c cls e as rs e' ∧ rs.length = as.length ∧ Ready c e' ∧ I e' := by
  induction as using List.reverseRecOn with
  | nil => exact ⟨[], e, .start, rfl, h, hI⟩
  | append_singleton as a ih =>
    obtain ⟨rs, e1, hep, hl, h1, hI1⟩ := ih fun x hx => ha x (by simp [hx])
    obtain ⟨e2, res, hs, h2, hI2⟩ := step_never_raises G c cls I hcls hc e1 h1 hI1 a (ha a (by simp))
    exact ⟨rs ++ [res], e2, .step hep hs, by simp [hl], h2, hI2⟩

/-- What each decision of an episode reports: reward, termination, speed, crash and cost of one ready state, reached after as many
steps. -/
theorem episode_outcomes (G : Globals) (c : SimConfig) (cls : EnvClass) (I : Env → Prop) (hcls : Reliable G c cls I) (htidy : Tidy cls)
    (hc : c.policyFrequency ≠ 0) (e e' : Env) (h : Ready c e) (hI : I e) (as : List AgentAction) (rs : List StepResult)
    (ha : ∀ a ∈ as, InEnvSpace c.action a) (hep : Episode G c cls e as rs e') :
    Ready c e' ∧ I e' ∧ e'.controlled = e.controlled ∧ rs.length = as.length ∧ e'.steps = e.steps + as.length ∧
    ∀ (k : ℕ) (a : AgentAction) (res : StepResult), as[k]? = some a → rs[k]? = some res →
      ∃ e1 v, Ready c e1 ∧ I e1 ∧ e1.steps = e.steps + k + 1 ∧ e1.controlled = e.controlled ∧
        cls.reward e1 (some a) = .ok res.reward ∧ cls.terminal e1 = .ok res.terminal ∧ e1.vehicle = .ok v ∧ res.speed = v.speed ∧
        res.crashed = v.crashed ∧ ∀ x, res.cost = some x ↔ cls.cost e1 = .ok x := by
  induction hep with
  | start => exact ⟨h, hI, rfl, rfl, rfl, by simp⟩
  | @step as rs e1 e2 a res hep hst ih =>
    obtain ⟨i1, i2, i3, i4, i5, i6⟩ := ih fun x hx => ha x (by simp [hx])
    obtain ⟨f1, f', fres, v, q1, q2, q3, q4, q5, q6, q7, q8, q9, q10, q11, q12, q13, q14, q15, q16, q17, q18⟩ :=
      step_outcome G c cls I hcls hc e1 i1 i2 a (ha a (by simp))
    rw [hst] at q1
    injection q1 with q1
    injection q1 with w1 w2
    subst w1 w2
    refine ⟨q17, q18, ?_, by simp [i4], ?_, ?_⟩
    · rw [htidy.controlled _ _ q16, q6, i3]
    · rw [htidy.steps _ _ q16, q5, i5]; simp; omega
    · intro k b res' hb hres
      by_cases hk : k < as.length
      · rw [List.getElem?_append_left hk] at hb
        rw [List.getElem?_append_left (by omega)] at hres
        exact i6 k b res' hb hres
      · have hke : k = as.length := by
          have := (List.getElem?_eq_some_iff.1 hb).1
          simp at this; omega
        subst hke
        simp only [List.getElem?_concat_length, Option.some.injEq] at hb
        rw [← i4] at hres
        simp only [List.getElem?_concat_length, Option.some.injEq] at hres
        subst hb hres
        exact ⟨f1, v, q2, q3, by rw [q5, i5], by rw [q6, i3], q10, q11, q12, q13, q14, q15⟩

/-! ### A concrete environment -/

/-- An environment class: terminal and reward 0 on a crash of the ego vehicle. -/
def sampleClass : EnvClass where
  terminal e := do let v ← e.vehicle; return v.crashed
  reward e _ := do let v ← e.vehicle; return if v.crashed then 0 else 1

/-- An ego vehicle behind a slower vehicle on a regulated road. -/
def sampleEnv : Env where
  road := { network := Sample.net, rng := ⟨fun _ => 0, fun _ => 0, 0, 0⟩, regulated := true
            vehicles := [Sample.car 0 .mdp 10 0 20, Sample.car 1 .idm 40 0 10] }
  controlled := [0]

theorem vehicle_total {c : SimConfig} {e : Env} (h : Ready c e) : ∃ v, e.vehicle = .ok v ∧ v ∈ e.road.vehicles ∧ v.uid ∈ e.controlled := by
  unfold Env.vehicle
  cases hctl : e.controlled with
  | nil => exact absurd hctl h.manned.someone
  | cons u us =>
    dsimp only
    obtain ⟨w, hw, hu⟩ := h.manned.onRoad u (by rw [hctl]; simp)
    cases hf : e.road.vehicle? u with
    | none =>
      unfold Road.vehicle? at hf
      rw [List.find?_eq_none] at hf
      exact absurd hu (by simpa using hf w hw)
    | some v =>
      unfold Road.vehicle? at hf
      refine ⟨v, rfl, List.mem_of_find?_eq_some hf, ?_⟩
      have : v.uid = u := by simpa using List.find?_some hf
      rw [this]; simp

theorem sample_ready : Ready {} sampleEnv where
  healthy := sample_healthy true
  manned := ⟨by simp [sampleEnv, Sample.car], by simp [sampleEnv, Sample.car], by simp [sampleEnv]⟩
  fitted := by
    intro v hv hu
    simp only [sampleEnv, List.mem_cons, List.not_mem_nil, or_false] at hv hu
    rcases hv with rfl | rfl
    · rfl
    · cases hu
  constructed := ⟨_, rfl⟩
  dt := fun _ => ⟨by norm_num, by norm_num⟩

theorem sample_reliable (G : Globals) : Reliable G {} sampleClass fun _ => True where
  lasting := fun _ _ _ _ _ _ => trivial
  terminal := fun e h _ => by obtain ⟨v, hv, _⟩ := vehicle_total h; exact ⟨v.crashed, by simp only [sampleClass, hv]; rfl⟩
  reward := fun e a h _ _ => by obtain ⟨v, hv, _⟩ := vehicle_total h; exact ⟨_, by simp only [sampleClass, hv]; rfl⟩
  cost := fun _ _ _ => .inr rfl
  after := fun e h _ => ⟨e, rfl, h, trivial⟩

/-- Non-vacuity of C43 and C78: one hundred lane changes to the left can be played on the sample environment, and the first of them is
one decision in the sense of `one_decision`. -/
example : ∃ rs e', Episode {} {} sampleClass sampleEnv (List.replicate 100 (.index 0)) rs e' ∧ rs.length = 100 := by
  obtain ⟨rs, e', h1, h2, _⟩ := episode_never_raises {} {} sampleClass (fun _ => True) (sample_reliable {}) (by norm_num) sampleEnv
    sample_ready trivial (List.replicate 100 (.index 0)) (by
      intro a ha
      obtain ⟨_, rfl⟩ := List.mem_replicate.1 ha
      exact ⟨le_rfl, by norm_num [AgentType.spaceSize, AgentType.actions]⟩)
  exact ⟨rs, e', h1, by simpa using h2⟩

example : Manned sampleEnv ∧ GoodRates {} ∧ Tidy sampleClass ∧ sampleEnv.time % period {} = 0 ∧ period {} = 15 :=
  ⟨sample_ready.manned, ⟨by norm_num, by norm_num, rfl⟩, tidy_default rfl, by simp [sampleEnv], by norm_num [period]⟩

end HighwayEnv.Props
