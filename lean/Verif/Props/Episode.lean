import Verif.Lemmas.Env

/-!
# C43: what one decision of the agent does, and the clock of an episode
-/

noncomputable section
open Classical
namespace HighwayEnv.Props
open HighwayEnv Spec

theorem framesPerStep_eq {c : SimConfig} (hc : GoodRates c) : Env.framesPerStep c = .ok (period c : Int) ∧ 0 < period c := by
  have h1 : 1 ≤ c.simulationFrequency / c.policyFrequency := (one_le_div hc.policy).2 hc.simulation
  have h0 : 0 ≤ c.simulationFrequency / c.policyFrequency := by linarith
  have hfl : (0 : ℤ) ≤ ⌊c.simulationFrequency / c.policyFrequency⌋ := Int.floor_nonneg.2 h0
  refine ⟨?_, ?_⟩
  · unfold Env.framesPerStep
    rw [if_neg hc.policy.ne']
    unfold pyInt period
    rw [if_pos (by exact_mod_cast hfl), Int.floor_intCast, Int.natCast_floor_eq_floor h0]
  · exact Nat.floor_pos.2 h1

/-- The commands of a frame: those of the action if the frame starts a decision period, nothing otherwise. -/
private def FrameCmds (c : SimConfig) (k : ℕ) (a : Option AgentAction) (e : Env) (j : ℕ) (cmds : List (ℕ × VAction)) : Prop :=
  if (e.time + j) % k = 0 ∧ c.manualControl = false then
    (∀ x, a = some x → Orders c.action e.controlled e.road x cmds) ∧ (a = none → cmds = [])
  else cmds = []

private theorem Orders.congr {r r' : Road} (h : r'.uids = r.uids) {t : ActionType} {ctl : List ℕ} {a : AgentAction}
    {cmds : List (ℕ × VAction)} (hs : Orders t ctl r a cmds) : Orders t ctl r' a cmds := by
  cases t with
  | single t =>
    obtain ⟨o, uid, h1, h2, rfl⟩ := hs
    exact ⟨o, uid, h1, Road.Sends.congr h h2, rfl⟩
  | multi t =>
    cases a with
    | tuple as => exact Pointwise.mono (fun _ _ hx => Road.Sends.congr h hx) hs
    | index i => exact hs.elim
    | vector xs => exact hs.elim

/-- One frame of the environment is one frame of its road. -/
theorem frame_ok {G : Globals} {c : SimConfig} {k : ℕ} {a : Option AgentAction} {e e' : Env} (hm : Manned e)
    (h : e.frame G c k a = .ok e') : ∃ cmds, FrameCmds c k a e 0 cmds ∧
      Spec.frame G (1 / c.simulationFrequency) e.road cmds = .ok e'.road ∧ e' = { e with road := e'.road, time := e.time + 1 } := by
  unfold Env.frame at h
  obtain ⟨e1, h1, h⟩ := bind_ok h
  obtain ⟨r2, h2, h⟩ := bind_ok h
  obtain ⟨r3, h3, h⟩ := bind_ok h
  cases h
  have hmod : ((e.time : Int) % (k : Int) = 0) ↔ (e.time + 0) % k = 0 := by
    rw [Nat.add_zero]; exact_mod_cast Iff.rfl
  have hnone : ∀ r : Road, (([] : List (ℕ × VAction)).foldlM (fun r o => r.actAt G o.2 o.1) r : Py Road) = .ok r := fun _ => rfl
  unfold Env.forward at h1
  cases a with
  | none =>
    cases h1
    refine ⟨[], ?_, ?_, rfl⟩
    · unfold FrameCmds; split
      · exact ⟨by simp, fun _ => rfl⟩
      · rfl
    · unfold Spec.frame; rw [hnone]; simp only [bind, Except.bind, h2]; exact h3
  | some x =>
    dsimp only at h1
    split at h1
    · rename_i hcond
      obtain ⟨r1, hr1, h1⟩ := bind_ok h1
      cases h1
      obtain ⟨cmds, hcm⟩ := Road.orders_of hm.onRoad hr1
      refine ⟨cmds, ?_, ?_, rfl⟩
      · unfold FrameCmds
        rw [if_pos ⟨hmod.1 hcond.2, hcond.1⟩]
        exact ⟨fun y hy => by cases hy; exact hcm, by simp⟩
      · rw [Road.envAct_of hm.distinct hcm] at hr1
        unfold Spec.frame
        simp only [hr1, bind, Except.bind]
        dsimp only at h2
        rw [h2]; exact h3
    · rename_i hcond
      cases h1
      refine ⟨[], ?_, ?_, rfl⟩
      · unfold FrameCmds
        rw [if_neg]
        rintro ⟨h5, h6⟩
        exact hcond ⟨h6, hmod.2 h5⟩
      · unfold Spec.frame; rw [hnone]; simp only [bind, Except.bind, h2]; exact h3

private theorem manned_run {G : Globals} {e : Env} {r : Road} (t : ℕ) (hm : Manned e) (h : RoadRun G e.road r) :
    Manned { e with road := r, time := t } := by
  have hu := Road.uids_run h
  refine ⟨?_, fun uid hin => ?_, hm.someone⟩
  · change r.uids.Nodup
    rw [hu]; exact hm.distinct
  · have : uid ∈ r.uids := by
      rw [hu]
      obtain ⟨v, hv, h⟩ := hm.onRoad uid hin
      exact List.mem_map.2 ⟨v, hv, h⟩
    obtain ⟨v, hv, h⟩ := List.mem_map.1 this
    exact ⟨v, hv, h⟩

private theorem loop_ok {G : Globals} {c : SimConfig} {cls : EnvClass} {k : ℕ} {a : Option AgentAction} (n : ℕ) {e e' : Env}
    (hm : Manned e) (h : Env.simulateLoop G c cls k a n e = .ok e') :
    ∃ l : List (List (ℕ × VAction)), l.length ≤ n ∧ (0 < n → 0 < l.length) ∧
      frames G (1 / c.simulationFrequency) e.road l = .ok e'.road ∧ e' = { e with road := e'.road, time := e.time + l.length } ∧
      (∀ (j : ℕ) (cmds : List (ℕ × VAction)), l[j]? = some cmds → FrameCmds c k a e j cmds) ∧
      (∀ (j : ℕ) (r : Road), 0 < j → j < l.length → frames G (1 / c.simulationFrequency) e.road (l.take j) = .ok r →
        Env.stops cls { e with road := r, time := e.time + j } = .ok false) ∧
      (l.length < n → Env.stops cls e' = .ok true) := by
  induction n generalizing e with
  | zero =>
    unfold Env.simulateLoop at h
    cases h
    exact ⟨[], le_rfl, by simp, rfl, rfl, by simp, by simp, by simp⟩
  | succ n ih =>
    unfold Env.simulateLoop at h
    obtain ⟨e1, h1, h⟩ := bind_ok h
    obtain ⟨b, hb, h⟩ := bind_ok h
    obtain ⟨cmds, hc1, hc2, hc3⟩ := frame_ok hm h1
    have hrun := Road.frame_run hc2
    have hm1 : Manned e1 := by rw [hc3]; exact manned_run _ hm hrun
    have hu : e1.road.uids = e.road.uids := Road.uids_run hrun
    split at h
    · rename_i hbt
      cases h
      subst hbt
      refine ⟨[cmds], by simp, by simp, ?_, hc3, ?_, ?_, fun _ => hb⟩
      · unfold frames
        rw [List.foldlM_cons, hc2]; rfl
      · intro j cm hj
        cases j with
        | zero => simp only [List.getElem?_cons_zero, Option.some.injEq] at hj; rw [← hj]; exact hc1
        | succ j => simp at hj
      · intro j r h0 h1 _
        simp only [List.length_singleton] at h1
        omega
    · rename_i hbf
      simp only [Bool.not_eq_true] at hbf
      subst hbf
      obtain ⟨l, l1, l2, l3, l4, l5, l6, l7⟩ := ih hm1 h
      have ht : e1.time = e.time + 1 := by rw [hc3]
      have hctl : e1.controlled = e.controlled := by rw [hc3]
      refine ⟨cmds :: l, by simp; exact l1, by simp, ?_, ?_, ?_, ?_, ?_⟩
      · unfold frames at l3 ⊢
        rw [List.foldlM_cons, hc2]
        exact l3
      · rw [l4, hc3]
        simp only [List.length_cons]
        congr 1
        omega
      · intro j cm hj
        cases j with
        | zero => simp only [List.getElem?_cons_zero, Option.some.injEq] at hj; rw [← hj]; exact hc1
        | succ j =>
          have := l5 j cm (by simpa using hj)
          unfold FrameCmds at this ⊢
          rw [ht] at this
          rw [show e.time + (j + 1) = e.time + 1 + j by omega]
          split
          · rename_i hcond
            rw [if_pos hcond] at this
            refine ⟨fun x hx => ?_, this.2⟩
            have := this.1 x hx
            rw [hctl] at this
            exact Orders.congr hu.symm this
          · rename_i hcond
            rw [if_neg hcond] at this
            exact this
      · intro j r h0 hj hr
        cases j with
        | zero => omega
        | succ j =>
          simp only [List.take_succ_cons] at hr
          unfold frames at hr
          rw [List.foldlM_cons, hc2] at hr
          simp only [bind, Except.bind] at hr
          rcases Nat.eq_zero_or_pos j with hj0 | hj0
          · subst hj0
            rw [List.take_zero, List.foldlM_nil] at hr
            cases hr
            rw [show e.time + (0 + 1) = e.time + 1 by omega, ← hc3]
            exact hb
          · have := l6 j r hj0 (by simpa using hj) hr
            rw [ht] at this
            rw [show e.time + (j + 1) = e.time + 1 + j by omega]
            rw [← this, hc3]
      · intro hl
        exact l7 (by simpa using hl)

/-- **C43, one decision.**  When the clock is at the start of a decision period, `step(a)` lets the controlled vehicles execute the
commands `a` stands for, once, and then advances the simulation by `m` frames of `1 / simulation_frequency` seconds each, every vehicle
deciding at each frame.  `m` is the number of frames of a decision period, unless the environment is closed or the episode terminates
earlier, and then the simulation stops at the first such frame.  The reward, the termination flag and the reported speed and crash of
the first controlled vehicle are those of the state reached. -/
theorem one_decision (G : Globals) (c : SimConfig) (cls : EnvClass) (e e' : Env) (a : AgentAction) (res : StepResult) (hm : Manned e)
    (hc : GoodRates c) (h0 : e.time % period c = 0) (h : e.step G c cls (some a) = .ok (e', res)) :
    ∃ (m : ℕ) (cmds : List (ℕ × VAction)) (r : Road) (e1 : Env), 1 ≤ m ∧ m ≤ period c ∧
      Orders c.action e.controlled e.road a cmds ∧
      frames G (1 / c.simulationFrequency) e.road (cmds :: List.replicate (m - 1) []) = .ok r ∧
      e1 = { e with road := r, time := e.time + m, steps := e.steps + 1 } ∧
      (m < period c → e1.done = true ∨ cls.terminal e1 = .ok true) ∧
      (∀ (j : ℕ) (r' : Road), 1 ≤ j → j < m →
        frames G (1 / c.simulationFrequency) e.road (cmds :: List.replicate (j - 1) []) = .ok r' →
        e.done = false ∧ cls.terminal { e with road := r', time := e.time + j, steps := e.steps + 1 } = .ok false) ∧
      cls.reward e1 (some a) = .ok res.reward ∧ cls.terminal e1 = .ok res.terminal ∧
      (∃ uid v, e1.controlled.head? = some uid ∧ v ∈ e1.road.vehicles ∧ v.uid = uid ∧ res.speed = v.speed ∧
        res.crashed = v.crashed) ∧
      cls.after e1 = .ok e' := by
  obtain ⟨hk, hk0⟩ := framesPerStep_eq hc
  unfold Env.step at h
  rw [if_neg hm.someone] at h
  obtain ⟨e1, h1, h⟩ := bind_ok h
  obtain ⟨rew, hrew, h⟩ := bind_ok h
  obtain ⟨ter, hter, h⟩ := bind_ok h
  obtain ⟨v, hv, h⟩ := bind_ok h
  obtain ⟨cost, _, h⟩ := bind_ok h
  obtain ⟨e2, haft, h⟩ := bind_ok h
  cases h
  unfold Env.simulate at h1
  rw [hk] at h1
  simp only [bind, Except.bind, Int.toNat_natCast] at h1
  have hm' : Manned { e with steps := e.steps + 1 } := ⟨hm.1, hm.2, hm.3⟩
  obtain ⟨l, l1, l2, l3, l4, l5, l6, l7⟩ := loop_ok (period c) hm' h1
  have hl0 := l2 hk0
  dsimp only at l3
  -- the shape of the list of commands
  obtain ⟨cmds, rest, rfl⟩ : ∃ cmds rest, l = cmds :: rest := by
    cases l with
    | nil => simp at hl0
    | cons x y => exact ⟨x, y, rfl⟩
  have hfirst : Orders c.action e.controlled e.road a cmds := by
    have := l5 0 cmds (by simp)
    unfold FrameCmds at this
    rw [if_pos ⟨by simpa using h0, hc.auto⟩] at this
    exact this.1 a rfl
  have hrest : rest = List.replicate rest.length [] := by
    apply List.ext_getElem (by simp)
    intro j hj hj'
    have := l5 (j + 1) rest[j] (by simp)
    unfold FrameCmds at this
    rw [if_neg] at this
    · simpa using this
    · rintro ⟨hmod, _⟩
      dsimp only at hmod
      have hlt : j + 1 < period c := by simp only [List.length_cons] at l1; omega
      rw [Nat.add_mod, h0, Nat.zero_add, Nat.mod_mod, Nat.mod_eq_of_lt hlt] at hmod
      omega
  have htake : ∀ j, 1 ≤ j → j ≤ rest.length + 1 → (cmds :: rest).take j = cmds :: List.replicate (j - 1) [] := by
    intro j hj hj'
    obtain ⟨i, rfl⟩ : ∃ i, j = i + 1 := ⟨j - 1, by omega⟩
    rw [List.take_succ_cons, hrest, List.take_replicate]
    simp; omega
  have hstop : ∀ (x : Env) (b : Bool), Env.stops cls x = .ok b →
      (b = true → x.done = true ∨ cls.terminal x = .ok true) ∧ (b = false → x.done = false ∧ cls.terminal x = .ok false) := by
    intro x b hx
    unfold Env.stops at hx
    split at hx
    · rename_i hd
      cases hx
      exact ⟨fun _ => .inl hd, by simp⟩
    · rename_i hd
      exact ⟨fun hb => .inr (by rw [hx, hb]), fun hb => ⟨by simpa using hd, by rw [hx, hb]⟩⟩
  refine ⟨rest.length + 1, cmds, e1.road, e1, by omega, by simpa using l1, hfirst, ?_, ?_, ?_, ?_, hrew, hter, ?_, haft⟩
  · have := htake (rest.length + 1) (by omega) le_rfl
    rw [List.take_of_length_le (by simp)] at this
    rw [← this]; exact l3
  · simpa using l4
  · intro hlt
    exact (hstop _ _ (l7 (by simpa using hlt))).1 rfl
  · intro j r' hj hj' hr'
    rw [← htake j hj (by omega)] at hr'
    exact (hstop _ _ (l6 j r' (by omega) (by simpa using hj') hr')).2 rfl
  · unfold Env.vehicle at hv
    split at hv
    · cases hv
    · rename_i uid rest' hctl
      split at hv
      · cases hv
      · rename_i w hw
        cases hv
        unfold Road.vehicle? at hw
        exact ⟨uid, v, by rw [hctl]; rfl, List.mem_of_find?_eq_some hw, by simpa using List.find?_some hw, rfl, rfl⟩

/-- What a concrete environment may do after the common part of `step`: it changes no clock and keeps the controlled vehicles. -/
structure Tidy (cls : EnvClass) : Prop where
  time : ∀ e e', cls.after e = .ok e' → e'.time = e.time
  steps : ∀ e e', cls.after e = .ok e' → e'.steps = e.steps
  done : ∀ e e', cls.after e = .ok e' → e'.done = e.done
  controlled : ∀ e e', cls.after e = .ok e' → e'.controlled = e.controlled
  manned : ∀ e e', cls.after e = .ok e' → Manned e → Manned e'

/-- Environments that do nothing more in `step`. -/
theorem tidy_default {cls : EnvClass} (h : cls.after = fun e => .ok e) : Tidy cls := by
  constructor <;> intro e e' h' <;> rw [h] at h' <;> cases h' <;> first | rfl | exact id

/-- One decision keeps the environment manned and advances its counters. -/
theorem decision_keeps (G : Globals) (c : SimConfig) (cls : EnvClass) (e e' : Env) (a : AgentAction) (res : StepResult) (hm : Manned e)
    (hc : GoodRates c) (hcls : Tidy cls) (h0 : e.time % period c = 0) (hd : e.done = false)
    (h : e.step G c cls (some a) = .ok (e', res)) :
    Manned e' ∧ e'.done = false ∧ e'.controlled = e.controlled ∧ e'.steps = e.steps + 1 ∧ e.time < e'.time ∧
      e'.time ≤ e.time + period c ∧ (res.terminal = false → e'.time = e.time + period c) := by
  obtain ⟨m, cmds, r, e1, m1, m2, _, hf, he1, hend, _, _, hter, _, haft⟩ := one_decision G c cls e e' a res hm hc h0 h
  have hm1 : Manned e1 := by
    rw [he1]
    have := manned_run (e := { e with steps := e.steps + 1 }) (e.time + m) ⟨hm.1, hm.2, hm.3⟩ (Road.frames_run hf)
    exact this
  have t1 : e1.time = e.time + m := by rw [he1]
  have s1 : e1.steps = e.steps + 1 := by rw [he1]
  have d1 : e1.done = false := by rw [he1]; exact hd
  have k1 : e1.controlled = e.controlled := by rw [he1]
  refine ⟨hcls.manned _ _ haft hm1, (hcls.done _ _ haft).trans d1, (hcls.controlled _ _ haft).trans k1,
    (hcls.steps _ _ haft).trans s1, ?_, ?_, ?_⟩
  · rw [hcls.time _ _ haft, t1]; omega
  · rw [hcls.time _ _ haft, t1]; omega
  · intro hf
    rw [hcls.time _ _ haft, t1]
    rcases Nat.lt_or_ge m (period c) with hlt | hge
    · rcases hend hlt with h5 | h5
      · rw [d1] at h5; cases h5
      · rw [hter, hf] at h5; cases h5
    · omega

/-- **C43, whole episodes.**  From a reset, as long as no decision has reported termination, the clock advances by exactly one decision
period per decision: at the start of every decision it is at a multiple of the period (so `one_decision` applies), and the number of
decisions is counted exactly. -/
theorem episode_clock (G : Globals) (c : SimConfig) (cls : EnvClass) (e e' : Env) (as : List AgentAction) (rs : List StepResult)
    (hm : Manned e) (hc : GoodRates c) (hcls : Tidy cls) (h0 : e.time % period c = 0) (hd : e.done = false)
    (h : Episode G c cls e as rs e') (hrs : ∀ res ∈ rs, res.terminal = false) :
    e'.time = e.time + period c * as.length ∧ e'.steps = e.steps + as.length ∧ rs.length = as.length ∧ Manned e' ∧
      e'.done = false ∧ e'.controlled = e.controlled ∧ e'.time % period c = 0 := by
  induction h with
  | start => exact ⟨by simp, by simp, rfl, hm, hd, rfl, h0⟩
  | step hep hst ih =>
    obtain ⟨i1, i2, i3, i4, i5, i6, i7⟩ := ih fun res hr => hrs res (by simp [hr])
    obtain ⟨k1, k2, k3, k4, _, _, k7⟩ := decision_keeps G c cls _ _ _ _ i4 hc hcls i7 i5 hst
    have ht := k7 (hrs _ (by simp))
    refine ⟨?_, ?_, by simp [i3], k1, k2, k3.trans i6, ?_⟩
    · rw [ht, i1]; simp; ring
    · rw [k4, i2]; simp; omega
    · rw [ht]; simpa using i7

/-- Once a decision was cut short by termination, the clock is no longer at the start of a period: if the agent goes on without
resetting, and each frame is terminal, the next action has no effect at all. -/
theorem action_lost_after_termination (G : Globals) (c : SimConfig) (cls : EnvClass) (e : Env) (a b : AgentAction) (hc : GoodRates c)
    (h0 : e.time % period c ≠ 0) (ht : ∀ e, cls.terminal e = .ok true) :
    Env.simulate G c cls (some a) e = Env.simulate G c cls (some b) e := by
  obtain ⟨hk, hk0⟩ := framesPerStep_eq hc
  have hfwd : ∀ x : AgentAction, e.forward G c (period c) (some x) = .ok e := by
    intro x
    unfold Env.forward
    dsimp only
    rw [if_neg]
    rintro ⟨_, h⟩
    exact h0 (by exact_mod_cast h)
  have hfr : ∀ x : AgentAction, e.frame G c (period c) (some x) = e.frame G c (period c) none := by
    intro x
    unfold Env.frame
    rw [hfwd x]; rfl
  obtain ⟨n, hn⟩ : ∃ n, period c = n + 1 := ⟨period c - 1, by omega⟩
  have key : ∀ x : AgentAction, Env.simulate G c cls (some x) e = e.frame G c (period c) none := by
    intro x
    unfold Env.simulate
    rw [hk]
    simp only [bind, Except.bind, Int.toNat_natCast]
    rw [show (Env.simulateLoop G c cls (period c : Int) (some x) (period c) e) =
      Env.simulateLoop G c cls (period c : Int) (some x) (n + 1) e by rw [← hn]]
    unfold Env.simulateLoop
    rw [hfr x]
    cases e.frame G c (period c) none with
    | error _ => rfl
    | ok e1 =>
      have : Env.stops cls e1 = .ok true := by
        unfold Env.stops; split
        · rfl
        · exact ht e1
      simp only [bind, Except.bind, this]; rfl
  rw [key a, key b]

/-- The whole history of an episode is a history of its road when the environment does nothing more in `step`: everything proved about
all histories of a road holds in every episode. -/
theorem episode_history (G : Globals) (c : SimConfig) (cls : EnvClass) (e e' : Env) (as : List AgentAction) (rs : List StepResult)
    (hm : Manned e) (hcls : cls.after = fun e => .ok e) (h : Episode G c cls e as rs e') : RoadRun G e.road e'.road := by
  have one : ∀ (x y : Env) (a : AgentAction) (res : StepResult), Manned x → x.step G c cls (some a) = .ok (y, res) →
      RoadRun G x.road y.road ∧ Manned y := by
    intro x y a res hx h
    unfold Env.step at h
    rw [if_neg hx.someone] at h
    obtain ⟨e1, h1, h⟩ := bind_ok h
    obtain ⟨rew, hrew, h⟩ := bind_ok h
    obtain ⟨ter, hter, h⟩ := bind_ok h
    obtain ⟨v, hv, h⟩ := bind_ok h
    obtain ⟨cost, _, h⟩ := bind_ok h
    obtain ⟨e2, haft, h⟩ := bind_ok h
    rw [hcls] at haft
    cases haft
    cases h
    unfold Env.simulate at h1
    obtain ⟨k, hk, h1⟩ := bind_ok h1
    rcases le_or_gt 0 k with hk0 | hk0
    · obtain ⟨n, rfl⟩ := Int.eq_ofNat_of_zero_le hk0
      have hx' : Manned { x with steps := x.steps + 1 } := ⟨hx.1, hx.2, hx.3⟩
      obtain ⟨l, _, _, l3, l4, _⟩ := loop_ok _ hx' h1
      have hrun := Road.frames_run l3
      refine ⟨hrun, ?_⟩
      rw [l4]
      exact manned_run _ hx' hrun
    · have : k.toNat = 0 := by omega
      rw [this] at h1
      unfold Env.simulateLoop at h1
      cases h1
      exact ⟨.refl _, hx.1, hx.2, hx.3⟩
  suffices RoadRun G e.road e'.road ∧ Manned e' from this.1
  induction h with
  | start => exact ⟨.refl _, hm⟩
  | step _ hst ih =>
    obtain ⟨o1, o2⟩ := one _ _ _ _ ih.2 hst
    exact ⟨Road.RoadRun.trans ih.1 o1, o2⟩

end HighwayEnv.Props
