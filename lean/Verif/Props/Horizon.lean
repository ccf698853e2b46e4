import Verif.Props.EnvSafe

/-!
# C78 within a horizon: environments that are safe for a given number of frames
-/

noncomputable section
open Classical
namespace HighwayEnv.Props
open HighwayEnv Spec

private theorem loop_until {G : Globals} {c : SimConfig} {cls : EnvClass} {N : ℕ} {I : Env → Prop} (hcls : ReliableUntil G c cls N I) (k : ℕ)
    (a : Option AgentAction) (ha : ∀ x, a = some x → InEnvSpace c.action x) (n : ℕ) (e : Env) (h : Ready c e) (hI : I e) (ht : e.time + n ≤ N) :
    ∃ r t, Env.simulateLoop G c cls k a n e = .ok { e with road := r, time := t } ∧ RoadRun G e.road r ∧ t ≤ e.time + n ∧
      Ready c { e with road := r, time := t } ∧ I { e with road := r, time := t } := by
  induction n generalizing e with
  | zero => exact ⟨e.road, e.time, rfl, .refl _, le_rfl, h, hI⟩
  | succ n ih =>
    obtain ⟨r, hr, hrun⟩ := frame_total (G := G) h k a ha
    have h1 : Ready c { e with road := r, time := e.time + 1 } := ready_run _ e.steps h hrun
    have hI1 : I { e with road := r, time := e.time + 1 } := hcls.frame e _ k a h hI (by omega) ha hr
    have hb : ∃ b, Env.stops cls { e with road := r, time := e.time + 1 } = .ok b := by
      unfold Env.stops
      split
      · exact ⟨_, rfl⟩
      · exact hcls.terminal _ h1 hI1 (by dsimp only; omega)
    obtain ⟨b, hb⟩ := hb
    unfold Env.simulateLoop
    simp only [hr, hb, bind, Except.bind]
    split
    · exact ⟨r, e.time + 1, rfl, hrun, by omega, h1, hI1⟩
    · obtain ⟨r', t', q1, q2, q3, q4⟩ := ih _ h1 hI1 (by dsimp only; omega)
      exact ⟨r', t', q1, Road.RoadRun.trans hrun q2, by dsimp only at q3; omega, q4⟩

/-- One decision before the horizon: it does not raise, and its results are those of one state reached within a decision period. -/
theorem step_until (G : Globals) (c : SimConfig) (cls : EnvClass) (N : ℕ) (I : Env → Prop) (hcls : ReliableUntil G c cls N I)
    (hc : GoodRates c) (e : Env) (h : Ready c e) (hI : I e) (ht : e.time + period c ≤ N) (a : AgentAction) (ha : InEnvSpace c.action a) :
    ∃ e1 e' res v, e.step G c cls (some a) = .ok (e', res) ∧ Ready c e1 ∧ I e1 ∧ RoadRun G e.road e1.road ∧ e1.time ≤ e.time + period c ∧
      e1.steps = e.steps + 1 ∧ e1.controlled = e.controlled ∧
      cls.reward e1 (some a) = .ok res.reward ∧ cls.terminal e1 = .ok res.terminal ∧
      e1.vehicle = .ok v ∧ res.speed = v.speed ∧ res.crashed = v.crashed ∧
      (∀ x, res.cost = some x ↔ cls.cost e1 = .ok x) ∧ cls.after e1 = .ok e' ∧ Ready c e' ∧ I e' ∧ e'.time ≤ e.time + period c ∧
      Env.simulate G c cls (some a) { e with steps := e.steps + 1 } = .ok e1 := by
  have h1 : Ready c { e with steps := e.steps + 1 } := ready_run e.time _ h (.refl (G := G) _)
  have hI1 : I { e with steps := e.steps + 1 } := hcls.counter e _ hI
  obtain ⟨hk, _⟩ := framesPerStep_eq hc
  obtain ⟨r1, t1, hsim, hrun, ht1, h2, hI2⟩ := loop_until hcls (period c) (some a) (fun x hx => by cases hx; exact ha) (period c) _ h1 hI1 ht
  set e1 : Env := { e with steps := e.steps + 1, road := r1, time := t1 } with he1
  change Ready c e1 at h2
  change I e1 at hI2
  have ht2 : e1.time ≤ e.time + period c := ht1
  obtain ⟨x, hx⟩ := hcls.reward e1 a h2 hI2 (by omega) ha
  obtain ⟨b, hb⟩ := hcls.terminal e1 h2 hI2 (by omega)
  obtain ⟨v, hv, _⟩ := vehicle_total h2
  have hcost : ∃ y, Env.tryCost cls e1 = .ok y ∧ ∀ x, y = some x ↔ cls.cost e1 = .ok x := by
    unfold Env.tryCost
    rcases hcls.cost e1 h2 hI2 (by omega) with ⟨y, hy⟩ | hy
    · rw [hy]; exact ⟨_, rfl, by simp⟩
    · rw [hy]; exact ⟨_, rfl, by simp⟩
  obtain ⟨y, hy, hy'⟩ := hcost
  obtain ⟨e2, he2, h3, hI3, ht3⟩ := hcls.after e1 h2 hI2 (by omega)
  refine ⟨e1, e2, ⟨x, b, v.speed, v.crashed, y⟩, v, ?_, h2, hI2, hrun, ht2, rfl, rfl, hx, hb, hv, rfl, rfl, hy', he2, h3, hI3, by omega, ?_⟩
  · unfold Env.step
    rw [if_neg h.manned.someone]
    unfold Env.simulate
    simp only [hk, bind, Except.bind, Int.toNat_natCast, hsim]
    simp only [hx, hb, hv, hy, he2]; rfl
  · unfold Env.simulate
    simp only [hk, bind, Except.bind, Int.toNat_natCast, hsim]

/-- **C78 within a horizon.**  An environment that is reliable during `N` frames lets any sequence of actions be played that fits in, and every
result is that of one state reached on the way. -/
theorem episode_until (G : Globals) (c : SimConfig) (cls : EnvClass) (N : ℕ) (I : Env → Prop) (hcls : ReliableUntil G c cls N I)
    (hc : GoodRates c) (e : Env) (h : Ready c e) (hI : I e) (as : List AgentAction) (ha : ∀ a ∈ as, InEnvSpace c.action a)
    (ht : e.time + period c * as.length ≤ N) :
    ∃ rs e', Episode G c cls e as rs e' ∧ rs.length = as.length ∧ Ready c e' ∧ I e' ∧ e'.time ≤ e.time + period c * as.length ∧
      ∀ (k : ℕ) (a : AgentAction) (res : StepResult), as[k]? = some a → rs[k]? = some res →
        ∃ e1 v, Ready c e1 ∧ I e1 ∧ e1.time ≤ N ∧ cls.reward e1 (some a) = .ok res.reward ∧ cls.terminal e1 = .ok res.terminal ∧
          e1.vehicle = .ok v ∧ res.speed = v.speed ∧ res.crashed = v.crashed ∧ ∀ x, res.cost = some x ↔ cls.cost e1 = .ok x := by
  induction as using List.reverseRecOn with
  | nil => exact ⟨[], e, .start, rfl, h, hI, by simp, by simp⟩
  | append_singleton as a ih =>
    simp only [List.length_append, List.length_singleton, Nat.mul_add, Nat.mul_one] at ht ⊢
    obtain ⟨rs, e1, hep, hl, h1, hI1, ht1, hout⟩ := ih (fun x hx => ha x (by simp [hx])) (by omega)
    obtain ⟨f, e2, res, v, q1, q2, q3, q4, q5, q6, q7, q8, q9, q10, q11, q12, q13, q14, q15, q16, q17, -⟩ :=
      step_until G c cls N I hcls hc e1 h1 hI1 (by omega) a (ha a (by simp))
    refine ⟨rs ++ [res], e2, .step hep q1, by simp [hl], q15, q16, by omega, ?_⟩
    intro k b res' hb hres
    by_cases hk : k < as.length
    · rw [List.getElem?_append_left hk] at hb
      rw [List.getElem?_append_left (by omega)] at hres
      exact hout k b res' hb hres
    · have hke : k = as.length := by
        have := (List.getElem?_eq_some_iff.1 hb).1
        simp at this; omega
      subst hke
      simp only [List.getElem?_concat_length, Option.some.injEq] at hb
      rw [← hl] at hres
      simp only [List.getElem?_concat_length, Option.some.injEq] at hres
      subst hb hres
      exact ⟨f, v, q2, q3, by omega, q8, q9, q10, q11, q12, q13⟩

end HighwayEnv.Props
