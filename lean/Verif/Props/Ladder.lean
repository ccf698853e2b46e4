import Verif.Spec.Ladder
import Verif.Props.Settle
import Verif.Props.Episode
import Verif.Props.Merge
import Verif.Props.TwoWay
import Verif.Props.Roundabout
import Verif.Props.Highway
import Verif.Props.Lanes

/-!
# C116: one press, one level
-/

noncomputable section
open Classical
namespace HighwayEnv.Props
open HighwayEnv Spec

namespace Ladder

theorem level_eq {G : Globals} (hn : 1 < G.speedCount) (k : Int) : level G k = rungSpeed G k := by
  unfold level rungSpeed rung
  rw [if_pos hn]

theorem rung_pos {G : Globals} (hn : 1 < G.speedCount) (h : G.speedMin < G.speedMax) : 0 < rung G := by
  have : (1 : ℝ) < G.speedCount := by exact_mod_cast hn
  exact div_pos (by linarith) (by linarith)

theorem speed_range {G : Globals} (hn : 1 < G.speedCount) (h : G.speedMin < G.speedMax) (h1 : -40 ≤ G.speedMin) (h2 : G.speedMax ≤ 40) {k : Int} (h0 : 0 ≤ k)
    (hk : k < G.speedCount) : |rungSpeed G k| ≤ 40 := by
  obtain ⟨a, b⟩ := level_range G h.le k h0 hk
  rw [level_eq hn] at a b
  rw [abs_le]; constructor <;> linarith

/-- The level nearest to a speed close to a level is that level. -/
theorem nearest {G : Globals} (hn : 1 < G.speedCount) (h : G.speedMin < G.speedMax) {k : Int} (h0 : 0 ≤ k) (hk : k < G.speedCount) {s : ℝ}
    (hs : |s - rungSpeed G k| ≤ rung G / 4) : Vehicle.speedToIndex G s = k := by
  obtain ⟨a, b, c⟩ := index_nearest G h (by omega) s
  have hc := c k h0 hk
  rw [level_eq hn, level_eq hn] at hc
  have hr := rung_pos hn h
  generalize Vehicle.speedToIndex G s = j at a b hc
  by_contra hne
  have e : rungSpeed G k - rungSpeed G j = (k - j) * rung G := by unfold rungSpeed; ring
  have h1 : (1 : ℝ) ≤ |(k : ℝ) - j| := by
    have : 1 ≤ |k - j| := Int.one_le_abs (by omega)
    exact_mod_cast this
  have h2 : rung G ≤ |rungSpeed G k - rungSpeed G j| := by
    rw [e, abs_mul, abs_of_pos hr]; nlinarith
  have h3 : |rungSpeed G k - rungSpeed G j| ≤ |s - rungSpeed G k| + |s - rungSpeed G j| := by
    have := abs_sub_abs_le_abs_sub (s - rungSpeed G j) (s - rungSpeed G k)
    have e2 : rungSpeed G k - rungSpeed G j = (s - rungSpeed G j) - (s - rungSpeed G k) := by ring
    rw [e2]
    linarith [abs_sub (s - rungSpeed G j) (s - rungSpeed G k)]
  linarith

/-- A discrete-action vehicle under way: aiming at `T` with index `i`. -/
structure Aims (i : Int) (T : ℝ) (v : Vehicle) : Prop where
  kind : v.kind = .mdp
  sane : v.crashed = false
  index : v.speedIndex = i
  target : v.targetSpeed = T
  slow : |v.speed| ≤ 40

theorem frame_aims {G : Globals} {dt : ℝ} (hn : 0 < G.speedCount) (h0 : 0 < dt) (h1 : dt ≤ 0.6) {i : Int} {T : ℝ} (hT : |T| ≤ 40) {k : ℕ} {r r' : Road} (hreg : r.regulated = false)
    (h : frame G dt r [] = .ok r') {v : Vehicle} (hv : r.vehicles[k]? = some v) (ha : Aims i T v) :
    r'.regulated = false ∧ ∃ w, r'.vehicles[k]? = some w ∧ (w.crashed = true ∨ (Aims i T w ∧ w.speed - T = (1 - dt / 0.6) * (v.speed - T))) := by
  obtain ⟨hreg', s, v', rng, rec, u, w, _, _, hact, hst, hw, hcase⟩ := Settle.frame_vehicle (k := k) hreg (by simp) h hv
  refine ⟨hreg', w, hw, ?_⟩
  rcases hcase with rfl | hc
  · right
    obtain ⟨_, _, f3, f4⟩ := faster_slower G hn s v v' .none rng ha.kind hact
    obtain ⟨g1, g2⟩ := f3 (by simp) (by simp)
    have hb := Vehicle.act_body hact
    have hm := Vehicle.step_mind hst
    have hkw : v'.kind ≠ .bicycle := by rw [hb.kind, ha.kind]; simp
    have hsp := (step_kin hkw hst).2.2
    have hmax : v'.kind.maxSpeed = 40 := by rw [hb.kind, ha.kind]; rfl
    have hs := ha.slow
    have hacc : executedAcceleration v' = (T - v.speed) / 0.6 := by
      unfold executedAcceleration
      simp only [hmax, hb.speed, hb.crashed, ha.sane]
      rw [abs_le] at hs
      rw [if_neg (by linarith), if_neg (by linarith)]
      rw [f4, g2, ha.target]
      simp
    rw [hacc, hb.speed] at hsp
    have hspeed : w.speed - T = (1 - dt / 0.6) * (v.speed - T) := by rw [hsp]; ring
    refine ⟨⟨?_, ?_, ?_, ?_, ?_⟩, hspeed⟩
    · rw [hm.kind, hb.kind, ha.kind]
    · rw [hm.crashed, hb.crashed, ha.sane]
    · rw [hm.speedIndex, g1, ha.index]
    · rw [hm.targetSpeed, g2, ha.target]
    · have hq0 : 0 ≤ 1 - dt / 0.6 := by
        have : dt / 0.6 ≤ 1 := by rw [div_le_one (by norm_num)]; exact h1
        linarith
      have hq1 : 1 - dt / 0.6 ≤ 1 := by
        have : 0 ≤ dt / 0.6 := by positivity
        linarith
      rw [abs_le] at hs hT ⊢
      set q := 1 - dt / 0.6
      have : w.speed = T + q * (v.speed - T) := by linarith
      rw [this]
      constructor <;> nlinarith
  · exact .inl hc

theorem frames_aims {G : Globals} {dt : ℝ} (hn : 0 < G.speedCount) (h0 : 0 < dt) (h1 : dt ≤ 0.6) {i : Int} {T : ℝ} (hT : |T| ≤ 40) {k : ℕ} (m : ℕ) {r r' : Road}
    (hreg : r.regulated = false) (h : frames G dt r (List.replicate m []) = .ok r') {v : Vehicle} (hv : r.vehicles[k]? = some v) (ha : Aims i T v) :
    r'.regulated = false ∧ ∃ w, r'.vehicles[k]? = some w ∧ (w.crashed = true ∨ (Aims i T w ∧ w.speed - T = leftOver dt m * (v.speed - T))) := by
  induction m generalizing r v with
  | zero => cases h; exact ⟨hreg, v, hv, .inr ⟨ha, by simp [leftOver]⟩⟩
  | succ m ih =>
    unfold frames at h
    rw [List.replicate_succ, List.foldlM_cons] at h
    obtain ⟨r1, h2, h⟩ := bind_ok h
    obtain ⟨hreg1, w, hw, hcase⟩ := frame_aims hn h0 h1 hT hreg h2 hv ha
    rcases hcase with hc | ⟨ha', hsp⟩
    · have hrun := Road.frames_run (G := G) (dt := dt) (cmds := List.replicate m []) h
      obtain ⟨w', hw', hcr, _⟩ := crash_permanent G r1 r' hrun k w hw
      refine ⟨?_, w', hw', .inl (hcr hc)⟩
      have : ∀ (n : ℕ) (a b : Road), a.regulated = false → a.vehicles[k]? ≠ none → frames G dt a (List.replicate n []) = .ok b → b.regulated = false := by
        intro n
        induction n with
        | zero => intro a b ha _ h; cases h; exact ha
        | succ n ih =>
          intro a b ha hne h
          unfold frames at h
          rw [List.replicate_succ, List.foldlM_cons] at h
          obtain ⟨a1, h3, h⟩ := bind_ok h
          obtain ⟨x, hx⟩ := Option.ne_none_iff_exists'.1 hne
          obtain ⟨hra, _, _, _, _, _, y, _, _, _, _, hy, _⟩ := Settle.frame_vehicle (k := k) ha (by simp) h3 hx
          exact ih a1 b hra (by rw [hy]; simp) h
      exact this m r1 r' hreg1 (by rw [hw]; simp) h
    · obtain ⟨hr', w', hw', hcase⟩ := ih hreg1 h hw ha'
      refine ⟨hr', w', hw', ?_⟩
      rcases hcase with hc | ⟨ha2, hsp2⟩
      · exact .inl hc
      · right
        refine ⟨ha2, ?_⟩
        rw [hsp2, hsp]
        unfold leftOver
        ring

/-- The ego vehicle is the one with the identity of the first controlled vehicle. -/
theorem vehicle_at {e : Env} (hd : (e.road.vehicles.map (·.uid)).Nodup) {uid : ℕ} (hh : e.controlled.head? = some uid) {j : ℕ} {x : Vehicle}
    (hx : e.road.vehicles[j]? = some x) (hxu : x.uid = uid) : e.vehicle = .ok x := by
  unfold Env.vehicle
  cases hctl : e.controlled with
  | nil => rw [hctl] at hh; cases hh
  | cons b bs =>
    rw [hctl] at hh
    have hb : b = uid := by simpa using hh
    subst hb
    dsimp only
    cases hq : e.road.vehicle? b with
    | none =>
      unfold Road.vehicle? at hq
      have := List.find?_eq_none.1 hq x (List.mem_of_getElem? hx)
      simp [hxu] at this
    | some y =>
      unfold Road.vehicle? at hq
      have y1 := List.mem_of_find?_eq_some hq
      have y2 : y.uid = b := by simpa using List.find?_some hq
      obtain ⟨n, hn1, hn2⟩ := List.getElem_of_mem y1
      have hy : e.road.vehicles[n]? = some y := by rw [List.getElem?_eq_getElem hn1, hn2]
      have := Lanes.uid_inj hd hy hx (by rw [y2, hxu])
      subst this
      rw [hx] at hy
      cases hy
      rfl

end Ladder

open Ladder

/-- **C116, one decision.**  What a command does to the speed of the agent over a whole decision, unless it ends the episode or crashes the vehicle: FASTER and SLOWER change the
target by one level of the ladder (counted from the level nearest to the current speed), every other command keeps it; then the speed error shrinks by the factor `1 - dt / 0.6` at
each frame, so that the speed reported by `step` is known exactly. -/
theorem decision_speed (G : Globals) (c : SimConfig) (cls : EnvClass) (hn : 1 < G.speedCount) (hG : G.speedMin < G.speedMax) (h1 : -40 ≤ G.speedMin) (h2 : G.speedMax ≤ 40)
    (hc : GoodRates c) (hdt : 1 / c.simulationFrequency ≤ 0.6) (hafter : ∀ e, cls.after e = .ok e) (t : AgentType) (ht : c.action = .single t) (e e' : Env) (a : AgentAction) (cmd : VAction)
    (ha : t.command a = .ok cmd) (res : StepResult) (hm : Manned e) (hreg : e.road.regulated = false) (hd : e.done = false) (h0 : e.time % period c = 0) (v : Vehicle)
    (hv : e.vehicle = .ok v) (hk : v.kind = .mdp) (hsane : v.crashed = false) (hs : |v.speed| ≤ 40) (hi : 0 ≤ v.speedIndex ∧ v.speedIndex < G.speedCount)
    (hT : v.targetSpeed = rungSpeed G v.speedIndex)
    (h : e.step G c cls (some a) = .ok (e', res)) (hter : res.terminal = false) (hcr : res.crashed = false) :
    ∃ (k : Int) (w : Vehicle), (cmd ≠ .faster → cmd ≠ .slower → k = v.speedIndex) ∧ (cmd = .faster → k = min (Vehicle.speedToIndex G v.speed + 1) (G.speedCount - 1)) ∧
      (cmd = .slower → k = max (Vehicle.speedToIndex G v.speed - 1) 0) ∧ e'.vehicle = .ok w ∧ res.speed = w.speed ∧ w.kind = .mdp ∧ w.crashed = false ∧ |w.speed| ≤ 40 ∧
      w.speedIndex = k ∧ 0 ≤ k ∧ k < G.speedCount ∧ w.targetSpeed = rungSpeed G k ∧
      w.speed = rungSpeed G k + leftOver (1 / c.simulationFrequency) (period c) * (v.speed - rungSpeed G k) ∧ e'.road.regulated = false := by
  obtain ⟨m, cmds, r, e1, m1, m2, hord, hf, he1, hend, _, _, hterm, ⟨uid, w, hu, hw, hwu, hsp, hcw⟩, haft⟩ := one_decision G c cls e e' a res hm hc h0 h
  have haft' : e1 = e' := by rw [hafter] at haft; exact Except.ok.inj haft
  subst haft'
  have hme : m = period c := by
    rcases Nat.lt_or_ge m (period c) with hlt | hge
    · rcases hend hlt with h5 | h5
      · rw [he1] at h5; rw [hd] at h5; cases h5
      · rw [hterm, hter] at h5; cases h5
    · omega
  rw [ht] at hord
  obtain ⟨o, uid', hu', ⟨hat, hcmd⟩, rfl⟩ := hord
  rw [ha] at hcmd
  obtain ⟨j, cmd'⟩ := o
  have hcmd' : cmd' = cmd := (Except.ok.inj hcmd).symm
  subst hcmd'
  dsimp only at hat
  obtain ⟨x, hx, hxu⟩ := hat
  have hvx : v = x := by
    have := vehicle_at hm.distinct hu' hx hxu
    rw [hv] at this
    exact Except.ok.inj this
  subst hvx
  -- the command
  obtain ⟨m', hm'⟩ : ∃ m', m = m' + 1 := ⟨m - 1, by omega⟩
  obtain ⟨r1, v1, rng1, hact, hr1, hf'⟩ : ∃ r1 v1 rng1, v.act G e.road cmd' = .ok (v1, rng1) ∧ r1 = { e.road with vehicles := e.road.vehicles.set j v1, rng := rng1 } ∧
      frames G (1 / c.simulationFrequency) r1 (List.replicate m []) = .ok r := by
    rw [hm']
    rw [hm'] at hf
    unfold frames at hf ⊢
    rw [List.foldlM_cons] at hf
    obtain ⟨r2, h3, hf⟩ := bind_ok hf
    unfold frame at h3
    obtain ⟨r1, h4, h3⟩ := bind_ok h3
    rw [List.foldlM_cons] at h4
    obtain ⟨r1', h5, h4⟩ := bind_ok h4
    rw [List.foldlM_nil] at h4
    cases h4
    unfold Road.actAt at h5
    rw [hx] at h5
    dsimp only at h5
    obtain ⟨⟨v1, rng1⟩, h6, h5⟩ := bind_ok h5
    cases h5
    refine ⟨_, v1, rng1, h6, rfl, ?_⟩
    rw [List.replicate_succ, List.foldlM_cons]
    unfold frame
    rw [List.foldlM_nil]
    show (_ >>= _) = _
    rw [show ((pure _ : Py Road) >>= fun r : Road => r.act G >>= fun r => r.step (1 / c.simulationFrequency)) = .ok r2 from h3]
    exact hf
  have hn0 : 0 < G.speedCount := by omega
  obtain ⟨f1, f2, f3, _⟩ := faster_slower G hn0 e.road v v1 cmd' rng1 hk hact
  have hb := Vehicle.act_body hact
  obtain ⟨c1, c2⟩ := speedToIndex_range hn0 v.speed
  have hlad : 0 ≤ v1.speedIndex ∧ v1.speedIndex < G.speedCount ∧ v1.targetSpeed = rungSpeed G v1.speedIndex := by
    by_cases hq : cmd' = .faster
    · obtain ⟨g1, g2⟩ := f1 hq
      rw [level_eq hn] at g2
      exact ⟨by omega, by omega, g2⟩
    · by_cases hq' : cmd' = .slower
      · obtain ⟨g1, g2⟩ := f2 hq'
        rw [level_eq hn] at g2
        exact ⟨by omega, by omega, g2⟩
      · obtain ⟨g1, g2⟩ := f3 hq hq'
        rw [g1, g2]
        exact ⟨hi.1, hi.2, hT⟩
  have hsim : 0 < c.simulationFrequency := lt_of_lt_of_le hc.policy hc.simulation
  obtain ⟨hreg', w', hw', hcase⟩ := frames_aims (G := G) hn0 (one_div_pos.2 hsim) hdt (i := v1.speedIndex) (T := rungSpeed G v1.speedIndex)
    (speed_range hn hG h1 h2 hlad.1 hlad.2.1) (k := j) m (r := r1) (by rw [hr1]; exact hreg) hf' (v := v1)
    (by rw [hr1]; dsimp only; rw [List.getElem?_set_self (List.getElem?_eq_some_iff.1 hx).1])
    ⟨hb.kind.trans hk, hb.crashed.trans hsane, rfl, hlad.2.2, by rw [hb.speed]; exact hs⟩
  have hr : e1.road = r := by rw [he1]
  have hm1 : (e1.road.vehicles.map (·.uid)).Nodup := by
    have := Road.uids_run (Road.frames_run hf)
    unfold Road.uids at this
    rw [hr, this]
    exact hm.distinct
  have hw'u : w'.uid = uid' := by
    obtain ⟨y, hy, _, hyu, _⟩ := crash_permanent G e.road r (Road.frames_run hf) j v hx
    rw [hw'] at hy
    cases hy
    rw [hyu, hxu]
  have hctl : e1.controlled.head? = some uid' := by rw [he1]; exact hu'
  have hego := vehicle_at hm1 hctl (by rw [hr]; exact hw') hw'u
  have hww : w = w' := by
    obtain ⟨n, hn1, hn2⟩ := List.getElem_of_mem hw
    have hy : e1.road.vehicles[n]? = some w := by rw [List.getElem?_eq_getElem hn1, hn2]
    have hug : uid = uid' := by rw [hctl] at hu; exact (Option.some.inj hu).symm
    have hw2 : e1.road.vehicles[j]? = some w' := by rw [hr]; exact hw'
    have := Lanes.uid_inj hm1 hy hw2 (by rw [hwu, hw'u, hug])
    subst this
    rw [hw2] at hy
    exact (Option.some.inj hy).symm
  subst hww
  rcases hcase with hcc | ⟨hA, hS⟩
  · rw [hcw, hcc] at hcr; cases hcr
  · refine ⟨v1.speedIndex, w, fun q1 q2 => (f3 q1 q2).1, fun q => (f1 q).1, fun q => (f2 q).1, hego, hsp, hA.kind, hA.sane, hA.slow, hA.index, hlad.1, hlad.2.1, hA.target, ?_, ?_⟩
    · rw [hb.speed, hme] at hS
      linarith
    · rw [hr]; exact hreg'

/-- **C116, one press.**  If the frames of a decision reduce a speed error at least to a fifth (15 frames per second and one decision per second: to 17 %), a vehicle near a level of
the ladder is near the next level up after FASTER, near the next level down after SLOWER, and near the same level after any other command. -/
theorem one_press (G : Globals) (c : SimConfig) (cls : EnvClass) (hn : 1 < G.speedCount) (hG : G.speedMin < G.speedMax) (h1 : -40 ≤ G.speedMin) (h2 : G.speedMax ≤ 40)
    (hc : GoodRates c) (hdt : 1 / c.simulationFrequency ≤ 0.6) (hq : leftOver (1 / c.simulationFrequency) (period c) ≤ 1 / 5) (hafter : ∀ e, cls.after e = .ok e) (t : AgentType)
    (ht : c.action = .single t) (e e' : Env) (a : AgentAction) (cmd : VAction) (ha : t.command a = .ok cmd) (res : StepResult) (hm : Manned e) (hreg : e.road.regulated = false)
    (hd : e.done = false) (h0 : e.time % period c = 0) (v : Vehicle) (hv : e.vehicle = .ok v) (hsane : v.crashed = false) (k : Int) (hk : AtLevel G k v)
    (h : e.step G c cls (some a) = .ok (e', res)) (hter : res.terminal = false) (hcr : res.crashed = false) :
    ∃ w, e'.vehicle = .ok w ∧ res.speed = w.speed ∧ w.crashed = false ∧ AtLevel G (press G.speedCount k cmd) w ∧ e'.road.regulated = false := by
  obtain ⟨j, w, q1, q2, q3, q4, q5, q6, q7, q8, q9, q10, q11, q12, q13, q14⟩ := decision_speed G c cls hn hG h1 h2 hc hdt hafter t ht e e' a cmd ha res hm hreg hd h0 v hv hk.kind
    hsane hk.slow (by rw [hk.index]; exact ⟨hk.low, hk.high⟩) (by rw [hk.target, hk.index]) h hter hcr
  have hnear := nearest hn hG hk.low hk.high hk.near
  have hr := rung_pos hn hG
  have hj : j = press G.speedCount k cmd := by
    cases cmd <;> simp only [press]
    case faster => rw [q2 rfl, hnear]
    case slower => rw [q3 rfl, hnear]
    all_goals rw [q1 (by simp) (by simp), hk.index]
  have hstep : |rungSpeed G k - rungSpeed G j| ≤ rung G := by
    have hjk : |(k : ℝ) - j| ≤ 1 := by
      have : |k - j| ≤ 1 := by
        rw [hj]
        have hlow := hk.low
        have hhigh := hk.high
        rw [abs_le]
        cases cmd <;> simp only [press] <;> omega
      exact_mod_cast this
    have e1 : rungSpeed G k - rungSpeed G j = (k - j) * rung G := by unfold rungSpeed; ring
    rw [e1, abs_mul, abs_of_pos hr]
    nlinarith
  have hq0 : 0 ≤ leftOver (1 / c.simulationFrequency) (period c) := by
    unfold leftOver
    apply pow_nonneg
    have : 1 / c.simulationFrequency / 0.6 ≤ 1 := by rw [div_le_one (by norm_num)]; exact hdt
    linarith
  refine ⟨w, q4, q5, q7, ?_, q14⟩
  rw [← hj]
  refine ⟨q6, q10, q11, q9, q12, ?_, q8⟩
  rw [q13, add_sub_cancel_left, abs_mul, abs_of_nonneg hq0]
  have h5 : |v.speed - rungSpeed G j| ≤ 5 / 4 * rung G := by
    have e2 : v.speed - rungSpeed G j = (v.speed - rungSpeed G k) + (rungSpeed G k - rungSpeed G j) := by ring
    rw [e2]
    have := abs_add_le (v.speed - rungSpeed G k) (rungSpeed G k - rungSpeed G j)
    have := hk.near
    linarith
  have h6 := abs_nonneg (v.speed - rungSpeed G j)
  nlinarith

/-- **C116, whole episodes.**  As long as the episode is not over, `info["speed"]` tells how often FASTER and SLOWER were pressed: it is always within a quarter of a rung of the
level obtained by counting the presses (saturating at both ends of the ladder), whatever the traffic does and whatever other commands are given in between. -/
theorem ladder_episode (G : Globals) (c : SimConfig) (cls : EnvClass) (hn : 1 < G.speedCount) (hG : G.speedMin < G.speedMax) (h1 : -40 ≤ G.speedMin) (h2 : G.speedMax ≤ 40)
    (hc : GoodRates c) (hdt : 1 / c.simulationFrequency ≤ 0.6) (hq : leftOver (1 / c.simulationFrequency) (period c) ≤ 1 / 5) (hafter : ∀ e, cls.after e = .ok e) (t : AgentType)
    (ht : c.action = .single t) (e e' : Env) (hm : Manned e) (hreg : e.road.regulated = false) (hd : e.done = false) (h0 : e.time % period c = 0) (v : Vehicle)
    (hv : e.vehicle = .ok v) (hsane : v.crashed = false) (k : Int) (hk : AtLevel G k v) (as : List AgentAction) (cmds : List VAction) (hcmds : Pointwise (fun a b => t.command a = .ok b) as cmds)
    (rs : List StepResult) (hep : Episode G c cls e as rs e') (hrs : ∀ res ∈ rs, res.terminal = false ∧ res.crashed = false) :
    (∃ w, e'.vehicle = .ok w ∧ AtLevel G (presses G.speedCount k cmds) w) ∧
      ∀ (i : ℕ) (res : StepResult), rs[i]? = some res → |res.speed - rungSpeed G (presses G.speedCount k (cmds.take (i + 1)))| ≤ rung G / 4 := by
  have htidy : Tidy cls := tidy_default (funext hafter)
  suffices H : (∃ w, e'.vehicle = .ok w ∧ w.crashed = false ∧ AtLevel G (presses G.speedCount k cmds) w ∧ e'.road.regulated = false) ∧
      ∀ (i : ℕ) (res : StepResult), rs[i]? = some res → |res.speed - rungSpeed G (presses G.speedCount k (cmds.take (i + 1)))| ≤ rung G / 4 by
    obtain ⟨⟨w, x1, _, x3, _⟩, y⟩ := H
    exact ⟨⟨w, x1, x3⟩, y⟩
  induction hep generalizing cmds with
  | start =>
    have : cmds = [] := List.eq_nil_of_length_eq_zero hcmds.1
    subst this
    exact ⟨⟨v, hv, hsane, hk, hreg⟩, by simp⟩
  | @step as rs e1 e2 a res hp hs ih =>
    obtain ⟨cs, b, rfl⟩ : ∃ cs b, cmds = cs ++ [b] := by
      have hl := hcmds.1
      rcases List.eq_nil_or_concat cmds with rfl | ⟨cs, b, rfl⟩
      · simp at hl
      · exact ⟨cs, b, by simp⟩
    have hlen : as.length = cs.length := by have := hcmds.1; simp at this; omega
    have hb : t.command a = .ok b := by
      obtain ⟨b', hb', hcmd⟩ := hcmds.2 as.length a (by simp)
      rw [hlen, List.getElem?_append_right le_rfl] at hb'
      simp at hb'
      rw [hb']; exact hcmd
    have hcs : Pointwise (fun a b => t.command a = .ok b) as cs := by
      refine ⟨hlen.symm, ?_⟩
      intro i x hx
      have hi := (List.getElem?_eq_some_iff.1 hx).1
      obtain ⟨y, hy, hxy⟩ := hcmds.2 i x (by rw [List.getElem?_append_left hi]; exact hx)
      rw [List.getElem?_append_left (by omega)] at hy
      exact ⟨y, hy, hxy⟩
    obtain ⟨⟨w, i1, i2, i3, i4⟩, i5⟩ := ih cs hcs (fun r hr => hrs r (by simp [hr]))
    obtain ⟨_, _, k3, k4, k5, _, k7⟩ := episode_clock G c cls e e1 as rs hm hc htidy h0 hd hp (fun r hr => (hrs r (by simp [hr])).1)
    obtain ⟨x, j1, j2, j3, j4, j5⟩ := one_press G c cls hn hG h1 h2 hc hdt hq hafter t ht e1 e2 a b hb res k4 i4 k5 k7 w i1 i2 _ i3 hs (hrs res (by simp)).1 (hrs res (by simp)).2
    have hpr : presses G.speedCount k (cs ++ [b]) = press G.speedCount (presses G.speedCount k cs) b := by unfold presses; simp
    refine ⟨⟨x, j1, j3, by rw [hpr]; exact j4, j5⟩, ?_⟩
    intro i r hr
    rcases Nat.lt_or_ge i rs.length with hi | hi
    · rw [List.getElem?_append_left hi] at hr
      have := i5 i r hr
      rwa [List.take_append_of_le_length (by omega)]
    · have hi' : i = rs.length := by
        have := (List.getElem?_eq_some_iff.1 hr).1
        simp at this; omega
      subst hi'
      rw [List.getElem?_append_right le_rfl] at hr
      simp at hr
      subst hr
      rw [List.take_of_length_le (by simp; omega), hpr, j2]
      exact j4.near

/-! ## The environments -/

namespace Ladder

/-- A discrete-action vehicle just built for its speed. -/
def Fresh (G : Globals) (v : Vehicle) : Prop := v.kind = .mdp → v.speedIndex = Vehicle.speedToIndex G v.speed ∧ v.targetSpeed = Vehicle.indexToSpeed G (Vehicle.speedToIndex G v.speed)

theorem mk_fresh {G : Globals} {g : Graph} {uid : ℕ} {kind : VKind} {pos : Vec2} {heading speed : ℝ} {b : Bool} {tm : Option ℝ} {r : Option (List RouteStep)} {tl : Option LaneIndex} {v : Vehicle}
    (h : Vehicle.mk' G g uid kind pos heading speed tl none r b tm = .ok v) : Fresh G v ∧ v.uid = uid ∧ v.kind = kind ∧ v.speed = speed ∧ v.crashed = false := by
  unfold Vehicle.mk' at h
  obtain ⟨i, -, h⟩ := bind_ok h
  obtain ⟨l, -, h⟩ := bind_ok h
  cases h
  refine ⟨?_, rfl, rfl, rfl, rfl⟩
  intro hk
  dsimp only at hk ⊢
  rw [if_pos hk, if_pos hk]
  exact ⟨rfl, rfl⟩

theorem random_fresh {G : Globals} {kind : VKind} {speed : Option ℝ} {lane : Option Int} {spacing : ℝ} (n : ℕ) (uid : ℕ) {r r' : Road}
    (h : r.addRandom G kind speed lane spacing n uid = .ok r') (hr : ∀ v ∈ r.vehicles, Fresh G v) : ∀ v ∈ r'.vehicles, Fresh G v := by
  induction n generalizing uid r with
  | zero => cases h; exact hr
  | succ n ih =>
    unfold Road.addRandom at h
    obtain ⟨⟨v, rng⟩, hv, h⟩ := bind_ok h
    refine ih (uid + 1) h ?_
    intro w hw
    rcases List.mem_append.1 hw with hw | hw
    · exact hr w hw
    · have : w = v := by simpa using hw
      subst this
      unfold Vehicle.createRandom at hv
      dsimp only at hv
      obtain ⟨⟨a, _⟩, -, hv⟩ := bind_ok hv
      obtain ⟨d, -, hv⟩ := bind_ok hv
      obtain ⟨⟨b, _⟩, -, hv⟩ := bind_ok hv
      obtain ⟨ls, -, hv⟩ := bind_ok hv
      obtain ⟨⟨k, _⟩, -, hv⟩ := bind_ok hv
      obtain ⟨l, -, hv⟩ := bind_ok hv
      obtain ⟨x, hx, hv⟩ := bind_ok hv
      cases hv
      exact (mk_fresh hx).1

theorem highway_fresh {G : Globals} {cfg : HighwayConfig} {rng : Rng} {e : Env} (h : Highway.reset G cfg rng = .ok e) : ∀ v ∈ e.road.vehicles, Fresh G v := by
  unfold Highway.reset at h
  obtain ⟨_, -, h⟩ := bind_ok h
  obtain ⟨r, hr, h⟩ := bind_ok h
  cases h
  unfold Highway.createVehicles at hr
  obtain ⟨r1, hr1, hr⟩ := bind_ok hr
  have h1 := random_fresh _ _ hr1 (by simp [Highway.createRoad])
  split at hr
  · cases hr
  · exact random_fresh _ _ hr h1

theorem merge_fresh {G : Globals} {cfg : MergeConfig} {rng : Rng} {e : Env} (h : Merge.reset G cfg rng = .ok e) : ∃ v, e.vehicle = .ok v ∧ Fresh G v ∧
    v.kind = cfg.sim.action.agent.vehicleClass ∧ v.speed = 30 ∧ v.crashed = false := by
  unfold Merge.reset at h
  obtain ⟨_, -, h⟩ := bind_ok h
  obtain ⟨r, hr, h⟩ := bind_ok h
  cases h
  unfold Merge.makeVehicles at hr
  obtain ⟨v0, h0, hr⟩ := bind_ok hr
  obtain ⟨v1, -, hr⟩ := bind_ok hr
  obtain ⟨v2, -, hr⟩ := bind_ok hr
  obtain ⟨v3, -, hr⟩ := bind_ok hr
  obtain ⟨v4, -, hr⟩ := bind_ok hr
  cases hr
  unfold Merge.place at h0
  obtain ⟨l, -, h0⟩ := bind_ok h0
  obtain ⟨f1, f2, f3, f4, f5⟩ := mk_fresh h0
  refine ⟨v0, ?_, f1, f3, f4, f5⟩
  simp [Env.vehicle, Road.vehicle?, f2]

theorem twoWay_fresh {G : Globals} {cfg : TwoWayConfig} {rng : Rng} {e : Env} (h : TwoWay.reset G cfg rng = .ok e) : ∃ v, e.vehicle = .ok v ∧ Fresh G v ∧
    v.kind = cfg.sim.action.agent.vehicleClass ∧ v.speed = 30 ∧ v.crashed = false ∧ e.road.regulated = false := by
  unfold TwoWay.reset at h
  obtain ⟨_, -, h⟩ := bind_ok h
  obtain ⟨r, hr, h⟩ := bind_ok h
  cases h
  unfold TwoWay.makeVehicles at hr
  obtain ⟨l, -, hr⟩ := bind_ok hr
  obtain ⟨v0, h0, hr⟩ := bind_ok hr
  obtain ⟨r1, hr1, hr⟩ := bind_ok hr
  obtain ⟨f1, f2, f3, f4, f5⟩ := mk_fresh h0
  have q1 : ∀ (is : List ℕ) (a b : Road), is.foldlM (TwoWay.addAhead G cfg.otherVehiclesType) a = .ok b → a.vehicles.head? = some v0 ∧ a.regulated = false → b.vehicles.head? = some v0 ∧ b.regulated = false := by
    intro is
    induction is with
    | nil => intro a b hb ha; cases hb; exact ha
    | cons i is ih =>
      intro a b hb ha
      rw [List.foldlM_cons] at hb
      obtain ⟨c, hc, hb⟩ := bind_ok hb
      refine ih c b hb ?_
      unfold TwoWay.addAhead at hc
      obtain ⟨l, -, hc⟩ := bind_ok hc
      obtain ⟨x, -, hc⟩ := bind_ok hc
      cases hc
      dsimp only
      exact ⟨by rw [List.head?_append, ha.1]; rfl, ha.2⟩
  have q2 : ∀ (is : List ℕ) (a b : Road), is.foldlM (TwoWay.addOncoming G cfg.otherVehiclesType) a = .ok b → a.vehicles.head? = some v0 ∧ a.regulated = false → b.vehicles.head? = some v0 ∧ b.regulated = false := by
    intro is
    induction is with
    | nil => intro a b hb ha; cases hb; exact ha
    | cons i is ih =>
      intro a b hb ha
      rw [List.foldlM_cons] at hb
      obtain ⟨c, hc, hb⟩ := bind_ok hb
      refine ih c b hb ?_
      unfold TwoWay.addOncoming at hc
      obtain ⟨l, -, hc⟩ := bind_ok hc
      obtain ⟨x, -, hc⟩ := bind_ok hc
      cases hc
      dsimp only
      exact ⟨by rw [List.head?_append, ha.1]; rfl, ha.2⟩
  obtain ⟨hh, hreg⟩ := q2 _ _ _ hr (q1 _ _ _ hr1 ⟨by simp [TwoWay.makeRoad], rfl⟩)
  refine ⟨v0, ?_, f1, f3, f4, f5, hreg⟩
  simp only [Env.vehicle, Road.vehicle?]
  cases hv : r.vehicles with
  | nil => rw [hv] at hh; simp at hh
  | cons a rest =>
    rw [hv] at hh
    have : a = v0 := by simpa using hh
    subst this
    simp [f2]

theorem three_rates {G : Globals} {c : SimConfig} {low gap : ℝ} (h : ThreeLevels G c low gap) : GoodRates c ∧ period c = 15 ∧ rung G = gap ∧ (∀ k : Int, rungSpeed G k = low + gap * k) ∧
    leftOver (1 / c.simulationFrequency) (period c) ≤ 1 / 5 := by
  have hp : period c = 15 := by unfold period; rw [h.simulation, h.policy]; norm_num
  have hr : rung G = gap := by unfold rung; rw [h.count, h.min, h.max]; norm_num
  refine ⟨⟨by rw [h.policy]; norm_num, by rw [h.policy, h.simulation]; norm_num, h.auto⟩, hp, hr, ?_, ?_⟩
  · intro k; unfold rungSpeed; rw [hr, h.min]; ring
  · rw [hp, h.simulation]; unfold leftOver; norm_num

/-- A crash of the ego vehicle ends the episode. -/
def Ends (cls : EnvClass) : Prop := ∀ (e : Env) (v : Vehicle) (b : Bool), e.vehicle = .ok v → cls.terminal e = .ok b → v.crashed = true → b = true

theorem not_crashed {G : Globals} {c : SimConfig} {cls : EnvClass} (hE : Ends cls) {e e' : Env} {a : AgentAction} {res : StepResult} (h : e.step G c cls (some a) = .ok (e', res))
    (ht : res.terminal = false) : res.crashed = false := by
  unfold Env.step at h
  split at h
  · cases h
  obtain ⟨e1, -, h⟩ := bind_ok h
  obtain ⟨rw1, -, h⟩ := bind_ok h
  obtain ⟨t, h3, h⟩ := bind_ok h
  obtain ⟨v, h4, h⟩ := bind_ok h
  obtain ⟨co, -, h⟩ := bind_ok h
  obtain ⟨e2, -, h⟩ := bind_ok h
  cases h
  dsimp only at ht ⊢
  by_contra hx
  have := hE e1 v t h4 h3 (by simpa using hx)
  rw [this] at ht
  cases ht

theorem episode_not_crashed {G : Globals} {c : SimConfig} {cls : EnvClass} (hE : Ends cls) {e e' : Env} {as : List AgentAction} {rs : List StepResult} (h : Episode G c cls e as rs e')
    (ht : ∀ res ∈ rs, res.terminal = false) : ∀ res ∈ rs, res.terminal = false ∧ res.crashed = false := by
  induction h with
  | start => simp
  | step hp hs ih =>
    intro r hr
    rcases List.mem_append.1 hr with hr' | hr'
    · exact ih (fun x hx => ht x (by simp [hx])) r hr'
    · have : r = _ := List.mem_singleton.1 hr'
      subst this
      have := ht r (by simp)
      exact ⟨this, not_crashed hE hs this⟩

/-- From a state where the ego vehicle was just built for one of the three speeds. -/
theorem three_episode {G : Globals} {c : SimConfig} {cls : EnvClass} {low gap : ℝ} (hU : ThreeLevels G c low gap) (hgap : 0 < gap) (hlow : -40 ≤ low) (hhigh : low + 2 * gap ≤ 40) (hE : Ends cls)
    (hafter : ∀ e, cls.after e = .ok e) {lo la : Bool}
    (ht : c.action = .single (.discrete lo la)) {e e' : Env} (hm : Manned e) (hreg : e.road.regulated = false) (hd : e.done = false) (h0 : e.time = 0) {v : Vehicle} (hv : e.vehicle = .ok v)
    (hf : Fresh G v) (hkind : v.kind = .mdp) (hsane : v.crashed = false) (k : Int) (hk0 : 0 ≤ k) (hk2 : k ≤ 2) (hs : v.speed = low + gap * k) {as : List AgentAction} {cmds : List VAction}
    (hcmds : Pointwise (fun a b => (AgentType.discrete lo la).command a = .ok b) as cmds) {rs : List StepResult} (hep : Episode G c cls e as rs e') (hrs : ∀ res ∈ rs, res.terminal = false)
    (i : ℕ) (res : StepResult) (hres : rs[i]? = some res) : |res.speed - (low + gap * presses 3 k (cmds.take (i + 1)))| ≤ gap / 4 := by
  obtain ⟨u1, u2, u3, u4, u5⟩ := three_rates hU
  have hn : 1 < G.speedCount := by rw [hU.count]; norm_num
  have hG : G.speedMin < G.speedMax := by rw [hU.min, hU.max]; linarith
  have hcount : k < G.speedCount := by rw [hU.count]; push_cast; omega
  have hspeed : v.speed = rungSpeed G k := by rw [u4, hs]
  have hnear : |v.speed - rungSpeed G k| ≤ rung G / 4 := by rw [hspeed, sub_self, abs_zero, u3]; linarith
  have hidx := nearest hn hG hk0 hcount hnear
  obtain ⟨f1, f2⟩ := hf hkind
  have hAt : AtLevel G k v :=
    { kind := hkind, low := hk0, high := hcount, index := by rw [f1, hidx]
      target := by rw [f2, hidx]; unfold Vehicle.indexToSpeed rungSpeed rung; rw [if_pos hn]; ring
      near := hnear
      slow := by rw [hspeed]; exact speed_range hn hG (by rw [hU.min]; exact hlow) (by rw [hU.max]; exact hhigh) hk0 hcount }
  have := (ladder_episode G c cls hn hG (by rw [hU.min]; exact hlow) (by rw [hU.max]; exact hhigh) u1 (by rw [hU.simulation]; norm_num) u5 hafter _ ht e e' hm hreg hd (by rw [h0]; simp) v hv hsane
    k hAt as cmds hcmds rs hep (episode_not_crashed hE hep hrs)).2 i res hres
  rw [hU.count, u4, u3] at this
  exact this

end Ladder

open Ladder in
/-- **C116, highway-v0.**  With the default class attributes and frequencies: after every decision of an episode that is not over, the reported speed is within 1.25 m/s of 20, 25 or
30 m/s — of the level reached by counting, from the middle level, the FASTER and SLOWER commands so far. -/
theorem highway_ladder (G : Globals) (cfg : HighwayConfig) (hc : HighwayOk cfg) (hU : ThreeLevels G cfg.sim 20 5) (lo la : Bool) (ht : cfg.sim.action = .single (.discrete lo la)) (rng : Rng) (e e' : Env)
    (hr : Highway.reset G cfg rng = .ok e) (as : List AgentAction) (cmds : List VAction) (hcmds : Pointwise (fun a b => (AgentType.discrete lo la).command a = .ok b) as cmds)
    (rs : List StepResult) (hep : Episode G cfg.sim (Highway.cls cfg) e as rs e') (hrs : ∀ res ∈ rs, res.terminal = false) (i : ℕ) (res : StepResult) (hres : rs[i]? = some res) :
    |res.speed - (20 + 5 * presses 3 1 (cmds.take (i + 1)))| ≤ 5 / 4 := by
  obtain ⟨e0, q1, q2, q3, q4, q5, q6, q7, q8, q9, q10, -⟩ := highway_reset G cfg hc rng
  rw [hr] at q1
  have he : e = e0 := Except.ok.inj q1
  subst he
  have hlen : 0 < e.road.vehicles.length := by rw [q9]; have := hc.egos; omega
  obtain ⟨v, hv⟩ : ∃ v, e.road.vehicles[0]? = some v := ⟨_, List.getElem?_eq_getElem hlen⟩
  obtain ⟨p1, p2, p3, p4, p5⟩ := q10 0 v hv
  obtain ⟨p6, p7, -⟩ := p4 hc.egos
  have hmem := List.mem_of_getElem? hv
  have hveh : e.vehicle = .ok v := by
    have hctl : e.controlled = 0 :: (List.range cfg.controlledVehicles).tail := by
      rw [q5]
      obtain ⟨m, hm⟩ := Nat.exists_eq_succ_of_ne_zero (Nat.pos_iff_ne_zero.1 hc.egos)
      rw [hm, List.range_succ_eq_map]; rfl
    unfold Env.vehicle Road.vehicle?
    rw [hctl]
    dsimp only
    cases hl : e.road.vehicles with
    | nil => rw [hl] at hv; simp at hv
    | cons a rest =>
      rw [hl] at hv
      have : a = v := by simpa using hv
      subst this
      simp [p1]
  refine (three_episode hU (by norm_num) (by norm_num) (by norm_num) ?_ (fun _ => rfl) ht q2.manned q4 q8 q7 hveh (highway_fresh hr v hmem) (by rw [p6, ht]; rfl) p2.crashed 1 (by norm_num) (by norm_num) (by rw [p7]; norm_num) hcmds hep
    hrs i res hres).trans (by norm_num)
  intro x w b h1 h2 h3
  exact (highway_terminal_iff cfg x w h1 b h2).2 (.inl h3)

open Ladder in
/-- **C116, merge-v0**: counting starts from the highest level, 30 m/s. -/
theorem merge_ladder (G : Globals) (cfg : MergeConfig) (hc : MergeOk G cfg) (hU : ThreeLevels G cfg.sim 20 5) (lo la : Bool) (ht : cfg.sim.action = .single (.discrete lo la)) (rng : Rng) (e e' : Env)
    (hr : Merge.reset G cfg rng = .ok e) (as : List AgentAction) (cmds : List VAction) (hcmds : Pointwise (fun a b => (AgentType.discrete lo la).command a = .ok b) as cmds)
    (rs : List StepResult) (hep : Episode G cfg.sim (Merge.cls G) e as rs e') (hrs : ∀ res ∈ rs, res.terminal = false) (i : ℕ) (res : StepResult) (hres : rs[i]? = some res) :
    |res.speed - (20 + 5 * presses 3 2 (cmds.take (i + 1)))| ≤ 5 / 4 := by
  obtain ⟨e0, q1, q2, q3, q4, q5, q6, -⟩ := merge_reset G cfg hc rng
  rw [hr] at q1
  have he : e = e0 := Except.ok.inj q1
  subst he
  obtain ⟨v, f1, f2, f3, f4, f5⟩ := merge_fresh hr
  have hreg : e.road.regulated = false := by
    unfold Merge.reset at hr
    obtain ⟨_, -, hr⟩ := bind_ok hr
    obtain ⟨r, h1, hr⟩ := bind_ok hr
    cases hr
    unfold Merge.makeVehicles at h1
    obtain ⟨_, -, h1⟩ := bind_ok h1
    obtain ⟨_, -, h1⟩ := bind_ok h1
    obtain ⟨_, -, h1⟩ := bind_ok h1
    obtain ⟨_, -, h1⟩ := bind_ok h1
    obtain ⟨_, -, h1⟩ := bind_ok h1
    cases h1
    rfl
  refine (three_episode hU (by norm_num) (by norm_num) (by norm_num) ?_ (fun _ => rfl) ht q2.manned hreg q6 q5 f1 f2 (by rw [f3, ht]; rfl) f5 2 (by norm_num) (by norm_num) (by rw [f4]; norm_num) hcmds hep hrs i res hres).trans (by norm_num)
  intro x w b h1 h2 h3
  exact (merge_terminal_iff G x w h1 b h2).2 (.inl h3)

open Ladder in
/-- **C116, two-way-v0**: counting starts from the highest level, 30 m/s. -/
theorem twoWay_ladder (G : Globals) (cfg : TwoWayConfig) (hc : TwoWayOk G cfg) (hU : ThreeLevels G cfg.sim 20 5) (lo la : Bool) (ht : cfg.sim.action = .single (.discrete lo la)) (rng : Rng) (e e' : Env)
    (hr : TwoWay.reset G cfg rng = .ok e) (as : List AgentAction) (cmds : List VAction) (hcmds : Pointwise (fun a b => (AgentType.discrete lo la).command a = .ok b) as cmds)
    (rs : List StepResult) (hep : Episode G cfg.sim (TwoWay.cls G) e as rs e') (hrs : ∀ res ∈ rs, res.terminal = false) (i : ℕ) (res : StepResult) (hres : rs[i]? = some res) :
    |res.speed - (20 + 5 * presses 3 2 (cmds.take (i + 1)))| ≤ 5 / 4 := by
  obtain ⟨e0, w0, w1, w2, w3, w4, w5, q1, q2, q3, q4, q5, q6, -⟩ := twoWay_reset G cfg hc rng
  rw [hr] at q1
  have he : e = e0 := Except.ok.inj q1
  subst he
  obtain ⟨v, f1, f2, f3, f4, f5, f6⟩ := twoWay_fresh hr
  refine (three_episode hU (by norm_num) (by norm_num) (by norm_num) ?_ (fun _ => rfl) ht q2.manned f6 q6 q5 f1 f2 (by rw [f3, ht]; rfl) f5 2 (by norm_num) (by norm_num) (by rw [f4]; norm_num) hcmds hep hrs i res hres).trans (by norm_num)
  intro x w b h1 h2 h3
  exact (twoWay_terminal_iff G x w h1 b h2).2 h3

open Ladder in
/-- **C116, roundabout-v0**: once a first `reset` has set the class attributes (levels 0, 8 and 16 m/s), counting starts from the middle level in every later episode. -/
theorem round_ladder (G : Globals) (cfg : RoundaboutConfig) (hc : RoundOk G cfg) (hU : ThreeLevels G cfg.sim 0 8) (lo la : Bool) (ht : cfg.sim.action = .single (.discrete lo la))
    (ord : Graph.SetOrder) (rng : Rng) (G' : Globals) (e e' : Env) (hr : Roundabout.reset G cfg ord rng = .ok (G', e)) (as : List AgentAction) (cmds : List VAction)
    (hcmds : Pointwise (fun a b => (AgentType.discrete lo la).command a = .ok b) as cmds) (rs : List StepResult) (hep : Episode G' cfg.sim (Roundabout.cls G' cfg) e as rs e')
    (hrs : ∀ res ∈ rs, res.terminal = false) (i : ℕ) (res : StepResult) (hres : rs[i]? = some res) : |res.speed - 8 * presses 3 1 (cmds.take (i + 1))| ≤ 2 := by
  obtain ⟨e0, v, v1, v2, v3, v4, q1, q2, q3, q4, q5, q6, q7, q8, q9, -⟩ := round_reset G cfg hc ord rng
  rw [hr] at q1
  have hGG : ({ G with speedMin := 0, speedMax := 16, speedCount := 3 } : Globals) = G := by
    have a1 := hU.count; have a2 := hU.min; have a3 := hU.max
    norm_num at a3
    cases G
    dsimp only at a1 a2 a3
    subst a1 a2 a3
    rfl
  rw [hGG] at q1
  have hG' : G' = G := congrArg Prod.fst (Except.ok.inj q1)
  have he : e = e0 := congrArg Prod.snd (Except.ok.inj q1)
  subst he
  subst hG'
  have hveh : e.vehicle = .ok v := by
    unfold Env.vehicle Road.vehicle?
    rw [q7, q8]
    simp [q9.uid]
  have := three_episode hU (by norm_num) (by norm_num) (by norm_num) (cls := Roundabout.cls G' cfg) ?_ (fun _ => rfl) ht q2.manned q3.free q6 q5 hveh (v := v) (fun _ => by rw [q9.speed, indexToSpeed_level, ← q9.level.1]; exact ⟨rfl, q9.level.2⟩)
    q9.kind q9.crashed 1 (by norm_num) (by norm_num) (by rw [q9.speed]; norm_num) hcmds hep hrs i res hres
  · rw [zero_add] at this
    exact this.trans (by norm_num)
  · intro x w b h1 h2 h3
    exact (round_terminal_iff G' cfg x w h1 b h2).2 (.inl h3)

/-- The hypotheses are met: in every default merge episode, pressing SLOWER three times and FASTER once brings the speed near 25, 20, 20 and 25 m/s, as long as the episode lasts. -/
example (rng : Rng) : ∃ e rs e', Merge.reset {} {} rng = .ok e ∧ Episode {} ({} : MergeConfig).sim (Merge.cls {}) e [.index 4, .index 4, .index 4, .index 3] rs e' ∧ rs.length = 4 ∧
    ((∀ res ∈ rs, res.terminal = false) → ∀ (i : ℕ) (res : StepResult) (s : ℝ), rs[i]? = some res → ([25, 20, 20, 25] : List ℝ)[i]? = some s → |res.speed - s| ≤ 5 / 4) := by
  obtain ⟨e, rs, e', h1, h2, h3, -⟩ := merge_episode {} {} merge_default_ok (by norm_num) rng [.index 4, .index 4, .index 4, .index 3] (by
    intro a ha
    simp only [List.mem_cons, List.mem_nil_iff, or_false] at ha
    rcases ha with rfl | rfl | rfl | rfl <;> exact ⟨by norm_num, by decide⟩)
  refine ⟨e, rs, e', h1, h2, by simpa using h3, ?_⟩
  intro hter i res s hres hs
  have := merge_ladder {} {} merge_default_ok ⟨rfl, rfl, by norm_num, rfl, rfl, rfl⟩ true true rfl rng e e' h1 _ [.slower, .slower, .slower, .faster] ⟨rfl, by
    intro j a ha
    rcases j with _ | _ | _ | _ | j
    all_goals simp at ha
    all_goals subst ha
    all_goals exact ⟨_, rfl, rfl⟩⟩ rs h2 hter i res hres
  rcases i with _ | _ | _ | _ | i
  all_goals simp at hs
  all_goals subst hs
  all_goals simp [presses, press] at this
  all_goals norm_num at this ⊢
  all_goals exact this

end HighwayEnv.Props
