import Verif.Props.Controller
import Verif.Spec.Cruise
import Verif.Props.Lane
import Mathlib.Analysis.SpecificLimits.Basic

/-!
# Closed-loop properties of controlled vehicles (C29, C76)
-/

noncomputable section
namespace HighwayEnv.Props
open Spec Classical Graph

private theorem idle_speed {G : Globals} {r : Road} {v v' : Vehicle} {rng' : Rng} (hk : v.kind = .controlled ∨ v.kind = .mdp)
    (h : v.act G r .idle = .ok (v', rng')) :
    v.controlledAct r.network r.rng .idle = .ok (v', rng') ∧
    v'.targetSpeed = v.targetSpeed ∧ v'.acceleration = (v.targetSpeed - v.speed) / (6 / 10) := by
  have : v.controlledAct r.network r.rng .idle = .ok (v', rng') := by
    unfold Vehicle.act at h
    rcases hk with hk | hk <;> rw [hk] at h <;> exact h
  obtain ⟨_, h2, _, h4⟩ := controlledAct_speed _ _ (by simp) (by simp) this
  exact ⟨this, h2, by rw [h4, h2]⟩

/-- C29.  With a constant target, the speed error after `n` rounds of "decide, step `dt`" is `(1 - dt/0.6)^n` times the initial one. -/
theorem speed_error (G : Globals) (dt : ℝ) (h0 : 0 < dt) (h1 : dt ≤ 0.6) (n : ℕ) (r : Road) (v v' : Vehicle)
    (hk : v.kind = .controlled ∨ v.kind = .mdp) (hc : v.crashed = false) (hs : |v.speed| ≤ 40) (ht : |v.targetSpeed| ≤ 40)
    (h : cruise G dt n r v = .ok v') :
    v'.targetSpeed = v.targetSpeed ∧ v'.targetSpeed - v'.speed = (1 - dt / 0.6) ^ n * (v.targetSpeed - v.speed) := by
  induction n generalizing r v with
  | zero => cases h; exact ⟨rfl, by simp⟩
  | succ n ih =>
    unfold cruise at h
    obtain ⟨⟨w, rng⟩, hw, h⟩ := bind_ok h
    obtain ⟨u, hu, h⟩ := bind_ok h
    obtain ⟨_, i2, i3⟩ := idle_speed hk hw
    have hb := Vehicle.act_body hw
    have hm := Vehicle.step_mind hu
    have hkw : w.kind ≠ .bicycle := by rw [hb.kind]; rcases hk with hk | hk <;> rw [hk] <;> simp
    have hsp := (step_kin hkw hu).2.2
    have hmax : w.kind.maxSpeed = 40 := by
      rw [hb.kind]; rcases hk with hk | hk <;> rw [hk] <;> rfl
    have hacc : executedAcceleration w = (v.targetSpeed - v.speed) / (6 / 10) := by
      unfold executedAcceleration
      simp only [hmax, hb.speed, hb.crashed, hc]
      rw [abs_le] at hs
      rw [if_neg (by linarith), if_neg (by linarith)]
      simpa using i3
    rw [hacc, hb.speed] at hsp
    have hspeed : u.speed = v.targetSpeed - (1 - dt / 0.6) * (v.targetSpeed - v.speed) := by
      rw [hsp]; ring
    have hq0 : 0 ≤ 1 - dt / 0.6 := by
      have : dt / 0.6 ≤ 1 := by rw [div_le_one (by norm_num)]; exact h1
      linarith
    have hq1 : 1 - dt / 0.6 ≤ 1 := by
      have : 0 ≤ dt / 0.6 := by positivity
      linarith
    have htu : u.targetSpeed = v.targetSpeed := hm.targetSpeed.trans i2
    obtain ⟨j1, j2⟩ := ih { r with rng := rng } u
      (by rw [hm.kind, hb.kind]; exact hk)
      (by rw [hm.crashed, hb.crashed]; exact hc)
      (by
        rw [abs_le] at *
        set q := 1 - dt / 0.6
        rw [hspeed]
        constructor <;> nlinarith)
      (by rw [htu]; exact ht) h
    refine ⟨j1.trans htu, ?_⟩
    rw [j2, htu, hspeed]
    ring

/-- Consequently the speed never overshoots the target (the error keeps its sign and never grows in size)… -/
theorem speed_no_overshoot (G : Globals) (dt : ℝ) (h0 : 0 < dt) (h1 : dt ≤ 0.6) (n : ℕ) (r : Road) (v v' : Vehicle)
    (hk : v.kind = .controlled ∨ v.kind = .mdp) (hc : v.crashed = false) (hs : |v.speed| ≤ 40) (ht : |v.targetSpeed| ≤ 40)
    (h : cruise G dt n r v = .ok v') :
    (v.speed ≤ v.targetSpeed → v.speed ≤ v'.speed ∧ v'.speed ≤ v.targetSpeed) ∧
    (v.targetSpeed ≤ v.speed → v.targetSpeed ≤ v'.speed ∧ v'.speed ≤ v.speed) := by
  obtain ⟨e1, e2⟩ := speed_error G dt h0 h1 n r v v' hk hc hs ht h
  rw [e1] at e2
  have hq0 : 0 ≤ 1 - dt / 0.6 := by
    have : dt / 0.6 ≤ 1 := by rw [div_le_one (by norm_num)]; exact h1
    linarith
  have hq1 : 1 - dt / 0.6 ≤ 1 := by
    have : 0 ≤ dt / 0.6 := by positivity
    linarith
  have p0 : 0 ≤ (1 - dt / 0.6) ^ n := pow_nonneg hq0 n
  have p1 : (1 - dt / 0.6) ^ n ≤ 1 := pow_le_one₀ hq0 hq1
  set q := (1 - dt / 0.6) ^ n
  constructor <;> intro hle <;> constructor <;> nlinarith

/-- … and converges to it. -/
theorem speed_error_tendsto (dt : ℝ) (h0 : 0 < dt) (h1 : dt ≤ 0.6) (e : ℝ) :
    Filter.Tendsto (fun n : ℕ => (1 - dt / 0.6) ^ n * e) Filter.atTop (nhds 0) := by
  have : Filter.Tendsto (fun n : ℕ => (1 - dt / 0.6) ^ n) Filter.atTop (nhds 0) := by
    apply tendsto_pow_atTop_nhds_zero_of_lt_one
    · have : dt / 0.6 ≤ 1 := by rw [div_le_one (by norm_num)]; exact h1
      linarith
    · have : 0 < dt / 0.6 := by positivity
      linarith
  simpa using this.mul_const e

/-- The closed loop never raises on a well-formed network, for an attached vehicle with an existing route. -/
theorem cruise_ok (G : Globals) (dt : ℝ) (n : ℕ) (r : Road) (hg : WellFormed r.network) (v : Vehicle)
    (hk : v.kind = .controlled ∨ v.kind = .mdp) (hv : Attached r.network v) (hr : RouteExists r.network v.route) :
    ∃ v', cruise G dt n r v = .ok v' := by
  induction n generalizing r v with
  | zero => exact ⟨v, rfl⟩
  | succ n ih =>
    obtain ⟨⟨w, rng⟩, hw⟩ := Vehicle.controlledAct_total hg r.rng .idle hv.target hr
    have hact : v.act G r .idle = .ok (w, rng) := by
      unfold Vehicle.act
      rcases hk with hk | hk <;> rw [hk] <;> exact hw
    obtain ⟨t0, route, t, ts, st, rfl, c1, c2, c3, c4, _⟩ := Vehicle.controlledAct_ok hg hv.target hw
    set w := ({ v with targetLane := t, route := route, targetSpeed := ts, steering := st
                       acceleration := Vehicle.KP_A * (ts - v.speed) } : Vehicle) with hwdef
    obtain ⟨k, l, hk', hl⟩ := hv.here
    obtain ⟨i, hi⟩ := closest_ok_of_exists hl (w.move dt).pos (some (w.move dt).heading)
    obtain ⟨li, hli⟩ := getLane_of_valid hg.toIsPyGraph (closest_spec hi)
    have hstep : ∃ u, w.step r.network r.recordHistory dt = .ok u := by
      unfold Vehicle.step Vehicle.onStateUpdate
      rw [hi]; simp only [bind, Except.bind]; rw [hli]; exact ⟨_, rfl⟩
    obtain ⟨u, hu⟩ := hstep
    have hm := Vehicle.step_mind hu
    obtain ⟨i', l', hist, hi', hl', e⟩ := Vehicle.step_ok hu
    obtain ⟨v', hv'⟩ := ih { r with rng := rng } hg u
      (by rw [hm.kind]; exact hk)
      ⟨by rw [e]; exact closest_spec hi', by rw [e]; exact hl', by rw [hm.targetLane]; exact c3⟩
      (by rw [hm.route]; exact fun s hs => hr s (c4.subset hs))
    refine ⟨v', ?_⟩
    unfold cruise
    rw [hact]
    simp only [bind, Except.bind]
    rw [hu]
    exact hv'

example : ∃ v', cruise {} (1 / 15) 100 { network := Sample.net, rng := ⟨fun _ => 0, fun _ => 0, 0, 0⟩ }
    { Sample.car 0 .mdp 10 0 20 with targetSpeed := 25, speedIndex := 1 } = .ok v' :=
  cruise_ok _ _ _ _ Sample.net_wf _ (.inr rfl)
    ⟨⟨0, _, rfl, Sample.net_has0⟩, getLane_of_hasLane (k := 0) Sample.net_py rfl Sample.net_has0, ⟨0, _, rfl, Sample.net_has0⟩⟩
    (by simp [RouteExists, Sample.car])

/-! ## C76 — a centred vehicle stays centred on a straight lane -/

theorem wrapToPi_zero : wrapToPi 0 = 0 := by
  unfold wrapToPi pyMod
  have h : ⌊(0 + Real.pi) / (2 * Real.pi)⌋ = 0 := by
    rw [Int.floor_eq_zero_iff]
    have := Real.pi_pos
    constructor
    · positivity
    · rw [div_lt_one (by positivity)]; linarith
  rw [h]; simp

theorem steering_centred {v : Vehicle} {a b : Vec2} {l : Lane} (hl : l.shape = .straight a b)
    (hlat : (l.localCoordinates v.pos).2 = 0) (hh : v.heading = l.headingAt 0) : v.steeringToLane l = 0 := by
  have hhe : ∀ s, l.headingAt s = v.heading := by
    intro s; rw [hh]; unfold Lane.headingAt; rw [hl]
  unfold Vehicle.steeringToLane
  simp only [hlat, hhe]
  have e1 : npClip (-Vehicle.KP_LATERAL * 0 / notZero v.speed) (-1) 1 = 0 := by
    rw [mul_zero, zero_div]; exact npClip_of_mem (by norm_num) (by norm_num)
  have hpi := Real.pi_pos
  rw [e1, Real.arcsin_zero]
  have e2 : npClip 0 (-Real.pi / 4) (Real.pi / 4) = 0 := npClip_of_mem (by linarith) (by linarith)
  rw [e2, add_zero, sub_self, wrapToPi_zero, mul_zero, mul_zero]
  have e3 : npClip 0 (-1) 1 = 0 := npClip_of_mem (by norm_num) (by norm_num)
  rw [e3, Real.arcsin_zero]
  exact npClip_of_mem (by unfold Vehicle.MAX_STEERING_ANGLE; linarith) (by unfold Vehicle.MAX_STEERING_ANGLE; positivity)

/-- A controlled vehicle (basic or discrete-action) that sits on the centre line of its straight target lane, aligned with it, on a
road that nothing continues: whatever its speed and target speed, its own controller keeps it exactly on the centre line, aligned,
with the same target lane, for any number of rounds; the steering command is exactly 0. -/
theorem stays_centred (G : Globals) (dt : ℝ) (n : ℕ) (r : Road) (hg : WellFormed r.network) (v v' : Vehicle) (l : Lane) (a b : Vec2)
    (hk : v.kind = .controlled ∨ v.kind = .mdp) (ht : ValidIndex r.network v.targetLane)
    (hl : r.network.getLane v.targetLane = .ok l) (hshape : l.shape = .straight a b) (hab : a ≠ b)
    (hend : ∀ t, ¬ Edge r.network v.targetLane.dst t)
    (hlat : (l.localCoordinates v.pos).2 = 0) (hhead : v.heading = l.headingAt 0) (hst : v.steering = 0)
    (h : cruise G dt n r v = .ok v') :
    (l.localCoordinates v'.pos).2 = 0 ∧ v'.heading = v.heading ∧ v'.targetLane = v.targetLane ∧ v'.steering = 0 := by
  induction n generalizing r v with
  | zero => cases h; exact ⟨hlat, rfl, rfl, hst⟩
  | succ n ih =>
    unfold cruise at h
    obtain ⟨⟨w, rng⟩, hw, h⟩ := bind_ok h
    obtain ⟨u, hu, h⟩ := bind_ok h
    obtain ⟨hca, _, _⟩ := idle_speed hk hw
    have hb := Vehicle.act_body hw
    have hm := Vehicle.step_mind hu
    obtain ⟨t0, route, t, ts, st, hwe, c1, c2, c3, c4, c5, c6, c7⟩ := Vehicle.controlledAct_ok hg ht hca
    have e0 : t0 = v.targetLane := by
      rcases c1 with ⟨c1, _⟩ | ⟨_, _, c1⟩
      · exact c1
      · exact absurd c1 (hend _)
    have et : w.targetLane = v.targetLane := by
      rw [hwe]; simp only; rw [c6, e0]; rfl
    -- the steering command
    have hsteer : w.steering = 0 := by
      unfold Vehicle.controlledAct at hca
      obtain ⟨⟨v1, rng1⟩, h1, hca⟩ := bind_ok hca
      obtain ⟨v2, h2, hca⟩ := bind_ok hca
      obtain ⟨st', h3, hca⟩ := bind_ok hca
      cases hca
      cases h2
      have hb1 := Vehicle.followRoad_body h1
      simp only at et
      unfold Vehicle.steeringControl at h3
      rw [et, hl] at h3
      simp only [bind, Except.bind] at h3
      have hnl : v1.kind.isLinear = false := by
        rw [hb1.kind]; rcases hk with hk | hk <;> rw [hk] <;> rfl
      rw [hnl] at h3
      simp only [Bool.false_eq_true, if_false] at h3
      cases h3
      have := steering_centred (v := v1) hshape (by rw [hb1.pos]; exact hlat) (by rw [hb1.heading]; exact hhead)
      simp only [this]
      exact npClip_of_mem (by unfold Vehicle.MAX_STEERING_ANGLE; linarith [Real.pi_pos])
        (by unfold Vehicle.MAX_STEERING_ANGLE; positivity)
    have hkw : w.kind ≠ .bicycle := by rw [hb.kind]; rcases hk with hk | hk <;> rw [hk] <;> simp
    obtain ⟨k1, k2, _⟩ := step_kin hkw hu
    have hex : executedSteering w = 0 := by unfold executedSteering; rw [hsteer]; simp
    have hslip : Vehicle.slip 0 = 0 := by unfold Vehicle.slip; simp
    rw [hex, hslip] at k1 k2
    rw [add_zero, hb.pos, hb.speed, hb.heading] at k1
    rw [Real.sin_zero, hb.heading, hb.speed] at k2
    have k2 : u.heading = v.heading := by rw [k2]; ring
    have hdir : Vec2.dir v.heading = Lane.straightDir a b := by
      rw [hhead, Lane.straightDir_eq_dir hab]; unfold Lane.headingAt; rw [hshape]
    have hlu : (l.localCoordinates u.pos).2 = 0 := by
      unfold Lane.localCoordinates at hlat ⊢
      rw [hshape] at hlat ⊢
      simp only at hlat ⊢
      rw [k1, hdir]
      unfold Lane.straightLocal Vec2.dot at hlat ⊢
      simp only [Vec2.sub_x, Vec2.sub_y, Vec2.add_x, Vec2.add_y, Vec2.smul_x, Vec2.smul_y] at hlat ⊢
      linear_combination hlat
    have hut : u.targetLane = v.targetLane := hm.targetLane.trans et
    obtain ⟨i1, i2, i3, i4⟩ := ih { r with rng := rng } hg u
      (by rw [hm.kind, hb.kind]; exact hk) (by rw [hut]; exact ht) (by rw [hut]; exact hl) (by rw [hut]; exact hend) hlu
      (by rw [k2]; exact hhead) (by rw [(step_steering hkw hu).1]; exact hex) h
    exact ⟨i1, i2.trans k2, i3.trans hut, i4⟩

end HighwayEnv.Props
