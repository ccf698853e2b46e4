import Verif.Props.Cruise
import Verif.Lemmas.Lateral
import Verif.Lemmas.Straight

/-!
# The steering controller converges to the target lane; lane changes are completed (C108)
-/

noncomputable section
namespace HighwayEnv.Props
open Spec Classical Graph

private theorem laneError_form {V : ℝ} (hV : 0 < V) (y p : ℝ) : laneError V y p = Lateral.form (5 / 3 * y / V) p := by
  unfold laneError Lateral.form
  field_simp
  ring

theorem laneError_nonneg (V y p : ℝ) : 0 ≤ laneError V y p := by
  unfold laneError
  nlinarith [sq_nonneg (p + y / V), sq_nonneg (y / V)]

/-- The lateral offset is at most half the speed times the root of the lane error. -/
theorem laneError_offset {V : ℝ} (hV : 0 < V) (y p : ℝ) : y ^ 2 ≤ V ^ 2 / 4 * laneError V y p := by
  have h : 4 * (y / V) ^ 2 ≤ laneError V y p := by
    unfold laneError
    nlinarith [sq_nonneg (p + y / V)]
  have e : y ^ 2 = V ^ 2 / 4 * (4 * (y / V) ^ 2) := by field_simp
  rw [e]
  exact mul_le_mul_of_nonneg_left h (by positivity)

theorem laneError_heading (V y p : ℝ) : p ^ 2 ≤ 5 / 4 * laneError V y p := by
  unfold laneError
  nlinarith [sq_nonneg (5 * (y / V) + p)]

/-- The steering command inside the region: none of its saturations is active. -/
private theorem steering_value {v : Vehicle} {l : Lane} {a b : Vec2} (hl : l.shape = .straight a b) (hV : 10 ≤ v.speed)
    (hx : (5 / 3 * (l.localCoordinates v.pos).2 / v.speed) ^ 2 ≤ 1 / 4)
    (hr : |Real.arcsin (-(5 / 3 * (l.localCoordinates v.pos).2 / v.speed))| ≤ Real.pi / 4)
    (he : (Real.arcsin (-(5 / 3 * (l.localCoordinates v.pos).2 / v.speed)) - (v.heading - l.headingAt 0)) ^ 2 ≤ 42 / 100)
    (hz : (25 / 2 / v.speed * (Real.arcsin (-(5 / 3 * (l.localCoordinates v.pos).2 / v.speed)) - (v.heading - l.headingAt 0))) ^ 2 ≤ 66 / 100) :
    v.steeringToLane l = Real.arcsin (25 / 2 / v.speed *
      (Real.arcsin (-(5 / 3 * (l.localCoordinates v.pos).2 / v.speed)) - (v.heading - l.headingAt 0))) ∧
    |v.steeringToLane l| ≤ Real.pi / 3 := by
  have hhe : ∀ s, l.headingAt s = l.headingAt 0 := by
    intro s; unfold Lane.headingAt; rw [hl]
  have hnz : notZero v.speed = v.speed := by
    unfold notZero; rw [if_pos (by rw [abs_of_pos (by linarith)]; linarith)]
  unfold Vehicle.steeringToLane
  simp only [hhe, hnz]
  generalize (l.localCoordinates v.pos).2 = y at *
  generalize l.headingAt 0 = h0 at *
  have hpi := Real.pi_gt_three
  have e1 : -Vehicle.KP_LATERAL * y / v.speed = -(5 / 3 * y / v.speed) := by
    unfold Vehicle.KP_LATERAL Vehicle.KP_HEADING; ring
  rw [e1, npClip_of_mem (x := -(5 / 3 * y / v.speed)) (by nlinarith) (by nlinarith)]
  obtain ⟨r1, r2⟩ := abs_le.1 hr
  rw [npClip_of_mem (b := Real.pi / 4) (by linarith) r2]
  generalize Real.arcsin (-(5 / 3 * y / v.speed)) = ref at *
  have e2 : h0 + ref - v.heading = ref - (v.heading - h0) := by ring
  rw [e2]
  generalize ref - (v.heading - h0) = e at *
  rw [wrapToPi_of_mem (by nlinarith) (by nlinarith)]
  have e3 : Vehicle.LENGTH / 2 / v.speed * (Vehicle.KP_HEADING * e) = 25 / 2 / v.speed * e := by
    unfold Vehicle.LENGTH Vehicle.KP_HEADING; ring
  rw [e3]
  generalize 25 / 2 / v.speed * e = z at *
  rw [npClip_of_mem (x := z) (by nlinarith) (by nlinarith)]
  have hs3 : Real.sin (Real.pi / 3) = √3 / 2 := Real.sin_pi_div_three
  have hsq : √3 ^ 2 = (3 : ℝ) := Real.sq_sqrt (by norm_num)
  have hs0 : 0 ≤ √(3 : ℝ) := Real.sqrt_nonneg _
  have b1 : Real.arcsin z ≤ Real.pi / 3 := by
    rw [Real.arcsin_le_iff_le_sin ⟨by nlinarith, by nlinarith⟩ ⟨by linarith, by linarith⟩, hs3]
    nlinarith
  have b2 : -(Real.pi / 3) ≤ Real.arcsin z := by
    rw [Real.le_arcsin_iff_sin_le ⟨by linarith, by linarith⟩ ⟨by nlinarith, by nlinarith⟩, Real.sin_neg, hs3]
    nlinarith
  unfold Vehicle.MAX_STEERING_ANGLE
  rw [npClip_of_mem b2 b1]
  exact ⟨rfl, abs_le.2 ⟨b2, b1⟩⟩

/-- One round ("decide, step"): whatever lateral decision is taken, the lane error relative to the lane targeted *after* the decision
is multiplied by at most `1 - dt`. -/
private theorem round_error {r : Road} {v w u : Vehicle} {rng' : Rng} {l : Lane} {a b : Vec2} {act : VAction} {dt V : ℝ} {rec : Bool}
    (hk : v.kind = .controlled ∨ v.kind = .mdp) (hc : v.crashed = false) (hs : v.speed = V)
    (hV : 10 ≤ V) (hV' : V ≤ 40) (h0 : 0 ≤ dt) (h1 : dt ≤ 1 / 10) (ha1 : act ≠ .faster) (ha2 : act ≠ .slower)
    (hca : v.controlledAct r.network r.rng act = .ok (w, rng')) (hb : SameBody v w) (hu : w.step r.network rec dt = .ok u)
    (hl : r.network.getLane w.targetLane = .ok l) (hshape : l.shape = .straight a b) (hab : a ≠ b)
    (hE : laneError V (l.localCoordinates v.pos).2 (v.heading - l.headingAt 0) ≤ 9 / 25) :
    u.kind = v.kind ∧ u.crashed = false ∧ u.speed = V + (v.targetSpeed - V) / (6 / 10) * dt ∧ u.targetSpeed = v.targetSpeed ∧ u.targetLane = w.targetLane ∧
    laneError V (l.localCoordinates u.pos).2 (u.heading - l.headingAt 0) ≤
      (1 - dt) * laneError V (l.localCoordinates v.pos).2 (v.heading - l.headingAt 0) := by
  have hVp : 0 < V := by linarith
  obtain ⟨_, i2, _, i4⟩ := controlledAct_speed _ _ ha1 ha2 hca
  have hm := Vehicle.step_mind hu
  have hkw : w.kind ≠ .bicycle := by rw [hb.kind]; rcases hk with hk | hk <;> rw [hk] <;> simp
  have hmax : w.kind.maxSpeed = 40 := by
    rw [hb.kind]; rcases hk with hk | hk <;> rw [hk] <;> rfl
  obtain ⟨k1, k2, k3⟩ := step_kin hkw hu
  rw [laneError_form hVp] at hE
  obtain ⟨q1, q2, q3, q4, q5⟩ := Lateral.closed_loop _ _ V dt hV h0 h1 hE
  -- the steering command
  have hsteer : w.steering = Real.arcsin (25 / 2 / V *
      (Real.arcsin (-(5 / 3 * (l.localCoordinates v.pos).2 / V)) - (v.heading - l.headingAt 0))) := by
    unfold Vehicle.controlledAct at hca
    obtain ⟨⟨v1, rng1⟩, g1, hca⟩ := bind_ok hca
    obtain ⟨v2, g2, hca⟩ := bind_ok hca
    obtain ⟨st', g3, hca⟩ := bind_ok hca
    have hb2 : SameBody v v2 := by
      cases hca
      exact ⟨hb.uid, hb.kind, hb.pos, hb.heading, hb.speed, hb.laneIndex, hb.lane, hb.crashed, hb.collisionsEnabled, hb.history, hb.lateralSpeed, hb.yawRate⟩
    have hwl : w.targetLane = v2.targetLane := by cases hca; rfl
    have hws : w.steering = npClip st' (-Vehicle.MAX_STEERING_ANGLE) Vehicle.MAX_STEERING_ANGLE := by cases hca; rfl
    unfold Vehicle.steeringControl at g3
    rw [← hwl, hl] at g3
    simp only [bind, Except.bind] at g3
    have hnl : v2.kind.isLinear = false := by
      rw [hb2.kind]; rcases hk with hk | hk <;> rw [hk] <;> rfl
    rw [hnl] at g3
    simp only [Bool.false_eq_true, if_false] at g3
    have g3' : v2.steeringToLane l = st' := Except.ok.inj g3
    obtain ⟨s1, s2⟩ := steering_value (v := v2) hshape (by rw [hb2.speed, hs]; exact hV)
      (by rw [hb2.pos, hb2.speed, hs]; exact q1) (by rw [hb2.pos, hb2.speed, hs]; exact q2)
      (by rw [hb2.pos, hb2.speed, hs, hb2.heading]; exact q3) (by rw [hb2.pos, hb2.speed, hs, hb2.heading]; exact q4)
    unfold Vehicle.MAX_STEERING_ANGLE at hws
    rw [hws, ← g3', npClip_of_mem (abs_le.1 s2).1 (abs_le.1 s2).2, s1, hb2.pos, hb2.speed, hs, hb2.heading]
  have hex : executedSteering w = w.steering := by
    unfold executedSteering; rw [hb.crashed, hc]; simp
  have hacc : executedAcceleration w = (v.targetSpeed - V) / (6 / 10) := by
    unfold executedAcceleration
    simp only [hmax, hb.speed, hb.crashed, hc, hs]
    rw [if_neg (by linarith), if_neg (by linarith), i4, i2, hs]
    simp
  rw [hex, hsteer, hb.pos, hb.speed, hs, hb.heading] at k1
  rw [hex, hsteer, hb.speed, hs, hb.heading] at k2
  rw [hacc, hb.speed, hs] at k3
  refine ⟨by rw [hm.kind, hb.kind], by rw [hm.crashed, hb.crashed, hc], k3, by rw [hm.targetSpeed, i2], hm.targetLane, ?_⟩
  rw [laneError_form hVp, laneError_form hVp]
  have hdir : Lane.straightDir a b = Vec2.dir (l.headingAt 0) := by
    rw [Lane.straightDir_eq_dir hab]; unfold Lane.headingAt; rw [hshape]
  have hlat : (l.localCoordinates u.pos).2 = (l.localCoordinates v.pos).2 +
      dt * (V * Real.sin (v.heading - l.headingAt 0 + Vehicle.slip (Real.arcsin (25 / 2 / V *
        (Real.arcsin (-(5 / 3 * (l.localCoordinates v.pos).2 / V)) - (v.heading - l.headingAt 0)))))) := by
    generalize Vehicle.slip (Real.arcsin (25 / 2 / V *
        (Real.arcsin (-(5 / 3 * (l.localCoordinates v.pos).2 / V)) - (v.heading - l.headingAt 0)))) = be at k1 ⊢
    have e : v.heading - l.headingAt 0 + be = (v.heading + be) - l.headingAt 0 := by ring
    rw [e, Real.sin_sub, k1]
    generalize l.headingAt 0 = h0 at *
    unfold Lane.localCoordinates
    rw [hshape]
    simp only
    unfold Lane.straightLocal Vec2.dot
    rw [hdir]
    unfold Vec2.dir
    simp only [Vec2.sub_x, Vec2.sub_y, Vec2.add_x, Vec2.add_y, Vec2.smul_x, Vec2.smul_y]
    ring
  rw [hlat, k2]
  generalize Vehicle.slip (Real.arcsin (25 / 2 / V *
        (Real.arcsin (-(5 / 3 * (l.localCoordinates v.pos).2 / V)) - (v.heading - l.headingAt 0)))) = be at q5 ⊢
  have e1 : 5 / 3 * ((l.localCoordinates v.pos).2 + dt * (V * Real.sin (v.heading - l.headingAt 0 + be))) / V =
      5 / 3 * (l.localCoordinates v.pos).2 / V + dt * (5 / 3 * Real.sin (v.heading - l.headingAt 0 + be)) := by
    field_simp
  have e2 : v.heading + V * Real.sin be / (Vehicle.LENGTH / 2) * dt - l.headingAt 0 =
      v.heading - l.headingAt 0 + V * Real.sin be / (5 / 2) * dt := by
    unfold Vehicle.LENGTH; ring
  rw [e1, e2]
  exact q5

private theorem idle_act {G : Globals} {r : Road} {v v' : Vehicle} {rng' : Rng} {a : VAction} (hk : v.kind = .controlled ∨ v.kind = .mdp)
    (ha1 : a ≠ .faster) (ha2 : a ≠ .slower) (h : v.act G r a = .ok (v', rng')) : v.controlledAct r.network r.rng a = .ok (v', rng') := by
  unfold Vehicle.act at h
  rcases hk with hk | hk <;> rw [hk] at h
  · exact h
  · simp only at h
    unfold Vehicle.mdpAct at h
    cases a <;> first | exact h | contradiction

/-- C108.  A controlled vehicle (basic or discrete-action) at a steady speed of 10 to 40 m/s, whose target lane is straight and not
continued by another road, driven by its own controller with a frame of at most 0.1 s: if its lateral offset and relative heading are
not too large (`laneError ≤ 9/25`), then after any number `n` of frames its lane error has decreased by the factor `(1 - dt)^n` at
least, at an unchanged speed and target. -/
theorem lane_keeping (G : Globals) (dt V : ℝ) (h0 : 0 ≤ dt) (h1 : dt ≤ 1 / 10) (hV : 10 ≤ V) (hV' : V ≤ 40) (n : ℕ) (r : Road)
    (hg : WellFormed r.network) (v v' : Vehicle) (l : Lane) (a b : Vec2)
    (hk : v.kind = .controlled ∨ v.kind = .mdp) (hc : v.crashed = false) (hs : v.speed = V) (hts : v.targetSpeed = V)
    (ht : ValidIndex r.network v.targetLane) (hl : r.network.getLane v.targetLane = .ok l) (hshape : l.shape = .straight a b) (hab : a ≠ b)
    (hend : ∀ t, ¬ Edge r.network v.targetLane.dst t)
    (hE : laneError V (l.localCoordinates v.pos).2 (v.heading - l.headingAt 0) ≤ 9 / 25)
    (h : cruise G dt n r v = .ok v') :
    laneError V (l.localCoordinates v'.pos).2 (v'.heading - l.headingAt 0) ≤
      (1 - dt) ^ n * laneError V (l.localCoordinates v.pos).2 (v.heading - l.headingAt 0) ∧
    v'.targetLane = v.targetLane ∧ v'.speed = V ∧ v'.targetSpeed = V := by
  induction n generalizing r v with
  | zero => cases h; exact ⟨by simp, rfl, hs, hts⟩
  | succ n ih =>
    unfold cruise at h
    obtain ⟨⟨w, rng⟩, hw, h⟩ := bind_ok h
    obtain ⟨u, hu, h⟩ := bind_ok h
    have hca := idle_act hk (by simp) (by simp) hw
    have hb := Vehicle.act_body hw
    obtain ⟨t0, route, t, ts, st, hwe, c1, c2, c3, c4, c5, c6, c7⟩ := Vehicle.controlledAct_ok hg ht hca
    have e0 : t0 = v.targetLane := by
      rcases c1 with ⟨c1, _⟩ | ⟨_, _, c1⟩
      · exact c1
      · exact absurd c1 (hend _)
    have et : w.targetLane = v.targetLane := by
      rw [hwe]; simp only; rw [c6, e0]; rfl
    obtain ⟨j1, j2, j3, j4, j5, j6⟩ := round_error hk hc hs hV hV' h0 h1 (by simp) (by simp) hca hb hu
      (by rw [et]; exact hl) hshape hab hE
    have j3 : u.speed = V := by rw [j3, hts]; ring
    have j4 := j4.trans hts
    have hut : u.targetLane = v.targetLane := j5.trans et
    have hE0 := laneError_nonneg V (l.localCoordinates v.pos).2 (v.heading - l.headingAt 0)
    obtain ⟨i1, i2, i3, i4⟩ := ih { r with rng := rng } hg u (by rw [j1]; exact hk) j2 j3 j4 (by rw [hut]; exact ht)
      (by rw [hut]; exact hl) (by rw [hut]; exact hend) (by nlinarith) h
    refine ⟨le_trans i1 ?_, i2.trans hut, i3, i4⟩
    rw [pow_succ, mul_assoc]
    exact mul_le_mul_of_nonneg_left j6 (pow_nonneg (by linarith) _)

/-- In metres and radians, for a vehicle initially aligned with the lane at lateral offset `y₀`: the offset stays within
`√5/2 · (1 - dt)^(n/2)` times the initial one, and the relative heading within `5/2 · (1 - dt)^(n/2) · |y₀| / V`. -/
theorem lane_keeping_aligned (G : Globals) (dt V : ℝ) (h0 : 0 ≤ dt) (h1 : dt ≤ 1 / 10) (hV : 10 ≤ V) (hV' : V ≤ 40) (n : ℕ) (r : Road)
    (hg : WellFormed r.network) (v v' : Vehicle) (l : Lane) (a b : Vec2)
    (hk : v.kind = .controlled ∨ v.kind = .mdp) (hc : v.crashed = false) (hs : v.speed = V) (hts : v.targetSpeed = V)
    (ht : ValidIndex r.network v.targetLane) (hl : r.network.getLane v.targetLane = .ok l) (hshape : l.shape = .straight a b) (hab : a ≠ b)
    (hend : ∀ t, ¬ Edge r.network v.targetLane.dst t) (hhead : v.heading = l.headingAt 0)
    (hy : |(l.localCoordinates v.pos).2| ≤ 26 / 100 * V)
    (h : cruise G dt n r v = .ok v') :
    (l.localCoordinates v'.pos).2 ^ 2 ≤ 5 / 4 * (1 - dt) ^ n * (l.localCoordinates v.pos).2 ^ 2 ∧
    (v'.heading - l.headingAt 0) ^ 2 ≤ 25 / 4 * (1 - dt) ^ n * ((l.localCoordinates v.pos).2 / V) ^ 2 := by
  have hVp : 0 < V := by linarith
  have e : laneError V (l.localCoordinates v.pos).2 (v.heading - l.headingAt 0) = 5 * ((l.localCoordinates v.pos).2 / V) ^ 2 := by
    unfold laneError; rw [hhead]; ring
  have hy2 : ((l.localCoordinates v.pos).2 / V) ^ 2 ≤ (26 / 100) ^ 2 := by
    rw [sq_le_sq, abs_div, abs_of_pos hVp, div_le_iff₀ hVp, abs_of_pos (a := (26 : ℝ) / 100) (by norm_num)]
    exact hy
  obtain ⟨i1, _⟩ := lane_keeping G dt V h0 h1 hV hV' n r hg v v' l a b hk hc hs hts ht hl hshape hab hend (by rw [e]; linarith) h
  rw [e] at i1
  constructor
  · refine le_trans (laneError_offset hVp _ (v'.heading - l.headingAt 0)) (le_trans (mul_le_mul_of_nonneg_left i1 (by positivity)) (le_of_eq ?_))
    field_simp
  · refine le_trans (laneError_heading V (l.localCoordinates v'.pos).2 _) (le_trans (mul_le_mul_of_nonneg_left i1 (by norm_num)) (le_of_eq ?_))
    ring

/-- Convergence: whatever precision is asked for, after enough frames the vehicle is within it of the centre line and of the direction
of the lane — and stays so. -/
theorem lane_keeping_converges (G : Globals) (dt V : ℝ) (h0 : 0 < dt) (h1 : dt ≤ 1 / 10) (hV : 10 ≤ V) (hV' : V ≤ 40) (r : Road)
    (hg : WellFormed r.network) (v : Vehicle) (l : Lane) (a b : Vec2)
    (hk : v.kind = .controlled ∨ v.kind = .mdp) (hc : v.crashed = false) (hs : v.speed = V) (hts : v.targetSpeed = V)
    (hv : Attached r.network v) (hr : RouteExists r.network v.route)
    (hl : r.network.getLane v.targetLane = .ok l) (hshape : l.shape = .straight a b) (hab : a ≠ b)
    (hend : ∀ t, ¬ Edge r.network v.targetLane.dst t)
    (hE : laneError V (l.localCoordinates v.pos).2 (v.heading - l.headingAt 0) ≤ 9 / 25) (eps : ℝ) (heps : 0 < eps) :
    ∃ N, ∀ n, N ≤ n → ∃ v', cruise G dt n r v = .ok v' ∧ |(l.localCoordinates v'.pos).2| < eps ∧ |v'.heading - l.headingAt 0| < eps := by
  have hVp : 0 < V := by linarith
  have hlim : Filter.Tendsto (fun n : ℕ => (1 - dt) ^ n) Filter.atTop (nhds 0) :=
    tendsto_pow_atTop_nhds_zero_of_lt_one (by linarith) (by linarith)
  obtain ⟨N, hN⟩ := Filter.eventually_atTop.1 (hlim.eventually (gt_mem_nhds (show 0 < eps ^ 2 / (V ^ 2 + 5) by positivity)))
  refine ⟨N, fun n hn => ?_⟩
  obtain ⟨v', hv'⟩ := cruise_ok G dt n r hg v hk hv hr
  obtain ⟨i1, _⟩ := lane_keeping G dt V h0.le h1 hV hV' n r hg v v' l a b hk hc hs hts hv.target hl hshape hab hend hE hv'
  have hp := hN n hn
  rw [lt_div_iff₀ (by positivity)] at hp
  have hq : 0 ≤ (1 - dt) ^ n := pow_nonneg (by linarith) n
  have i2 : laneError V (l.localCoordinates v'.pos).2 (v'.heading - l.headingAt 0) ≤ 9 / 25 * (1 - dt) ^ n := by
    refine le_trans i1 ?_
    rw [mul_comm]
    exact mul_le_mul_of_nonneg_right hE hq
  refine ⟨v', hv', ?_, ?_⟩ <;> apply abs_lt_of_sq_lt_sq _ heps.le
  · have := laneError_offset hVp (l.localCoordinates v'.pos).2 (v'.heading - l.headingAt 0)
    have h3 : V ^ 2 / 4 * laneError V (l.localCoordinates v'.pos).2 (v'.heading - l.headingAt 0) ≤ V ^ 2 / 4 * (9 / 25 * (1 - dt) ^ n) :=
      mul_le_mul_of_nonneg_left i2 (by positivity)
    nlinarith [mul_nonneg (sq_nonneg V) hq]
  · have := laneError_heading V (l.localCoordinates v'.pos).2 (v'.heading - l.headingAt 0)
    nlinarith [mul_nonneg (sq_nonneg V) hq]

/-- Convergence does not need a steady speed: also while the vehicle is reaching its target speed, as long as both speeds are between 10
and 40 m/s and the target is between 4/5 and 8/5 of the speed, the lane error (relative to the current speed) decreases by `1 - dt/5`
per frame at least. -/
theorem lane_keeping_varying (G : Globals) (dt : ℝ) (h0 : 0 ≤ dt) (h1 : dt ≤ 1 / 10) (n : ℕ) (r : Road)
    (hg : WellFormed r.network) (v v' : Vehicle) (l : Lane) (a b : Vec2)
    (hk : v.kind = .controlled ∨ v.kind = .mdp) (hc : v.crashed = false) (hs : 10 ≤ v.speed) (hs' : v.speed ≤ 40)
    (hts : 10 ≤ v.targetSpeed) (hts' : v.targetSpeed ≤ 40) (hlo : 4 / 5 * v.speed ≤ v.targetSpeed) (hhi : v.targetSpeed ≤ 8 / 5 * v.speed)
    (ht : ValidIndex r.network v.targetLane) (hl : r.network.getLane v.targetLane = .ok l) (hshape : l.shape = .straight a b) (hab : a ≠ b)
    (hend : ∀ t, ¬ Edge r.network v.targetLane.dst t)
    (hE : laneError v.speed (l.localCoordinates v.pos).2 (v.heading - l.headingAt 0) ≤ 9 / 25)
    (h : cruise G dt n r v = .ok v') :
    laneError v'.speed (l.localCoordinates v'.pos).2 (v'.heading - l.headingAt 0) ≤
      (1 - dt / 5) ^ n * laneError v.speed (l.localCoordinates v.pos).2 (v.heading - l.headingAt 0) ∧
    10 ≤ v'.speed ∧ v'.speed ≤ 40 ∧ v'.targetLane = v.targetLane ∧ v'.targetSpeed = v.targetSpeed := by
  induction n generalizing r v with
  | zero => cases h; exact ⟨by simp, hs, hs', rfl, rfl⟩
  | succ n ih =>
    unfold cruise at h
    obtain ⟨⟨w, rng⟩, hw, h⟩ := bind_ok h
    obtain ⟨u, hu, h⟩ := bind_ok h
    have hca := idle_act hk (by simp) (by simp) hw
    have hb := Vehicle.act_body hw
    obtain ⟨t0, route, t, ts, st, hwe, c1, c2, c3, c4, c5, c6, c7⟩ := Vehicle.controlledAct_ok hg ht hca
    have e0 : t0 = v.targetLane := by
      rcases c1 with ⟨c1, _⟩ | ⟨_, _, c1⟩
      · exact c1
      · exact absurd c1 (hend _)
    have et : w.targetLane = v.targetLane := by
      rw [hwe]; simp only; rw [c6, e0]; rfl
    obtain ⟨j1, j2, j3, j4, j5, j6⟩ := round_error hk hc rfl hs hs' h0 h1 (by simp) (by simp) hca hb hu
      (by rw [et]; exact hl) hshape hab hE
    have hut : u.targetLane = v.targetLane := j5.trans et
    generalize hV : v.speed = V at *
    generalize hT : v.targetSpeed = T at *
    have hVp : 0 < V := by linarith
    have hus : u.speed = V * (1 + (T - V) / (6 / 10) * dt / V) := by rw [j3]; field_simp
    have hq0 : 0 ≤ dt / (6 / 10) := by positivity
    have hq1 : dt / (6 / 10) ≤ 1 := by rw [div_le_one (by norm_num)]; linarith
    have hmix : u.speed = (1 - dt / (6 / 10)) * V + dt / (6 / 10) * T := by rw [j3]; ring
    set q := dt / (6 / 10) with hq
    have hu1 : 10 ≤ u.speed := by rw [hmix]; nlinarith
    have hu2 : u.speed ≤ 40 := by rw [hmix]; nlinarith
    have hE0 := laneError_nonneg V (l.localCoordinates v.pos).2 (v.heading - l.headingAt 0)
    have hE1 := laneError_nonneg V (l.localCoordinates u.pos).2 (u.heading - l.headingAt 0)
    have hstep : laneError u.speed (l.localCoordinates u.pos).2 (u.heading - l.headingAt 0) ≤
        (1 - dt / 5) * laneError V (l.localCoordinates v.pos).2 (v.heading - l.headingAt 0) := by
      have hd := Lateral.form_rescale (5 / 3 * (l.localCoordinates u.pos).2 / V) (u.heading - l.headingAt 0)
        ((T - V) / (6 / 10) * dt / V) dt h0 h1
        (by rw [le_div_iff₀ hVp]; nlinarith) (by rw [div_le_iff₀ hVp]; nlinarith)
      rw [div_div, ← hus, ← laneError_form hVp, ← laneError_form (by linarith)] at hd
      refine le_trans hd (le_trans (mul_le_mul_of_nonneg_left j6 (by linarith)) ?_)
      rw [← mul_assoc]
      exact mul_le_mul_of_nonneg_right (by nlinarith) hE0
    obtain ⟨i1, i2, i3, i4, i5⟩ := ih { r with rng := rng } hg u (by rw [j1]; exact hk) j2 hu1 hu2 (by rw [j4]; exact hts) (by rw [j4]; exact hts')
      (by rw [j4, hmix]; nlinarith) (by rw [j4, hmix]; nlinarith) (by rw [hut]; exact ht)
      (by rw [hut]; exact hl) (by rw [hut]; exact hend) (by nlinarith) h
    refine ⟨le_trans i1 ?_, i2, i3, i4.trans hut, i5.trans j4⟩
    rw [pow_succ, mul_assoc]
    exact mul_le_mul_of_nonneg_left hstep (pow_nonneg (by linarith) _)

/-! ## Lane changes on a straight road -/

/-- Less than 2 m away from the centre line of lane `k`, whatever the heading and however far along the road, the closest lane is lane `k`. -/
theorem straightNet_closest_near {n : ℕ} (hn : 0 < n) {len : ℝ} (hl : 0 < len) {k : ℕ} (hk : k < n) (p : Vec2) (hy : |p.y - 4 * k| < 2) (h : ℝ) :
    (straightNet n len).getClosestLaneIndex p (some h) = .ok ⟨"0", "1", (k : Int)⟩ := by
  obtain ⟨i, hi⟩ := closest_ok_of_exists (straightNet_hasLane (len := len).2 ⟨rfl, rfl, hk, rfl⟩) p (some h)
  rw [hi]
  obtain ⟨hv, l, hgl, hmin⟩ := closestLane_minimal _ (straightNet_wf hn len).toIsPyGraph _ _ _ hi
  obtain ⟨h1, h2, h3, h4⟩ := straightNet_valid.1 hv
  obtain ⟨j, hj⟩ : ∃ j : ℕ, i.id = (j : Int) := ⟨i.id.toNat, by omega⟩
  have hij : i = ⟨"0", "1", (j : Int)⟩ := by ext <;> simp [h1, h2, hj]
  rw [hij, straightNet_getLane hn (by omega)] at hgl
  cases hgl
  have := hmin _ _ (straightNet_getLane hn hk)
  simp only [Lane.distanceWithHeading, straightLane_local hl, straightLane_length hl, straightLane_heading hl] at this
  have h5 : |p.y - 4 * (j : ℝ)| < 2 := by linarith
  rw [abs_lt] at h5 hy
  have h6 : (j : ℝ) < k + 1 := by linarith
  have h7 : (k : ℝ) < j + 1 := by linarith
  have h8 : j < k + 1 := by exact_mod_cast h6
  have h9 : k < j + 1 := by exact_mod_cast h7
  rw [hij, show j = k by omega]

theorem straightNet_no_edge (n : ℕ) (len : ℝ) (t : String) : ¬ Edge (straightNet n len) "1" t := by
  rintro ⟨ls, h⟩
  have := (straightNet_roadLanes.1 h).1
  exact absurd this (by decide)

/-- A lane change on a straight road with any number of 4 m wide lanes (the map of the highway environment) is completed.  The vehicle
(basic or discrete-action) drives aligned on the centre line of lane `k`, its target lane, at a steady speed of 15 to 40 m/s, at any
place of the road, with frames of at most 0.1 s.  The command LANE_RIGHT (LANE_LEFT) towards an existing neighbouring lane `j`
followed by IDLE always works; after `m + 1` frames the vehicle is within `√20 · (1 - dt)^((m+1)/2)` m of the centre line of lane `j`;
and as soon as `(1 - dt)^(m+1) < 1/5`, lane `j` is the lane it is on.  Its speed does not change. -/
theorem lane_change_completed (G : Globals) (dt V : ℝ) (h0 : 0 ≤ dt) (h1 : dt ≤ 1 / 10) (hV : 15 ≤ V) (hV' : V ≤ 40) (m : ℕ) (r : Road)
    (n : ℕ) (len : ℝ) (hlen : 0 < len) (hnet : r.network = straightNet n len) (v : Vehicle) (k j : ℕ) (act : VAction)
    (hdir : (act = .laneRight ∧ j = k + 1) ∨ (act = .laneLeft ∧ k = j + 1)) (hkn : k < n) (hjn : j < n)
    (hk : v.kind = .controlled ∨ v.kind = .mdp) (hc : v.crashed = false) (hs : v.speed = V) (hts : v.targetSpeed = V)
    (hv : Attached r.network v) (hr : RouteExists r.network v.route) (ht : v.targetLane = ⟨"0", "1", (k : Int)⟩)
    (hx : 0 ≤ v.pos.x) (hx' : v.pos.x < len + 5) (hy : v.pos.y = 4 * k) (hh : v.heading = 0) :
    ∃ w rng u v', v.act G r act = .ok (w, rng) ∧ w.step r.network r.recordHistory dt = .ok u ∧
      cruise G dt m { r with rng := rng } u = .ok v' ∧
      v'.targetLane = ⟨"0", "1", (j : Int)⟩ ∧ v'.speed = V ∧ (v'.pos.y - 4 * j) ^ 2 ≤ 20 * (1 - dt) ^ (m + 1) ∧
      ((1 - dt) ^ (m + 1) < 1 / 5 → v'.laneIndex = ⟨"0", "1", (j : Int)⟩) := by
  have hn : 0 < n := by omega
  have hVp : 0 < V := by linarith
  have hg : WellFormed r.network := by rw [hnet]; exact straightNet_wf hn len
  have ha1 : act ≠ .faster := by rcases hdir with ⟨rfl, _⟩ | ⟨rfl, _⟩ <;> simp
  have ha2 : act ≠ .slower := by rcases hdir with ⟨rfl, _⟩ | ⟨rfl, _⟩ <;> simp
  obtain ⟨⟨w, rng⟩, hca⟩ := Vehicle.controlledAct_total hg r.rng act hv.target hr
  have hact : v.act G r act = .ok (w, rng) := by
    unfold Vehicle.act
    rcases hk with hk | hk <;> rw [hk]
    · exact hca
    · simp only
      unfold Vehicle.mdpAct
      cases act <;> first | exact hca | contradiction
  have hb := Vehicle.act_body hact
  obtain ⟨t0, route, t, ts, st, hwe, c1, c2, c3, c4, c5, c6, c7⟩ := Vehicle.controlledAct_ok hg hv.target hca
  have e0 : t0 = v.targetLane := by
    rcases c1 with ⟨c1, _⟩ | ⟨_, _, c1⟩
    · exact c1
    · rw [ht, hnet] at c1; exact absurd c1 (straightNet_no_edge n len _)
  have hdist : (4 * (k : ℝ) - 4 * j) ^ 2 = 16 := by
    rcases hdir with ⟨_, rfl⟩ | ⟨_, rfl⟩ <;> push_cast <;> ring
  have henter : CanEnter r.network "0" "1" (j : Int) v.pos := by
    refine ⟨j, straightLane len j, rfl, by rw [hnet]; exact straightNet_hasLane.2 ⟨rfl, rfl, hjn, rfl⟩, rfl, ?_⟩
    rw [straightLane_local hlen, straightLane_length hlen]
    refine ⟨?_, hx, hx'⟩
    rw [hy, show (straightLane len j).width = 4 from rfl]
    apply abs_le_of_sq_le_sq _ (by norm_num)
    rw [hdist]; norm_num
  have et : w.targetLane = ⟨"0", "1", (j : Int)⟩ := by
    rw [hwe]; simp only; rw [c6, e0, ht]
    rcases hdir with ⟨rfl, hj⟩ | ⟨rfl, hj⟩
    · unfold laneAfter
      simp only
      rw [show (k : Int) + 1 = (j : Int) by omega, if_pos henter]
    · unfold laneAfter
      simp only
      rw [show (k : Int) - 1 = (j : Int) by omega, if_pos henter]
  have hl : r.network.getLane ⟨"0", "1", (j : Int)⟩ = .ok (straightLane len j) := by rw [hnet]; exact straightNet_getLane hn hjn
  have hab : (⟨0, 4 * (j : ℝ)⟩ : Vec2) ≠ ⟨len, 4 * (j : ℝ)⟩ := by
    intro e; exact hlen.ne (congrArg Vec2.x e)
  have hE : laneError V ((straightLane len j).localCoordinates v.pos).2 (v.heading - (straightLane len j).headingAt 0) = 80 / V ^ 2 := by
    rw [straightLane_local hlen, straightLane_heading hlen, hh, hy]
    unfold laneError
    simp only [sub_self]
    rw [div_pow, hdist]; ring
  have h80 : 80 / V ^ 2 ≤ 9 / 25 := by
    rw [div_le_div_iff₀ (by positivity) (by norm_num)]; nlinarith
  -- the first step
  obtain ⟨i, hi⟩ := closest_ok_of_exists (straightNet_hasLane (len := len).2 ⟨rfl, rfl, hkn, rfl⟩) (w.move dt).pos (some (w.move dt).heading)
  rw [← hnet] at hi
  obtain ⟨li, hli⟩ := getLane_of_valid hg.toIsPyGraph (closest_spec hi)
  have hstep : ∃ u, w.step r.network r.recordHistory dt = .ok u := by
    unfold Vehicle.step Vehicle.onStateUpdate
    rw [hi]; simp only [bind, Except.bind]; rw [hli]; exact ⟨_, rfl⟩
  obtain ⟨u, hu⟩ := hstep
  have hm := Vehicle.step_mind hu
  obtain ⟨i', l', hist, hi', hl', e⟩ := Vehicle.step_ok hu
  obtain ⟨j1, j2, j3, j4, j5, j6⟩ := round_error hk hc hs (by linarith) hV' h0 h1 ha1 ha2 hca hb hu (by rw [et]; exact hl) rfl hab
    (by rw [hE]; exact h80)
  have j3 : u.speed = V := by rw [j3, hts]; ring
  have j4 := j4.trans hts
  have hut : u.targetLane = ⟨"0", "1", (j : Int)⟩ := j5.trans et
  have hau : Attached r.network u :=
    ⟨by rw [e]; exact closest_spec hi', by rw [e]; exact hl', by rw [hut, hnet]; exact straightNet_valid.2 ⟨rfl, rfl, by simp, by simpa using hjn⟩⟩
  have hku : u.kind = .controlled ∨ u.kind = .mdp := by rw [j1]; exact hk
  have hru : RouteExists r.network u.route := by
    rw [hm.route, hwe]; exact fun s hs => hr s (c4.subset hs)
  obtain ⟨v', hv'⟩ := cruise_ok G dt m { r with rng := rng } hg u hku hau hru
  have hEu : laneError V ((straightLane len j).localCoordinates u.pos).2 (u.heading - (straightLane len j).headingAt 0) ≤ 9 / 25 := by
    rw [hE] at j6
    have : 0 ≤ 80 / V ^ 2 := by positivity
    nlinarith
  obtain ⟨q1, q2, q3, q4⟩ := lane_keeping G dt V h0 h1 (by linarith) hV' m { r with rng := rng } hg u v' (straightLane len j) _ _ hku j2 j3 j4
    hau.target (by rw [hut]; exact hl) rfl hab
    (by rw [hut]; intro t ht; simp only at ht; rw [hnet] at ht; exact straightNet_no_edge n len t ht) hEu hv'
  have hy' : (v'.pos.y - 4 * j) ^ 2 ≤ 20 * (1 - dt) ^ (m + 1) := by
    have a1 := laneError_offset hVp ((straightLane len j).localCoordinates v'.pos).2 (v'.heading - (straightLane len j).headingAt 0)
    have a2 : laneError V ((straightLane len j).localCoordinates v'.pos).2 (v'.heading - (straightLane len j).headingAt 0) ≤
        (1 - dt) ^ m * ((1 - dt) * (80 / V ^ 2)) := by
      refine le_trans q1 (mul_le_mul_of_nonneg_left ?_ (pow_nonneg (by linarith) _))
      rw [← hE]; exact j6
    have a3 := le_trans a1 (mul_le_mul_of_nonneg_left a2 (by positivity))
    rw [straightLane_local hlen] at a3
    refine le_trans a3 (le_of_eq ?_)
    rw [pow_succ]
    field_simp
    ring
  refine ⟨w, rng, u, v', hact, hu, hv', q2.trans hut, q3, hy', fun hsmall => ?_⟩
  -- the lane recorded by the last step
  have hrec : ∀ (q : ℕ) (r' : Road) (z z' : Vehicle), r'.network = straightNet n len →
      (straightNet n len).getClosestLaneIndex z.pos (some z.heading) = .ok z.laneIndex →
      cruise G dt q r' z = .ok z' → (straightNet n len).getClosestLaneIndex z'.pos (some z'.heading) = .ok z'.laneIndex := by
    intro q
    induction q with
    | zero => intro r' z z' _ hz hc; cases hc; exact hz
    | succ q ih =>
      intro r' z z' hn' _ hc
      unfold cruise at hc
      obtain ⟨⟨w2, rng2⟩, hw2, hc⟩ := bind_ok hc
      obtain ⟨u2, hu2, hc⟩ := bind_ok hc
      refine ih { r' with rng := rng2 } u2 z' hn' ?_ hc
      rw [hn'] at hu2
      obtain ⟨i2, l2, hist2, hi2, hl2, e2⟩ := Vehicle.step_ok hu2
      have hli2 : u2.laneIndex = i2 := by rw [e2]
      rw [hli2]; exact hi2
  have hlu : u.laneIndex = i' := by rw [e]
  have hfin := hrec m { r with rng := rng } u v' hnet (by rw [← hnet, hlu]; exact hi') hv'
  have hnear : |v'.pos.y - 4 * j| < 2 := by
    apply abs_lt_of_sq_lt_sq _ (by norm_num)
    linarith
  rw [straightNet_closest_near hn hlen hjn _ hnear] at hfin
  exact (Except.ok.inj hfin).symm

/-- At 15 frames per second and 25 m/s on a four-lane road, 24 frames (1.6 s) after LANE_RIGHT the vehicle is on the next lane. -/
example (G : Globals) : ∃ w rng u v',
    ({ Sample.car 0 .mdp 10 4 25 with targetLane := ⟨"0", "1", 1⟩, laneIndex := ⟨"0", "1", 1⟩, lane := straightLane 1000 1 } : Vehicle).act G
      { network := straightNet 4 1000, rng := ⟨fun _ => 0, fun _ => 0, 0, 0⟩ } .laneRight = .ok (w, rng) ∧
    w.step (straightNet 4 1000) false (1 / 15) = .ok u ∧
    cruise G (1 / 15) 23 { network := straightNet 4 1000, rng := rng } u = .ok v' ∧
    v'.laneIndex = ⟨"0", "1", 2⟩ := by
  obtain ⟨w, rng, u, v', e1, e2, e3, _, _, _, e4⟩ := lane_change_completed G (1 / 15) 25 (by norm_num) (by norm_num) (by norm_num) (by norm_num) 23
    { network := straightNet 4 1000, rng := ⟨fun _ => 0, fun _ => 0, 0, 0⟩ } 4 1000 (by norm_num) rfl
    { Sample.car 0 .mdp 10 4 25 with targetLane := ⟨"0", "1", 1⟩, laneIndex := ⟨"0", "1", 1⟩, lane := straightLane 1000 1 } 1 2 .laneRight
    (.inl ⟨rfl, rfl⟩) (by norm_num) (by norm_num) (.inr rfl) rfl rfl rfl
    ⟨straightNet_valid.2 ⟨rfl, rfl, by simp, by simp⟩, straightNet_getLane (by norm_num) (by norm_num), straightNet_valid.2 ⟨rfl, rfl, by simp, by simp⟩⟩
    (by simp [RouteExists, Sample.car]) rfl (by simp [Sample.car]) (by simp [Sample.car]; norm_num) (by simp [Sample.car]) rfl
  exact ⟨w, rng, u, v', e1, e2, e3, e4 (by norm_num)⟩

/-- A vehicle changing lanes at 20 m/s while accelerating to 25 m/s. -/
example (G : Globals) (n : ℕ) : ∃ v', cruise G (1 / 15) n { network := straightNet 4 1000, rng := ⟨fun _ => 0, fun _ => 0, 0, 0⟩ }
      { Sample.car 0 .mdp 10 0 20 with targetSpeed := 25, targetLane := ⟨"0", "1", 1⟩, lane := straightLane 1000 0 } = .ok v' ∧
    laneError v'.speed (v'.pos.y - 4) v'.heading ≤ (74 / 75) ^ n * (1 / 5) ∧ v'.targetLane = ⟨"0", "1", 1⟩ := by
  have hw := straightNet_wf (n := 4) (by norm_num) 1000
  have hl : (straightNet 4 1000).getLane ⟨"0", "1", 1⟩ = .ok (straightLane 1000 1) := straightNet_getLane (k := 1) (by norm_num) (by norm_num)
  have hloc : ∀ p : Vec2, ((straightLane 1000 1).localCoordinates p).2 = p.y - 4 := by
    intro p; rw [straightLane_local (by norm_num)]; simp
  have hh : (straightLane 1000 1).headingAt 0 = 0 := straightLane_heading (by norm_num) 1 0
  have hT : ValidIndex (straightNet 4 1000) ⟨"0", "1", 1⟩ := straightNet_valid.2 ⟨rfl, rfl, by simp, by simp⟩
  obtain ⟨v', hv'⟩ := cruise_ok G (1 / 15) n { network := straightNet 4 1000, rng := ⟨fun _ => 0, fun _ => 0, 0, 0⟩ } hw
    { Sample.car 0 .mdp 10 0 20 with targetSpeed := 25, targetLane := ⟨"0", "1", 1⟩, lane := straightLane 1000 0 } (.inr rfl)
    ⟨straightNet_valid.2 ⟨rfl, rfl, by simp [Sample.car], by simp [Sample.car]⟩, straightNet_getLane (k := 0) (by norm_num) (by norm_num), hT⟩
    (by simp [RouteExists, Sample.car])
  obtain ⟨e1, _, _, e2, _⟩ := lane_keeping_varying G (1 / 15) (by norm_num) (by norm_num) n _ hw _ v' (straightLane 1000 1) _ _ (.inr rfl) rfl
    (by simp [Sample.car]; norm_num) (by simp [Sample.car]; norm_num) (by norm_num) (by norm_num) (by simp [Sample.car]; norm_num)
    (by simp [Sample.car]; norm_num) hT hl rfl (by intro e; have := congrArg Vec2.x e; simp at this)
    (fun t => straightNet_no_edge 4 1000 t) (by rw [hloc, hh]; simp [Sample.car, laneError]; norm_num) hv'
  rw [hloc, hloc, hh] at e1
  refine ⟨v', hv', ?_, e2⟩
  have e : (1 - 1 / 15 / 5 : ℝ) = 74 / 75 := by norm_num
  rw [e] at e1
  refine le_trans (by simpa using e1) (le_of_eq ?_)
  simp [Sample.car, laneError]; norm_num

/-- The region is not empty, and not reduced to the centre line: at 20 m/s it contains an aligned vehicle 5.3 m off, or a centred
vehicle turned by 0.6 rad. -/
example : laneError 20 (53 / 10) 0 ≤ 9 / 25 ∧ laneError 20 0 (6 / 10) ≤ 9 / 25 := by
  unfold laneError; norm_num


end HighwayEnv.Props
