import Verif.Props.LaneChange

/-!
# C77: speeds of traffic vehicles
-/

noncomputable section
open Classical
namespace HighwayEnv.Props
open HighwayEnv Spec

private theorem free_bound {a s T dt : ℝ} (ha : 0 ≤ a) (hT : 0 < T) (hs : s ≤ T) (h : 4 * a * dt ≤ T) (hdt : 0 ≤ dt) :
    0 ≤ a * (1 - (max s 0 / T) ^ 4) ∧ s + a * (1 - (max s 0 / T) ^ 4) * dt ≤ T := by
  rcases le_or_gt 0 s with h0 | h0
  · rw [max_eq_left h0]
    set x := s / T with hx
    have hx0 : 0 ≤ x := by positivity
    have hx1 : x ≤ 1 := (div_le_one hT).2 hs
    have hsx : s = x * T := by rw [hx]; field_simp
    have h4 : 1 - x ^ 4 ≤ 4 * (1 - x) := by nlinarith [sq_nonneg (x - 1), sq_nonneg (x ^ 2 - 1), sq_nonneg (x * (x - 1))]
    have h40 : 0 ≤ 1 - x ^ 4 := by
      have : x ^ 4 ≤ 1 := pow_le_one₀ hx0 hx1
      linarith
    refine ⟨by positivity, ?_⟩
    have h5 : a * (1 - x ^ 4) * dt ≤ a * (4 * (1 - x)) * dt := by
      apply mul_le_mul_of_nonneg_right _ hdt
      exact mul_le_mul_of_nonneg_left h4 ha
    have h6 : a * (4 * (1 - x)) * dt = (4 * a * dt) * (1 - x) := by ring
    have h7 : (4 * a * dt) * (1 - x) ≤ T * (1 - x) := mul_le_mul_of_nonneg_right h (by linarith)
    have h8 : T * (1 - x) = T - s := by rw [hsx]; ring
    linarith
  · rw [max_eq_right h0.le]
    have : a * dt ≤ T / 4 := by linarith
    constructor
    · simpa using ha
    · simp; linarith

/-- One decision followed by one step of a traffic vehicle of the non-linear class that has not crashed. -/
theorem decide_step {G : Globals} {dt : ℝ} (ha : 0 ≤ G.comfortAccMax .idm) (h0 : 0 ≤ dt) (h1 : dt ≤ 1 / 2)
    {r : Road} {v v' u : Vehicle} {a : VAction} {rng : Rng} (hk : v.kind = .idm) (hc : v.crashed = false)
    (ht : 1 / 100 < v.targetSpeed) (hd : 4 * G.comfortAccMax .idm * dt ≤ v.targetSpeed) (hs : v.speed ≤ v.targetSpeed)
    (hact : v.act G r a = .ok (v', rng)) {g : Graph} {rec : Bool} (hst : v'.step g rec dt = .ok u) :
    u.speed ≤ v.targetSpeed := by
  have hkI : v.kind.isIDM = true := by rw [hk]; rfl
  obtain ⟨_, lane, front, w, acc, _, _, hacc, ⟨_, _, w3, _, w5, w6, _⟩, e, _⟩ := traffic_command G r v v' a rng hkI hc hact
  have hb := Vehicle.act_body hact
  have hT : 0 < v.targetSpeed := by linarith
  have hlin : w.kind.isLinear = false := by rw [w5, hk]; rfl
  have hfree : acc ≤ G.comfortAccMax .idm * (1 - (max v.speed 0 / v.targetSpeed) ^ 4) := by
    have hok : Vehicle.accelerationOf G w (some (.veh w)) none = .ok (Vehicle.idmAcceleration G w.kind w none) := by
      unfold Vehicle.accelerationOf; rw [hlin]; rfl
    have hle : acc ≤ Vehicle.idmAcceleration G w.kind w none := by
      cases front with
      | none => rw [hacc] at hok; injection hok with h; exact h.le
      | some f => exact leader_slows G w w f _ _ hlin (by rw [w5, hk]; exact ha) hacc hok
    refine hle.trans_eq ?_
    have hnz : notZero v.targetSpeed = v.targetSpeed := by
      unfold notZero; rw [if_pos]; rw [abs_of_pos hT]; exact ht
    simp only [Vehicle.idmAcceleration, w6, w3, w5, hk, VKind.isControlled, if_true, hnz]
  obtain ⟨f0, f1⟩ := free_bound ha hT hs hd h0
  have hcl : v'.acceleration ≤ G.comfortAccMax .idm * (1 - (max v.speed 0 / v.targetSpeed) ^ 4) := by
    rw [e]
    exact (min_le_left _ _).trans (max_le hfree (by linarith))
  have hk' : v'.kind ≠ .bicycle := by rw [hb.kind, hk]; simp
  obtain ⟨_, _, hsp⟩ := step_kin hk' hst
  rw [hsp, hb.speed]
  have hmul : v'.acceleration * dt ≤ G.comfortAccMax .idm * (1 - (max v.speed 0 / v.targetSpeed) ^ 4) * dt :=
    mul_le_mul_of_nonneg_right hcl h0
  unfold executedAcceleration
  rw [hb.crashed, hc, hb.speed, hb.kind, hk]
  simp only [Bool.false_eq_true, if_false, VKind.maxSpeed]
  split_ifs with c1 c2
  · have : min v'.acceleration (40 - v.speed) * dt ≤ v'.acceleration * dt := mul_le_mul_of_nonneg_right (min_le_left _ _) h0
    linarith
  · rcases le_total v'.acceleration (40 - v.speed) with hm | hm
    · rw [max_eq_right hm]
      nlinarith
    · rw [max_eq_left hm]; linarith
  · linarith

/-- The state carried from frame to frame: uncrashed traffic of the non-linear class drives at most at its target speed. -/
private def Respects (G : Globals) (dt : ℝ) (v : Vehicle) : Prop :=
  v.kind = .idm → v.crashed = false → v.speed ≤ v.targetSpeed ∧ 1 / 100 < v.targetSpeed ∧
    4 * G.comfortAccMax .idm * dt ≤ v.targetSpeed

private theorem act_respects {G : Globals} {dt : ℝ} {r : Road} {v v' : Vehicle} {a : VAction} {rng : Rng}
    (hv : Respects G dt v) (h : v.act G r a = .ok (v', rng)) : Respects G dt v' := by
  intro hk hc
  have hb := Vehicle.act_body h
  rw [hb.kind] at hk
  rw [hb.crashed] at hc
  obtain ⟨_, _, _, _, _, _, _, _, _, _, ht⟩ := traffic_command G r v v' a rng (by rw [hk]; rfl) hc h
  rw [hb.speed, ht]
  exact hv hk hc

private theorem frame_respects {G : Globals} {dt : ℝ} (ha : 0 ≤ G.comfortAccMax .idm) (h0 : 0 ≤ dt) (h1 : dt ≤ 1 / 2)
    {r r' : Road} {cmds : List (ℕ × VAction)} (hreg : r.regulated = false) (hI : ∀ v ∈ r.vehicles, Respects G dt v)
    (h : frame G dt r cmds = .ok r') : r'.regulated = false ∧ ∀ v ∈ r'.vehicles, Respects G dt v := by
  unfold frame at h
  obtain ⟨r1, hr1, h⟩ := bind_ok h
  obtain ⟨r2, hr2, h⟩ := bind_ok h
  have p1 : r1.regulated = false ∧ ∀ v ∈ r1.vehicles, Respects G dt v := by
    refine Road.foldlM_inv (I := fun s : Road => s.regulated = false ∧ ∀ v ∈ s.vehicles, Respects G dt v) ?_ _ _ _ ⟨hreg, hI⟩ hr1
    rintro s c s' ⟨i1, i2⟩ hs
    refine ⟨(Road.actAt_frame hs).2.regulated.trans i1, ?_⟩
    unfold Road.actAt at hs
    split at hs
    · cases hs; exact i2
    · rename_i v hv
      obtain ⟨⟨w, rng⟩, hw, hs⟩ := bind_ok hs
      cases hs
      exact Road.forall_set i2 (act_respects (i2 v (List.mem_of_getElem? hv)) hw)
  have hreg2 : r2.regulated = false := (Road.act_frame hr2).2.regulated.trans p1.1
  have hacted := Road.act_acted hr2
  have hstep : r2.stepBase dt = .ok r' := by
    unfold Road.step at h
    rw [hreg2] at h
    exact h
  obtain ⟨hs, _, _, hreg3, _⟩ := Road.stepBase_frame hstep
  refine ⟨hreg3.trans hreg2, ?_⟩
  have hp := hacted.trans' (T := fun a c => ∃ b, Road.Acted G r1 a b ∧ Road.SteppedTo r2.network r2.recordHistory dt b c)
    (fun a b c x y => ⟨b, x, y⟩) hs
  refine hp.forall (P := Respects G dt) ?_ p1.2
  rintro v w ⟨u, ⟨s, rng, _, _, hact⟩, x, hx, sp, b, hbump, hle, hcr, heq⟩ hv hk hc
  have hb := Vehicle.act_body hact
  have hm := Vehicle.step_mind hx
  have hwk : w.kind = v.kind := by rw [hbump]; exact hm.kind.trans hb.kind
  have hwx : w = x := by
    rcases heq with h | ⟨_, h⟩
    · exact h
    · rw [hbump, Road.bump] at hc
      simp only at hc
      rw [h] at hc; cases hc
  have hcv : v.crashed = false := by rw [← hb.crashed, ← hm.crashed, ← hwx]; exact hc
  rw [hwk] at hk
  obtain ⟨b1, b2, b3⟩ := hv hk hcv
  obtain ⟨_, _, _, _, _, _, _, _, _, _, ht⟩ := traffic_command G s v u .none rng (by rw [hk]; rfl) hcv hact
  have htw : w.targetSpeed = v.targetSpeed := by rw [hwx, hm.targetSpeed, ht]
  rw [htw]
  refine ⟨?_, b2, b3⟩
  rw [hwx]
  exact decide_step ha h0 h1 hk hcv b2 b3 b1 hact hx

/-- On a road without regulation, whatever the other vehicles and the commands given to them, a traffic vehicle (non-linear class)
that starts at most at its target speed never exceeds it as long as it has not crashed, for any number of frames of duration `dt` with
`4·a·dt ≤ v0` (`a` the comfort acceleration, `v0` the target speed) and `dt ≤ 1/2`. -/
theorem traffic_never_speeds (G : Globals) (dt : ℝ) (ha : 0 ≤ G.comfortAccMax .idm) (h0 : 0 ≤ dt) (h1 : dt ≤ 1 / 2)
    (r r' : Road) (cmds : List (List (ℕ × VAction))) (hreg : r.regulated = false)
    (hI : ∀ v ∈ r.vehicles, v.kind = .idm → v.crashed = false →
      v.speed ≤ v.targetSpeed ∧ 1 / 100 < v.targetSpeed ∧ 4 * G.comfortAccMax .idm * dt ≤ v.targetSpeed)
    (h : frames G dt r cmds = .ok r') :
    ∀ v ∈ r'.vehicles, v.kind = .idm → v.crashed = false → v.speed ≤ v.targetSpeed := by
  have := Road.foldlM_inv (I := fun s : Road => s.regulated = false ∧ ∀ v ∈ s.vehicles, Respects G dt v) ?_ _ _ _ ⟨hreg, hI⟩ h
  · exact fun v hv hk hc => (this.2 v hv hk hc).1
  · rintro s c s' ⟨i1, i2⟩ hs
    exact frame_respects ha h0 h1 i1 i2 hs

/-- The hypotheses hold for the default parameters at 15 Hz and a target of 20 m/s. -/
example : (0 : ℝ) ≤ ({} : Globals).comfortAccMax .idm ∧ (1 / 15 : ℝ) ≤ 1 / 2 ∧
    (Sample.car 0 .idm 10 0 20).speed ≤ (Sample.car 0 .idm 10 0 20).targetSpeed ∧
    1 / 100 < (Sample.car 0 .idm 10 0 20).targetSpeed ∧
    4 * ({} : Globals).comfortAccMax .idm * (1 / 15) ≤ (Sample.car 0 .idm 10 0 20).targetSpeed := by
  norm_num [Sample.car]

/-- Traffic may drive backwards: a vehicle (non-linear class) at standstill closer to a stopped front entity than the wanted distance
gets a negative speed at the next frame, for every positive duration. -/
theorem traffic_reverses (G : Globals) (dt : ℝ) (ha : 0 < G.comfortAccMax .idm) (h0 : 0 < dt)
    (r : Road) (v v' u : Vehicle) (a : VAction) (rng : Rng) (hk : v.kind = .idm) (hc : v.crashed = false) (hs : v.speed = 0)
    (f : Entity) (rear : Option Entity) (hf : r.neighbourVehicles v = .ok (some f, rear))
    (hd0 : 1 / 100 < v.laneDistanceTo f.pos) (hd : v.laneDistanceTo f.pos < G.distanceWanted .idm)
    (hact : v.act G r a = .ok (v', rng)) (hst : v'.step r.network r.recordHistory dt = .ok u) : u.speed < 0 := by
  have hkI : v.kind.isIDM = true := by rw [hk]; rfl
  have hi := Vehicle.act_idm hkI hact
  obtain ⟨w, t, tm, st, acc, front, rear', h1, h2, h3, h4, rfl⟩ := Vehicle.idmAct_shape hc hi
  rw [hf] at h2
  cases h2
  obtain ⟨t1, ro, rfl⟩ := Vehicle.followRoad_shape h1
  dsimp only at h4 hst
  have hacc : acc < 0 := by
    unfold Vehicle.accelerationOf at h4
    rw [if_neg (by rw [hk]; simp [VKind.isLinear])] at h4
    injection h4 with h4
    rw [← h4]
    unfold Vehicle.idmAcceleration
    dsimp only
    have hgap : Vehicle.desiredGap G v.kind { v with targetLane := t, route := ro, timer := tm } f = G.distanceWanted .idm := by
      unfold Vehicle.desiredGap
      dsimp only
      rw [hs, hk]; ring
    have hdist : Vehicle.laneDistanceTo { v with targetLane := t, route := ro, timer := tm } f.pos = v.laneDistanceTo f.pos := rfl
    rw [hgap, hdist, hs, hk]
    have n1 : notZero (v.laneDistanceTo f.pos) = v.laneDistanceTo f.pos := by
      unfold notZero; rw [if_pos]; rw [abs_of_pos (by linarith)]; exact hd0
    rw [n1]
    have h1 : 1 < G.distanceWanted .idm / v.laneDistanceTo f.pos := (one_lt_div (by linarith)).2 hd
    have h2 : 1 < (G.distanceWanted .idm / v.laneDistanceTo f.pos) ^ 2 := one_lt_pow₀ h1 (by norm_num)
    simp only [max_self, zero_div]
    nlinarith
  obtain ⟨_, _, hsp⟩ := step_kin (by dsimp only; rw [hk]; simp) hst
  rw [hsp]
  unfold executedAcceleration
  dsimp only
  rw [hc, hs, hk]
  simp only [Bool.false_eq_true, if_false, VKind.maxSpeed]
  rw [if_neg (by norm_num), if_neg (by norm_num)]
  have : npClip acc (-6) 6 < 0 := by
    unfold npClip
    exact lt_of_le_of_lt (min_le_left _ _) (max_lt hacc (by norm_num))
  nlinarith

end HighwayEnv.Props
