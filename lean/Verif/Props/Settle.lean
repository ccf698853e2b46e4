import Verif.Props.Platoon
import Verif.Spec.Settle

/-!
# C110: traffic with nobody ahead settles at its target speed; a queue in equilibrium stays in equilibrium
-/

noncomputable section
open Classical
namespace HighwayEnv.Props
open HighwayEnv Spec Graph

namespace Settle

/-- Commands given to other vehicles do not change the vehicle at position `k`. -/
theorem commands_other {G : Globals} {k : ℕ} {cmds : List (ℕ × VAction)} {r r1 : Road}
    (h : cmds.foldlM (fun r c => r.actAt G c.2 c.1) r = .ok r1) (hc : ∀ c ∈ cmds, c.1 ≠ k) :
    Road.SameScene r r1 ∧ Pointwise SameBody r.vehicles r1.vehicles ∧ r1.vehicles[k]? = r.vehicles[k]? := by
  induction cmds generalizing r with
  | nil =>
    rw [List.foldlM_nil] at h; cases h
    exact ⟨⟨rfl, rfl, rfl, rfl, rfl⟩, .refl' SameBody.refl _, rfl⟩
  | cons c cs ih =>
    rw [List.foldlM_cons] at h
    obtain ⟨r2, h2, h⟩ := bind_ok h
    obtain ⟨i1, i2, i3⟩ := ih h (fun c' hc' => hc c' (by simp [hc']))
    obtain ⟨f1, f2⟩ := Road.actAt_frame h2
    refine ⟨f2.trans i1, Pointwise.comp (R := SameBody) SameBody.trans f1 i2, i3.trans ?_⟩
    unfold Road.actAt at h2
    split at h2
    · cases h2; rfl
    · obtain ⟨⟨w, rng⟩, _, h2⟩ := bind_ok h2
      cases h2
      exact List.getElem?_set_ne (hc c (by simp))

/-- What a frame does to a vehicle that receives no command, on a road without regulation. -/
theorem frame_vehicle {G : Globals} {dt : ℝ} {k : ℕ} {cmds : List (ℕ × VAction)} {r r' : Road} (hreg : r.regulated = false)
    (hc : ∀ c ∈ cmds, c.1 ≠ k) (h : frame G dt r cmds = .ok r') {v : Vehicle} (hv : r.vehicles[k]? = some v) :
    r'.regulated = false ∧ ∃ s v' rng rec u w, Road.SameScene r s ∧ Pointwise SameBody r.vehicles s.vehicles ∧
      v.act G s .none = .ok (v', rng) ∧ v'.step r.network rec dt = .ok u ∧ r'.vehicles[k]? = some w ∧ (w = u ∨ w.crashed = true) := by
  unfold frame at h
  obtain ⟨r1, h1, h⟩ := bind_ok h
  obtain ⟨r2, h2, h⟩ := bind_ok h
  obtain ⟨c1, c2, c3⟩ := commands_other h1 hc
  have a1 := (Road.act_frame h2).2
  have a2 := Road.act_acted h2
  have s2 := c1.trans a1
  have hstep : r2.stepBase dt = .ok r' := by
    unfold Road.step at h
    rw [s2.regulated, hreg] at h
    exact h
  obtain ⟨_, _, _, b4, _, _, _⟩ := Road.stepBase_frame hstep
  refine ⟨b4.trans (s2.regulated.trans hreg), ?_⟩
  unfold Road.stepBase at hstep
  obtain ⟨r3, h3, hstep⟩ := bind_ok hstep
  unfold Road.moveAll at h3
  obtain ⟨moved, h4, h3⟩ := bind_ok h3
  cases h3
  cases hstep
  have hp := mapM_pointwise h4
  have hv1 : r1.vehicles[k]? = some v := by rw [c3]; exact hv
  obtain ⟨v', hv', s, rng, hs, hb, hact⟩ := a2.2 k v hv1
  obtain ⟨u, hu, hst⟩ := hp.2 k v' hv'
  obtain ⟨w, hw, sp, b, e, _, _, hcase⟩ := (Road.collidePass_evolves moved r2.objects).1.2 k u hu
  refine ⟨s, v', rng, _, u, w, c1.trans hs, Pointwise.comp (R := SameBody) SameBody.trans c2 hb, hact,
      by rw [← s2.network]; exact hst, hw, ?_⟩
  rcases hcase with rfl | ⟨_, hb⟩
  · exact .inl rfl
  · right; rw [e]; exact hb

/-- "Nobody ahead" is the same before and during the decisions of a frame. -/
theorem nobody_ahead {r s : Road} (hs : Road.SameScene r s) (hb : Pointwise SameBody r.vehicles s.vehicles) {v : Vehicle}
    {b f b' : Option Entity} (h : r.neighbourVehicles v = .ok (none, b)) (h' : s.neighbourVehicles v = .ok (f, b')) : f = none := by
  obtain ⟨lane, hl, hn, _⟩ := neighbours_sound _ _ _ _ _ h
  obtain ⟨lane', hl', hn', _⟩ := neighbours_sound _ _ _ _ _ h'
  rw [hs.network, hl] at hl'; cases hl'
  refine hn'.1.2 fun e he hq => ?_
  rw [hs.objects] at he
  rcases List.mem_append.1 he with he | he
  · obtain ⟨z, hz, rfl⟩ := List.mem_map.1 he
    obtain ⟨j, hj⟩ := List.getElem?_of_mem hz
    obtain ⟨z0, hz0⟩ : ∃ z0, r.vehicles[j]? = some z0 :=
      ⟨_, List.getElem?_eq_getElem (by rw [← hb.1]; exact (List.getElem?_eq_some_iff.1 hj).1)⟩
    obtain ⟨z', hz', hbz⟩ := hb.2 j z0 hz0
    rw [hj] at hz'; cases hz'
    have := hn.1.1 rfl (.veh z0) (List.mem_append_left _ (List.mem_map_of_mem (List.mem_of_getElem? hz0)))
    have hq' : OnQueriedLane lane v.uid (.veh z0) := by
      obtain ⟨q1, q2, q3, q4, q5⟩ := hq
      unfold along at q4 q5
      simp only [Entity.uid, Entity.pos] at q1 q3 q4 q5
      rw [hbz.uid] at q1
      rw [hbz.pos] at q3 q4 q5
      exact ⟨q1, rfl, q3, q4, q5⟩
    have h3 := this hq'
    unfold along at h3 ⊢
    simp only [Entity.pos] at h3 ⊢
    rw [hbz.pos]; exact h3
  · exact hn.1.1 rfl e (List.mem_append_right _ he) hq

theorem clipBase_params (v : Vehicle) : v.clipActionsBase.accParams = v.accParams := by
  have h : ∀ w : Vehicle, (if w.speed > w.kind.maxSpeed then
      { w with acceleration := min w.acceleration (w.kind.maxSpeed - w.speed) }
    else if w.speed < -w.kind.maxSpeed then
      { w with acceleration := max w.acceleration (w.kind.maxSpeed - w.speed) }
    else w).accParams = w.accParams := by
    intro w
    rw [apply_ite Vehicle.accParams, apply_ite Vehicle.accParams, ite_self, ite_self]
  refine (h _).trans ?_
  rw [apply_ite Vehicle.accParams, ite_self]

theorem clip_params (v : Vehicle) : v.clipActions.accParams = v.accParams := by
  refine Eq.trans ?_ (clipBase_params v)
  unfold Vehicle.clipActions
  generalize v.clipActionsBase = w
  dsimp only
  rw [apply_ite Vehicle.accParams, ite_self]

theorem move_params (v : Vehicle) (dt : ℝ) : (v.move dt).accParams = v.accParams := by
  have h : (if v.kind.isIDM then { v with timer := v.timer + dt } else v).accParams = v.accParams := by
    rw [apply_ite Vehicle.accParams, ite_self]
  refine Eq.trans ?_ ((clip_params _).trans h)
  unfold Vehicle.move
  dsimp only
  generalize Vehicle.clipActions _ = w
  rw [apply_ite Vehicle.accParams]
  exact ite_self _

/-- Moving does not change the parameters of a vehicle. -/
theorem step_params {g : Graph} {rec : Bool} {dt : ℝ} {v u : Vehicle} (h : v.step g rec dt = .ok u) : u.accParams = v.accParams := by
  obtain ⟨j, l, hist, _, _, rfl⟩ := Vehicle.step_ok h
  exact move_params v dt

/-- The acceleration a traffic vehicle decides when nobody is ahead. -/
def freeAcc (G : Globals) (v : Vehicle) : ℝ :=
  if v.kind.isLinear then v.accParams.1 * (v.targetSpeed - v.speed)
  else G.comfortAccMax v.kind * (1 - (max v.speed 0 / notZero v.targetSpeed) ^ 4)

theorem free_acc {G : Globals} {v w : Vehicle} {acc : ℝ} (hctl : v.kind.isControlled = true)
    (hw : w.kind = v.kind ∧ w.targetSpeed = v.targetSpeed ∧ w.accParams = v.accParams ∧ w.speed = v.speed)
    (hacc : Vehicle.accelerationOf G w (some (.veh w)) none = .ok acc) : acc = freeAcc G v := by
  obtain ⟨e1, e2, e3, e4⟩ := hw
  unfold Vehicle.accelerationOf at hacc
  unfold freeAcc
  dsimp only at hacc
  rw [e1] at hacc
  by_cases hl : v.kind.isLinear = true
  · rw [if_pos hl, if_pos hctl] at hacc
    rw [if_pos hl]
    injection hacc with hacc
    rw [← hacc]
    simp [Vehicle.accelerationFeatures, e2, e3, e4]
  · rw [if_neg hl] at hacc
    rw [if_neg hl]
    injection hacc with hacc
    rw [← hacc]
    simp [Vehicle.idmAcceleration, e1, hctl, e2, e4]

/-- The decision of a traffic vehicle with nobody ahead. -/
theorem free_decision {G : Globals} {r s : Road} (hs : Road.SameScene r s) (hb : Pointwise SameBody r.vehicles s.vehicles)
    {v v' : Vehicle} {rng : Rng} (hk : v.kind.isIDM = true) (hcr : v.crashed = false) {b : Option Entity}
    (hfree : r.neighbourVehicles v = .ok (none, b)) (hact : v.act G s .none = .ok (v', rng)) :
    v'.targetSpeed = v.targetSpeed ∧ v'.accParams = v.accParams ∧ v'.acceleration = npClip (freeAcc G v) (-6) 6 := by
  have hctl : v.kind.isControlled = true := by revert hk; cases v.kind <;> simp [VKind.isIDM, VKind.isControlled]
  have hi := Vehicle.act_idm hk hact
  unfold Vehicle.idmAct at hi
  rw [if_neg (by simp [hcr])] at hi
  obtain ⟨⟨front, rear⟩, hf, hi⟩ := bind_ok hi
  have hnone := nobody_ahead hs hb hfree hf
  subst hnone
  obtain ⟨⟨w1, rng1⟩, hw1, hi⟩ := bind_ok hi
  obtain ⟨w2, hw2, hi⟩ := bind_ok hi
  obtain ⟨st, hst3, hi⟩ := bind_ok hi
  obtain ⟨acc, hacc, hi⟩ := bind_ok hi
  have f1 : ∃ t route, w1 = { v with targetLane := t, route := route } := by
    unfold Vehicle.followRoad at hw1
    obtain ⟨l, hl, hw1⟩ := bind_ok hw1
    split at hw1
    · obtain ⟨⟨i, route, rng2⟩, hn, hw1⟩ := bind_ok hw1
      cases hw1
      exact ⟨_, _, rfl⟩
    · cases hw1
      exact ⟨v.targetLane, v.route, rfl⟩
  obtain ⟨t1, ro, e1⟩ := f1
  obtain ⟨t, tm, e, _⟩ := Vehicle.maybeChangeLane_shape hw2
  have g : w2.kind = v.kind ∧ w2.targetSpeed = v.targetSpeed ∧ w2.accParams = v.accParams ∧ w2.speed = v.speed := by
    rw [e, e1]; exact ⟨rfl, rfl, rfl, rfl⟩
  have ha := free_acc hctl g hacc
  have e2 := congrArg Prod.fst (Except.ok.inj hi)
  dsimp only at e2
  rw [← e2, ← ha]
  exact ⟨g.2.1, g.2.2.1, rfl⟩

/-- One frame of a traffic vehicle with nobody ahead. -/
theorem free_frame {G : Globals} {dt : ℝ} {k : ℕ} {cmds : List (ℕ × VAction)} {r r' : Road} (hreg : r.regulated = false)
    (hc : ∀ c ∈ cmds, c.1 ≠ k) (h : frame G dt r cmds = .ok r') {v w : Vehicle} (hv : r.vehicles[k]? = some v) (hw : r'.vehicles[k]? = some w)
    (hk : v.kind.isIDM = true) (hcr : v.crashed = false) (hcw : w.crashed = false) (hsp : |v.speed| ≤ 40)
    {b : Option Entity} (hfree : r.neighbourVehicles v = .ok (none, b)) :
    r'.regulated = false ∧ w.kind = v.kind ∧ w.targetSpeed = v.targetSpeed ∧ w.accParams = v.accParams ∧
    w.speed = v.speed + npClip (freeAcc G v) (-6) 6 * dt := by
  obtain ⟨hreg', s, v', rng, rec, u, w', hs, hb, hact, hst, hw', hcase⟩ := frame_vehicle hreg hc h hv
  rw [hw] at hw'; cases hw'
  obtain rfl : w = u := by
    rcases hcase with e | e
    · exact e
    · rw [hcw] at e; cases e
  have hbody := Vehicle.act_body hact
  have hm := Vehicle.step_mind hst
  have hkb : v.kind ≠ .bicycle := by intro e; rw [e] at hk; simp [VKind.isIDM] at hk
  obtain ⟨d1, d2, d3⟩ := free_decision hs hb hk hcr hfree hact
  obtain ⟨_, _, k3⟩ := step_kin (by rw [hbody.kind]; exact hkb) hst
  refine ⟨hreg', hm.kind.trans hbody.kind, hm.targetSpeed.trans d1, (step_params hst).trans d2, ?_⟩
  rw [k3, hbody.speed]
  unfold executedAcceleration
  have hmax : v.kind.maxSpeed = 40 := by revert hkb; cases v.kind <;> simp [VKind.maxSpeed]
  obtain ⟨a1, a2⟩ := abs_le.1 hsp
  rw [hbody.crashed, hcr, hbody.kind, hmax, hbody.speed, d3]
  simp only [Bool.false_eq_true, if_false]
  rw [if_neg (by linarith), if_neg (by linarith)]

/-- One frame of a free ride. -/
theorem ride {G : Globals} {dt : ℝ} {k : ℕ} {s : ℕ → Road} {cmds : ℕ → List (ℕ × VAction)} {n : ℕ} {v : ℕ → Vehicle}
    (h : FreeRide G dt k s cmds n v) (hk : (v 0).kind.isIDM = true) {I : ℝ → Prop} (hI : I (v 0).speed) (h40 : ∀ x, I x → |x| ≤ 40)
    (hstep : ∀ t < n, ∀ w : Vehicle, w.kind = (v 0).kind → w.targetSpeed = (v 0).targetSpeed → w.accParams = (v 0).accParams → I w.speed →
      I (w.speed + npClip (freeAcc G w) (-6) 6 * dt)) :
    ∀ t ≤ n, I (v t).speed ∧ (v t).kind = (v 0).kind ∧ (v t).targetSpeed = (v 0).targetSpeed ∧ (v t).accParams = (v 0).accParams ∧
      (s t).regulated = false ∧ ∀ t' < t, (v (t' + 1)).speed = (v t').speed + npClip (freeAcc G (v t')) (-6) 6 * dt := by
  intro t ht
  induction t with
  | zero => exact ⟨hI, rfl, rfl, rfl, h.unregulated, fun t' h' => absurd h' (by omega)⟩
  | succ t ih =>
    obtain ⟨i1, i2, i3, i4, i5, i6⟩ := ih (by omega)
    obtain ⟨b, hb⟩ := h.nobodyAhead t (by omega)
    obtain ⟨f1, f2, f3, f4, f5⟩ := free_frame i5 (h.notCommanded t (by omega)) (h.run t (by omega)) (h.car t (by omega)) (h.car (t + 1) ht)
      (by rw [i2]; exact hk) (h.sound t (by omega)) (h.sound (t + 1) ht) (h40 _ i1) hb
    refine ⟨by rw [f5]; exact hstep t (by omega) _ i2 i3 i4 i1, f2.trans i2, f3.trans i3, f4.trans i4, f1, fun t' h' => ?_⟩
    rcases Nat.lt_succ_iff_lt_or_eq.1 h' with h' | rfl
    · exact i6 t' h'
    · exact f5

/-- Below the target: the acceleration, the remaining error, and its decrease. -/
theorem below_math {a x T dt M : ℝ} (ha : 0 < a) (hT : 0 < T) (hs : x ≤ T) (hM : T ≤ M) (hM' : T - x ≤ M) (h : 4 * a * dt ≤ T) (hdt : 0 ≤ dt) :
    0 ≤ a * (1 - (max x 0 / T) ^ 4) ∧ a * (1 - (max x 0 / T) ^ 4) ≤ a ∧ x + a * (1 - (max x 0 / T) ^ 4) * dt ≤ T ∧
    T - (x + a * (1 - (max x 0 / T) ^ 4) * dt) ≤ (1 - a * dt / M) * (T - x) := by
  have hMp : 0 < M := hT.trans_le hM
  rcases le_or_gt 0 x with h0 | h0
  · rw [max_eq_left h0]
    set y := x / T with hx
    have hy0 : 0 ≤ y := by positivity
    have hy1 : y ≤ 1 := (div_le_one hT).2 hs
    have hxy : x = y * T := by rw [hx]; field_simp
    have h4 : 1 - y ^ 4 ≤ 4 * (1 - y) := by nlinarith [sq_nonneg (y - 1), sq_nonneg (y ^ 2 - 1), sq_nonneg (y * (y - 1))]
    have hp4 : y ^ 4 ≤ y := by
      have : y ^ 4 ≤ y ^ 1 := pow_le_pow_of_le_one hy0 hy1 (by norm_num)
      simpa using this
    have hn4 : 0 ≤ y ^ 4 := by positivity
    have had : 0 ≤ a * dt := by positivity
    refine ⟨mul_nonneg ha.le (by linarith), by nlinarith, ?_, ?_⟩
    · have h7 : (4 * a * dt) * (1 - y) ≤ T * (1 - y) := mul_le_mul_of_nonneg_right h (by linarith)
      have h8 : T * (1 - y) = T - x := by rw [hxy]; ring
      nlinarith
    · have e1 : a * dt / M * (T - x) ≤ a * dt * (1 - y) := by
        have : a * dt / M * (T - x) = a * dt * (1 - y) * (T / M) := by rw [hxy]; field_simp
        rw [this]
        have h9 : T / M ≤ 1 := (div_le_one hMp).2 hM
        have h10 : 0 ≤ a * dt * (1 - y) := mul_nonneg had (by linarith)
        nlinarith
      nlinarith
  · rw [max_eq_right h0.le]
    simp only [zero_div, ne_eq, OfNat.ofNat_ne_zero, not_false_eq_true, zero_pow, sub_zero, mul_one]
    refine ⟨ha.le, le_rfl, by linarith, ?_⟩
    have e1 : a * dt / M * (T - x) ≤ a * dt := by
      have h9 : (T - x) / M ≤ 1 := (div_le_one hMp).2 hM'
      have : a * dt / M * (T - x) = a * dt * ((T - x) / M) := by field_simp
      rw [this]
      nlinarith [mul_nonneg ha.le hdt]
    linarith

/-- Above the target. -/
theorem above_math {a x T dt E : ℝ} (ha : 0 < a) (hT : 0 < T) (hs : T ≤ x) (hE : 0 < E) (hE' : x - T ≤ E)
    (h : dt * a * ((x + T) * (x ^ 2 + T ^ 2)) ≤ T ^ 4) (hdt : 0 ≤ dt) :
    T ≤ x + npClip (a * (1 - (max x 0 / T) ^ 4)) (-6) 6 * dt ∧
    x + npClip (a * (1 - (max x 0 / T) ^ 4)) (-6) 6 * dt - T ≤ (1 - dt * min (4 * a / T) (6 / E)) * (x - T) := by
  have hx0 : 0 ≤ x := hT.le.trans hs
  rw [max_eq_left hx0]
  have e1 : a * (1 - (x / T) ^ 4) = - (a * ((x + T) * (x ^ 2 + T ^ 2)) / T ^ 4 * (x - T)) := by field_simp; ring
  set q := a * ((x + T) * (x ^ 2 + T ^ 2)) / T ^ 4 with hq
  have hq0 : 0 ≤ q := by positivity
  have hq1 : dt * q ≤ 1 := by
    rw [hq]
    have : dt * (a * ((x + T) * (x ^ 2 + T ^ 2)) / T ^ 4) = dt * a * ((x + T) * (x ^ 2 + T ^ 2)) / T ^ 4 := by ring
    rw [this]
    exact (div_le_one (by positivity)).2 h
  have hq4 : 4 * a / T ≤ q := by
    rw [hq, div_le_div_iff₀ hT (by positivity)]
    have : 4 * T ^ 3 ≤ (x + T) * (x ^ 2 + T ^ 2) := by
      have h1 : 2 * T ≤ x + T := by linarith
      have h2 : 2 * T ^ 2 ≤ x ^ 2 + T ^ 2 := by nlinarith
      calc 4 * T ^ 3 = (2 * T) * (2 * T ^ 2) := by ring
        _ ≤ _ := mul_le_mul h1 h2 (by positivity) (by linarith)
    calc 4 * a * T ^ 4 = a * T * (4 * T ^ 3) := by ring
      _ ≤ a * T * ((x + T) * (x ^ 2 + T ^ 2)) := mul_le_mul_of_nonneg_left this (by positivity)
      _ = _ := by ring
  rw [e1]
  have he0 : 0 ≤ x - T := by linarith
  have hcl : npClip (-(q * (x - T))) (-6) 6 = - min (q * (x - T)) 6 := by
    unfold npClip
    rw [max_neg_neg]
    exact min_eq_left (by have : 0 ≤ min (q * (x - T)) 6 := le_min (by positivity) (by norm_num)
                          linarith)
  rw [hcl]
  set m := min (q * (x - T)) 6 with hm
  have hmq : m ≤ q * (x - T) := min_le_left _ _
  have hlow : min (4 * a / T) (6 / E) * (x - T) ≤ m := by
    refine le_min ?_ ?_
    · exact mul_le_mul_of_nonneg_right ((min_le_left _ _).trans hq4) he0
    · calc min (4 * a / T) (6 / E) * (x - T) ≤ 6 / E * E :=
            mul_le_mul (min_le_right _ _) hE' he0 (by positivity)
        _ = 6 := by field_simp
  constructor
  · have : dt * m ≤ 1 * (x - T) := by
      calc dt * m ≤ dt * (q * (x - T)) := mul_le_mul_of_nonneg_left hmq hdt
        _ = dt * q * (x - T) := by ring
        _ ≤ _ := mul_le_mul_of_nonneg_right hq1 he0
    linarith
  · have := mul_le_mul_of_nonneg_left hlow hdt
    nlinarith

/-- A traffic vehicle that receives no command keeps its target speed. -/
theorem idm_target {G : Globals} {s : Road} {v v' : Vehicle} {rng : Rng} (hk : v.kind.isIDM = true) (hcr : v.crashed = false)
    (hact : v.act G s .none = .ok (v', rng)) : v'.targetSpeed = v.targetSpeed := by
  have hi := Vehicle.act_idm hk hact
  unfold Vehicle.idmAct at hi
  rw [if_neg (by simp [hcr])] at hi
  obtain ⟨⟨front, rear⟩, hf, hi⟩ := bind_ok hi
  obtain ⟨⟨w1, rng1⟩, hw1, hi⟩ := bind_ok hi
  obtain ⟨w2, hw2, hi⟩ := bind_ok hi
  obtain ⟨st, hst3, hi⟩ := bind_ok hi
  obtain ⟨acc, hacc, hi⟩ := bind_ok hi
  have f1 : ∃ t route, w1 = { v with targetLane := t, route := route } := by
    unfold Vehicle.followRoad at hw1
    obtain ⟨l, hl, hw1⟩ := bind_ok hw1
    split at hw1
    · obtain ⟨⟨i, route, rng2⟩, hn, hw1⟩ := bind_ok hw1
      cases hw1
      exact ⟨_, _, rfl⟩
    · cases hw1
      exact ⟨v.targetLane, v.route, rfl⟩
  obtain ⟨t1, ro, e1⟩ := f1
  obtain ⟨t, tm, e, _⟩ := Vehicle.maybeChangeLane_shape hw2
  have g : w2.targetSpeed = v.targetSpeed := by rw [e, e1]
  have e2 := congrArg Prod.fst (Except.ok.inj hi)
  dsimp only at e2
  rw [← e2]
  exact g

theorem alone_list {α : Type} {xs : List α} {x : α} (hl : xs.length = 1) (h : xs[0]? = some x) : xs = [x] := by
  match xs, hl, h with
  | [y], _, h => simpa using h

/-- A vehicle alone on a road without objects stays alone and does not crash. -/
theorem alone_frame {G : Globals} {dt : ℝ} {r r' : Road} (hreg : r.regulated = false) (hobj : r.objects = []) {v : Vehicle} (hv : r.vehicles = [v])
    (hcr : v.crashed = false) (h : frame G dt r [] = .ok r') : r'.regulated = false ∧ r'.objects = [] ∧ ∃ w, r'.vehicles = [w] ∧ w.crashed = false := by
  unfold frame at h
  obtain ⟨r1, h1, hmid⟩ := bind_ok h
  obtain ⟨r2, h2, h3⟩ := bind_ok hmid
  clear h hmid
  have h := h3
  clear h3
  obtain rfl : r = r1 := Except.ok.inj h1
  have a1 := (Road.act_frame h2).2
  have a2 := Road.act_acted h2
  have hstep : r2.stepBase dt = .ok r' := by
    unfold Road.step at h
    rw [a1.regulated, hreg] at h
    exact h
  have hobj2 : r2.objects = [] := a1.objects.trans hobj
  obtain ⟨_, b2, _, b4, _, _, b7⟩ := Road.stepBase_frame hstep
  have hobj' : r'.objects = [] := by
    rw [hobj2] at b7; exact List.forall₂_nil_left_iff.1 b7
  refine ⟨b4.trans (a1.regulated.trans hreg), hobj', ?_⟩
  unfold Road.stepBase at hstep
  obtain ⟨r3, h3, hstep⟩ := bind_ok hstep
  unfold Road.moveAll at h3
  obtain ⟨moved, h4, h3⟩ := bind_ok h3
  cases h3
  cases hstep
  have hp := mapM_pointwise h4
  obtain ⟨v', hv', s, rng, _, _, hact⟩ := a2.2 0 v (by rw [hv]; rfl)
  obtain ⟨u, hu, hst⟩ := hp.2 0 v' hv'
  have hlen : moved.length = 1 := hp.1.trans (a2.1.trans (by rw [hv]; rfl))
  have hm : moved = [u] := by
    exact alone_list hlen hu
  have hev := (Road.collidePass_evolves moved r2.objects).1
  obtain ⟨w, hw, _, _, _, _, _, hcase⟩ := hev.2 0 u hu
  have hwu : w = u := by
    rcases hcase with e | ⟨⟨v2, _, _, hcause⟩, _⟩
    · exact e
    · rcases hcause with ⟨j, w2, hj, hw2, _⟩ | ⟨o, ho, _⟩
      · rw [hm] at hw2
        obtain ⟨k, rfl⟩ : ∃ k, j = k + 1 := ⟨j - 1, by omega⟩
        simp at hw2
      · rw [hobj2] at ho; simp at ho
  refine ⟨w, ?_, ?_⟩
  · have hl : (Road.collidePass moved r2.objects).1.length = 1 := hev.1.trans hlen
    change (Road.collidePass moved r2.objects).1 = [w]
    exact alone_list hl hw
  · rw [hwu, (Vehicle.step_mind hst).crashed, (Vehicle.act_body hact).crashed, hcr]


variable {i : LaneIndex} {l : Lane}

/-- The acceleration behind a vehicle of the same speed. -/
theorem acc_eq {G : Globals} (hG : G.comfortAccMax .idm = 3 ∧ G.comfortAccMin .idm = -5 ∧ G.distanceWanted .idm = 10)
    {v w : Vehicle} (hk : v.kind = .idm) (hv : OnMiddle i l v) (hw : OnMiddle i l w) (hd : 5 < station l w - station l v)
    (hsame : w.speed = v.speed) (hfwd : 0 ≤ v.speed) (hT : 1 / 100 < v.targetSpeed) :
    Vehicle.idmAcceleration G v.kind v (some (.veh w)) =
      3 * (1 - (v.speed / v.targetSpeed) ^ 4) - 3 * ((10 + 3 / 2 * v.speed) / (station l w - station l v)) ^ 2 := by
  obtain ⟨g1, g2, g3⟩ := hG
  have hdist : v.laneDistanceTo w.pos = station l w - station l v := by
    unfold Vehicle.laneDistanceTo station; rw [hv.lane]
  have hgap : Vehicle.desiredGap G v.kind v (.veh w) = 10 + 3 / 2 * v.speed := by
    unfold Vehicle.desiredGap
    dsimp only
    rw [hk, g1, g2, g3]
    have e1 : (v.velocity - Entity.velocity (.veh w)).dot v.direction = 0 := by
      have hh : w.heading = v.heading := by rw [hv.heading, hw.heading]
      simp only [Entity.velocity, Vehicle.velocity, Vehicle.direction, hh, hsame, Vec2.dot, Vec2.sub_x, Vec2.sub_y, Vec2.smul_x, Vec2.smul_y, Vec2.dir]
      ring
    rw [e1]
    have e3 : Vehicle.timeWanted .idm = 3 / 2 := by simp [Vehicle.timeWanted, VKind.isLinear]
    rw [e3]
    ring
  have hnz : notZero (station l w - station l v) = station l w - station l v := by
    unfold notZero; rw [if_pos]; rw [abs_of_pos (by linarith)]; linarith
  have hnT : notZero v.targetSpeed = v.targetSpeed := by
    unfold notZero; rw [if_pos]; rw [abs_of_pos (by linarith)]; exact hT
  unfold Vehicle.idmAcceleration
  dsimp only [Entity.pos]
  rw [hgap, hdist, hnz, hk, g1, if_pos (by rfl), hnT, max_eq_left hfwd]

/-- The induction: `L` is what is known about the first vehicle. -/
theorem queue_core {G : Globals} {dt : ℝ} (hG : G.comfortAccMax .idm = 3 ∧ G.comfortAccMin .idm = -5 ∧ G.distanceWanted .idm = 10)
    (h0 : 0 < dt) (h1 : dt ≤ 1 / 10) {s : ℕ → Road} {cmds : ℕ → List (ℕ × VAction)} {n : ℕ} {V : ℝ} (hV : 0 ≤ V)
    {L : Vehicle → Prop}
    (hrun : ∀ t < n, frame G dt (s t) (cmds t) = .ok (s (t + 1))) (hcmd : ∀ t < n, ∀ c ∈ cmds t, c.1 = 0)
    (hroad : SingleLane (s 0) i l) (hids : ((s 0).vehicles.map Vehicle.uid).Nodup)
    (hon : ∀ v, (s 0).vehicles[0]? = some v → OnMiddle i l v)
    (hdrive : ∀ (k : ℕ) (v : Vehicle), 0 < k → (s 0).vehicles[k]? = some v → DrivesOn dt i l v)
    (hsound : ∀ v ∈ (s 0).vehicles, v.crashed = false) (hspeed : ∀ v ∈ (s 0).vehicles, v.speed = V)
    (hbalance : ∀ (k : ℕ) (w v : Vehicle), (s 0).vehicles[k]? = some w → (s 0).vehicles[k + 1]? = some v → station l v < station l w ∧
      InBalance V v.targetSpeed (station l w - station l v))
    (hL : ∀ v, (s 0).vehicles[0]? = some v → L v)
    (hlead : ∀ t < n, Platoon.Queue dt i l (s t) → ∀ v v', (s t).vehicles[0]? = some v → (s (t + 1)).vehicles[0]? = some v' → L v → v.speed = V →
      OnMiddle i l v' ∧ station l v' = station l v + v.speed * dt ∧ (v'.crashed = false → v'.speed = V ∧ L v'))
    (hstart : ∀ v ∈ (s 0).vehicles, -5 ≤ station l v) (hend : ∀ v ∈ (s 0).vehicles, station l v + n * (V * dt) < l.length + 5) :
    (s n).vehicles.length = (s 0).vehicles.length ∧
    ∀ (k : ℕ) (v v' : Vehicle), (s 0).vehicles[k]? = some v → (s n).vehicles[k]? = some v' →
      v'.speed = V ∧ v'.crashed = false ∧ station l v' = station l v + n * (V * dt) := by
  have hdist : ∀ (k : ℕ) (w v : Vehicle), (s 0).vehicles[k]? = some w → (s 0).vehicles[k + 1]? = some v → 10 + 3 / 2 * V ≤ station l w - station l v := by
    intro k w v hw hv
    obtain ⟨b1, b2⟩ := hbalance k w v hw hv
    unfold InBalance at b2
    have hd : 0 < station l w - station l v := by linarith
    have h4 : 0 ≤ (V / v.targetSpeed) ^ 4 := by positivity
    have h5 : (10 + 3 / 2 * V) / (station l w - station l v) ≤ 1 := by
      by_contra hgt
      push Not at hgt
      nlinarith
    exact (div_le_one hd).1 h5
  have hlt : ∀ V : ℝ, 0 ≤ V → safeDistance dt V V < 10 + 3 / 2 * V := by
    intro V hV
    unfold safeDistance
    rw [max_eq_left hV]
    have : V ^ 2 / 12 + V * dt - (V ^ 2 / 12 + V * dt / 2) ≤ V := by nlinarith
    have := max_le hV this
    linarith
  have hinv : ∀ t ≤ n, Platoon.Queue dt i l (s t) ∧ (s t).vehicles.length = (s 0).vehicles.length ∧
      ∀ (k : ℕ) (v v' : Vehicle), (s 0).vehicles[k]? = some v → (s t).vehicles[k]? = some v' →
        v'.speed = V ∧ (0 < k → v'.targetSpeed = v.targetSpeed) ∧ (k = 0 → L v') ∧ station l v' = station l v + t * (V * dt) := by
    intro t ht
    induction t with
    | zero =>
      refine ⟨⟨hroad, hids, fun k w v hw hv => ?_, fun v hv => ?_, hdrive, hsound⟩, rfl, fun k v v' hv hv' => ?_⟩
      · rw [hspeed w (List.mem_of_getElem? hw), hspeed v (List.mem_of_getElem? hv)]
        exact (hlt V hV).trans_le (hdist k w v hw hv)
      · obtain ⟨k, hk⟩ := List.getElem?_of_mem hv
        rcases Nat.eq_zero_or_pos k with rfl | hk0
        · exact hon v hk
        · exact (hdrive k v hk0 hk).toOnMiddle
      · rw [hv] at hv'; cases hv'
        exact ⟨hspeed v (List.mem_of_getElem? hv), fun _ => rfl, fun e => hL v (e ▸ hv), by simp⟩
    | succ t ih =>
      obtain ⟨hq, hlen, hall⟩ := ih (by omega)
      have hget : ∀ {k : ℕ} {u : Vehicle}, (s t).vehicles[k]? = some u → ∃ v, (s 0).vehicles[k]? = some v := fun {k u} hu =>
        ⟨_, List.getElem?_eq_getElem (by rw [← hlen]; exact (List.getElem?_eq_some_iff.1 hu).1)⟩
      obtain ⟨hr', moved, hmlen, hfinal, hsteady, hmove⟩ := Platoon.frame_parts hq.road (hcmd t (by omega)) (hrun t (by omega))
      have hev := (Road.collidePass_evolves moved []).1
      rw [← hfinal] at hev
      have hvis : ∀ (k : ℕ) (v : Vehicle), (s t).vehicles[k]? = some v → Visible l v := by
        intro k v hv
        obtain ⟨v0, hv0⟩ := hget hv
        obtain ⟨e1, _, _, e3⟩ := hall k v0 v hv0 hv
        have hVd : 0 ≤ V * dt := by positivity
        have ht0 : (t : ℝ) ≤ n := by exact_mod_cast (by omega : t ≤ n)
        have ht1 : (0 : ℝ) ≤ t := by positivity
        refine ⟨by rw [e1]; exact hV, ?_, ?_⟩
        · rw [e3]; nlinarith [hstart v0 (List.mem_of_getElem? hv0)]
        · rw [e3]; nlinarith [hend v0 (List.mem_of_getElem? hv0)]
      -- the followers
      have hfol : ∀ (k : ℕ) (v u : Vehicle), (s t).vehicles[k + 1]? = some v → moved[k + 1]? = some u →
          u.speed = V ∧ u.targetSpeed = v.targetSpeed ∧ station l u = station l v + V * dt := by
        intro k v u hv hu
        obtain ⟨w, hw⟩ : ∃ w, (s t).vehicles[k]? = some w :=
          ⟨_, List.getElem?_eq_getElem (by have := (List.getElem?_eq_some_iff.1 hv).1; omega)⟩
        obtain ⟨r, v', rng, rec, u', hs, hb, hact, hst, hu'⟩ := hmove (k + 1) v (.inl (by omega)) hv
        rw [hu] at hu'; cases hu'
        have hdv := hq.drives (k + 1) v (by omega) hv
        have hcr := hq.sound v (List.mem_of_getElem? hv)
        obtain ⟨d1, d2, d3, f, b, acc, hf, hacc, hsp, _⟩ := Platoon.drive hG.1 h0 h1 hq.road hs hdv hcr hact hst
        obtain ⟨w1, rfl, hbw⟩ := Platoon.front hq.road hs hb hq.ids hq.on hq.gaps5 hw hv (hvis k w hw) hf
        have how := hq.on w (List.mem_of_getElem? hw)
        have how1 : OnMiddle i l w1 := ⟨by rw [hbw.pos]; exact how.lateral, by rw [hbw.heading]; exact how.heading,
          by rw [hbw.laneIndex]; exact how.laneIndex, by rw [hbw.lane]; exact how.lane⟩
        have hst1 : station l w1 = station l w := by unfold station; rw [hbw.pos]
        obtain ⟨w0, hw0⟩ := hget hw
        obtain ⟨v0, hv0⟩ := hget hv
        obtain ⟨ew1, _, _, ew3⟩ := hall k w0 w hw0 hw
        obtain ⟨ev1, ev2, _, ev3⟩ := hall (k + 1) v0 v hv0 hv
        have hgap : station l w - station l v = station l w0 - station l v0 := by rw [ew3, ev3]; ring
        have ha := acc_eq hG hdv.kind hdv.toOnMiddle how1 (by rw [hst1]; exact hq.gaps5 k w v hw hv)
          (by rw [hbw.speed, ew1, ev1]) (by rw [ev1]; exact hV) hdv.positive
        have hbal := (hbalance k w0 v0 hw0 hv0).2
        unfold InBalance at hbal
        rw [hst1, hgap, ev1, ev2 (by omega)] at ha
        have hz : acc = 0 := by rw [hacc, ha]; linarith
        have hc0 : npClip 0 (-6) 6 = 0 := npClip_of_mem (by norm_num) (by norm_num)
        refine ⟨?_, ?_, by rw [d2, ev1]⟩
        · rw [hsp (by rw [ev1]; linarith), hz, hc0, ev1]; ring
        · exact (Vehicle.step_mind hst).targetSpeed.trans (idm_target (by rw [hdv.kind]; rfl) hcr hact)
      have hnext : ∀ (k : ℕ) (v v' : Vehicle), (s t).vehicles[k]? = some v → (s (t + 1)).vehicles[k]? = some v' → v'.crashed = false →
          v'.speed = V ∧ (0 < k → v'.targetSpeed = v.targetSpeed) ∧ (k = 0 → L v') ∧ station l v' = station l v + V * dt := by
        intro k v v' hv hv' hcr
        obtain ⟨v0, hv0⟩ := hget hv
        obtain ⟨es, _, eL, _⟩ := hall k v0 v hv0 hv
        rcases Nat.eq_zero_or_pos k with rfl | hk
        · obtain ⟨_, l2, l3⟩ := hlead t (by omega) hq v v' hv hv' (eL rfl) es
          exact ⟨(l3 hcr).1, fun h => absurd h (by omega), fun _ => (l3 hcr).2, by rw [l2, es]⟩
        · obtain ⟨j, rfl⟩ : ∃ j, k = j + 1 := ⟨k - 1, by omega⟩
          obtain ⟨u, hu, _⟩ := hsteady.2 (j + 1) v hv
          obtain ⟨z, hz, sp, c, hzb, _, _, hcase⟩ := hev.2 (j + 1) u hu
          rw [hv'] at hz; cases hz
          have hvu : v' = u := by
            rcases hcase with e | ⟨_, e⟩
            · exact e
            · rw [hzb] at hcr
              change c = false at hcr
              rw [e] at hcr; cases hcr
          subst hvu
          obtain ⟨f1, f2, f3⟩ := hfol j v v' hv hu
          exact ⟨f1, fun _ => f2, fun h => absurd h (by omega), f3⟩
      have hlen' : (s (t + 1)).vehicles.length = (s t).vehicles.length := hev.1.trans hmlen
      have hq' : Platoon.Queue dt i l (s (t + 1)) := by
        refine Platoon.queue_frame hG h0 h1 (hcmd t (by omega)) hq (hrun t (by omega))
          (fun v v' hv hv' => by
            obtain ⟨v0, hv0⟩ := hget hv
            obtain ⟨es, _, eL, _⟩ := hall 0 v0 v hv0 hv
            obtain ⟨l1, l2, l3⟩ := hlead t (by omega) hq v v' hv hv' (eL rfl) es
            exact ⟨l1, l2, fun hc => by rw [(l3 hc).1, es]; linarith⟩)
          (fun k v _ hv => hvis k v hv) (fun k v _ hv hcr => ?_)
        obtain ⟨v1, hv1⟩ : ∃ v1, (s t).vehicles[k]? = some v1 :=
          ⟨_, List.getElem?_eq_getElem (by rw [← hlen']; exact (List.getElem?_eq_some_iff.1 hv).1)⟩
        rw [(hnext k v1 v hv1 hv hcr).1]; exact hV
      refine ⟨hq', hlen'.trans hlen, fun k v v' hv hv' => ?_⟩
      obtain ⟨v1, hv1⟩ : ∃ v1, (s t).vehicles[k]? = some v1 :=
        ⟨_, List.getElem?_eq_getElem (by rw [← hlen']; exact (List.getElem?_eq_some_iff.1 hv').1)⟩
      obtain ⟨a1, a2, _, a3⟩ := hall k v v1 hv hv1
      obtain ⟨b1, b2, b4, b3⟩ := hnext k v1 v' hv1 hv' (hq'.sound v' (List.mem_of_getElem? hv'))
      refine ⟨b1, fun hk => (b2 hk).trans (a2 hk), b4, ?_⟩
      rw [b3, a3]; push_cast; ring
  obtain ⟨hq, hlen, hall⟩ := hinv n le_rfl
  exact ⟨hlen, fun k v v' hv hv' => ⟨(hall k v v' hv hv').1, hq.sound v' (List.mem_of_getElem? hv'), (hall k v v' hv hv').2.2.2⟩⟩

end Settle

/-! ## C110 -/

/-- A traffic vehicle of the non-linear class with nobody ahead, driving (or reversing) below its target speed, which is at most 40 m/s: it never exceeds the target, never slows down,
and the missing speed shrinks at least geometrically. -/
theorem free_settles (G : Globals) (dt : ℝ) (k : ℕ) (s : ℕ → Road) (cmds : ℕ → List (ℕ × VAction)) (n : ℕ) (v : ℕ → Vehicle)
    (h : FreeRide G dt k s cmds n v) (hk : (v 0).kind = .idm) (T a M : ℝ) (hT : (v 0).targetSpeed = T) (ha : G.comfortAccMax .idm = a)
    (hpos : 0 < a) (ha6 : a ≤ 6) (h0 : 0 ≤ dt) (hslow : 4 * a * dt ≤ T) (hT1 : 1 / 100 < T) (hT40 : T ≤ 40)
    (hlow : -40 ≤ (v 0).speed) (hle : (v 0).speed ≤ T) (hM : M = max T (T - (v 0).speed)) :
    (∀ t ≤ n, (v t).targetSpeed = T ∧ (v t).speed ≤ T ∧ T - (v t).speed ≤ (1 - a * dt / M) ^ t * (T - (v 0).speed)) ∧
    (∀ t < n, (v t).speed ≤ (v (t + 1)).speed) ∧ 0 ≤ 1 - a * dt / M ∧ (0 < dt → 1 - a * dt / M < 1) := by
  have hTp : 0 < T := by linarith
  have hTM : T ≤ M := hM ▸ le_max_left _ _
  have hMp : 0 < M := hTp.trans_le hTM
  have hacc : ∀ w : Vehicle, w.kind = (v 0).kind → w.targetSpeed = (v 0).targetSpeed →
      Settle.freeAcc G w = a * (1 - (max w.speed 0 / T) ^ 4) := by
    intro w e1 e2
    unfold Settle.freeAcc
    rw [e1, hk, e2, hT, ha]
    have hnz : notZero T = T := by
      unfold notZero; rw [if_pos]; rw [abs_of_pos hTp]; exact hT1
    rw [hnz]
    rfl
  have hI : ∀ w : Vehicle, w.kind = (v 0).kind → w.targetSpeed = (v 0).targetSpeed → (v 0).speed ≤ w.speed ∧ w.speed ≤ T →
      w.speed ≤ w.speed + npClip (Settle.freeAcc G w) (-6) 6 * dt ∧ w.speed + npClip (Settle.freeAcc G w) (-6) 6 * dt ≤ T ∧
      T - (w.speed + npClip (Settle.freeAcc G w) (-6) 6 * dt) ≤ (1 - a * dt / M) * (T - w.speed) := by
    rintro w e1 e2 ⟨b1, b2⟩
    obtain ⟨m1, m2, m3, m4⟩ := Settle.below_math (x := w.speed) (M := M) hpos hTp b2 hTM
      ((sub_le_sub_left b1 T).trans (hM ▸ le_max_right _ _)) hslow h0
    rw [hacc w e1 e2, npClip_of_mem (by linarith) (by linarith)]
    exact ⟨by nlinarith, m3, m4⟩
  have key := Settle.ride h (by rw [hk]; rfl) (I := fun x => (v 0).speed ≤ x ∧ x ≤ T) ⟨le_rfl, hle⟩
    (fun x hx => abs_le.2 ⟨hlow.trans hx.1, hx.2.trans hT40⟩)
    (fun t _ w e1 e2 _ hw => by
      obtain ⟨c1, c2, _⟩ := hI w e1 e2 hw
      exact ⟨hw.1.trans c1, c2⟩)
  have hrate : 0 ≤ 1 - a * dt / M := by
    have : a * dt / M ≤ 1 := (div_le_one hMp).2 (by nlinarith [mul_nonneg hpos.le h0])
    linarith
  refine ⟨fun t ht => ?_, fun t ht => ?_, hrate, fun hd => ?_⟩
  · obtain ⟨i1, i2, i3, i4⟩ := key t ht
    refine ⟨i3.trans hT, i1.2, ?_⟩
    clear i1 i2 i3 i4
    induction t with
    | zero => simp
    | succ t ih =>
      obtain ⟨j1, j2, j3, _⟩ := key t (by omega)
      have := (hI (v t) j2 j3 j1).2.2
      rw [(key (t + 1) ht).2.2.2.2.2 t (by omega), pow_succ', mul_assoc]
      exact this.trans (mul_le_mul_of_nonneg_left (ih (by omega)) hrate)
  · obtain ⟨j1, j2, j3, _⟩ := key t ht.le
    rw [(key (t + 1) ht).2.2.2.2.2 t (by omega)]
    exact (hI (v t) j2 j3 j1).1
  · have : 0 < a * dt / M := by positivity
    linarith

/-- The same vehicle above its target speed slows down to it without ever going below, provided a frame is short enough for the speed it starts from. -/
theorem free_settles_above (G : Globals) (dt : ℝ) (k : ℕ) (s : ℕ → Road) (cmds : ℕ → List (ℕ × VAction)) (n : ℕ) (v : ℕ → Vehicle)
    (h : FreeRide G dt k s cmds n v) (hk : (v 0).kind = .idm) (T a x E : ℝ) (hT : (v 0).targetSpeed = T) (ha : G.comfortAccMax .idm = a)
    (hpos : 0 < a) (h0 : 0 ≤ dt) (hT1 : 1 / 100 < T) (hx : (v 0).speed = x) (hx40 : x ≤ 40) (hge : T ≤ x) (hE : 0 < E) (hxE : x - T ≤ E)
    (hslow : dt * a * ((x + T) * (x ^ 2 + T ^ 2)) ≤ T ^ 4) :
    (∀ t ≤ n, (v t).targetSpeed = T ∧ T ≤ (v t).speed ∧ (v t).speed - T ≤ (1 - dt * min (4 * a / T) (6 / E)) ^ t * (x - T)) := by
  have hTp : 0 < T := by linarith
  have hacc : ∀ w : Vehicle, w.kind = (v 0).kind → w.targetSpeed = (v 0).targetSpeed →
      Settle.freeAcc G w = a * (1 - (max w.speed 0 / T) ^ 4) := by
    intro w e1 e2
    unfold Settle.freeAcc
    rw [e1, hk, e2, hT, ha]
    have hnz : notZero T = T := by
      unfold notZero; rw [if_pos]; rw [abs_of_pos hTp]; exact hT1
    rw [hnz]
    rfl
  have hc0 : 0 ≤ min (4 * a / T) (6 / E) := le_min (by positivity) (by positivity)
  have hrate : 0 ≤ 1 - dt * min (4 * a / T) (6 / E) := by
    have h1 : dt * min (4 * a / T) (6 / E) ≤ dt * (4 * a / T) := mul_le_mul_of_nonneg_left (min_le_left _ _) h0
    have h2 : dt * (4 * a / T) ≤ 1 := by
      have h3 : 4 * T ^ 3 ≤ (x + T) * (x ^ 2 + T ^ 2) := by
        have h1 : 2 * T ≤ x + T := by linarith
        have h2 : 2 * T ^ 2 ≤ x ^ 2 + T ^ 2 := by nlinarith
        calc 4 * T ^ 3 = (2 * T) * (2 * T ^ 2) := by ring
          _ ≤ _ := mul_le_mul h1 h2 (by positivity) (by linarith)
      have h4 : dt * a * (4 * T ^ 3) ≤ T ^ 4 := (mul_le_mul_of_nonneg_left h3 (by positivity)).trans hslow
      have h5 : dt * (4 * a / T) = dt * a * (4 * T ^ 3) / T ^ 4 := by field_simp
      rw [h5]
      exact (div_le_one (by positivity)).2 h4
    linarith
  have hI : ∀ w : Vehicle, w.kind = (v 0).kind → w.targetSpeed = (v 0).targetSpeed → T ≤ w.speed ∧ w.speed ≤ x →
      T ≤ w.speed + npClip (Settle.freeAcc G w) (-6) 6 * dt ∧
      w.speed + npClip (Settle.freeAcc G w) (-6) 6 * dt - T ≤ (1 - dt * min (4 * a / T) (6 / E)) * (w.speed - T) := by
    rintro w e1 e2 ⟨b1, b2⟩
    rw [hacc w e1 e2]
    refine Settle.above_math hpos hTp b1 hE (by linarith) (le_trans ?_ hslow) h0
    refine mul_le_mul_of_nonneg_left ?_ (by positivity)
    have hw0 : 0 ≤ w.speed := hTp.le.trans b1
    exact mul_le_mul (by linarith) (by nlinarith) (by positivity) (by linarith)
  have key := Settle.ride h (by rw [hk]; rfl) (I := fun y => T ≤ y ∧ y ≤ x) ⟨hx ▸ hge, hx.le⟩
    (fun y hy => abs_le.2 ⟨by linarith [hy.1], hy.2.trans hx40⟩)
    (fun t _ w e1 e2 _ hw => by
      obtain ⟨c1, c2⟩ := hI w e1 e2 hw
      refine ⟨c1, ?_⟩
      have : (1 - dt * min (4 * a / T) (6 / E)) * (w.speed - T) ≤ 1 * (w.speed - T) :=
        mul_le_mul_of_nonneg_right (by nlinarith) (by linarith [hw.1])
      linarith [hw.2])
  intro t ht
  obtain ⟨i1, i2, i3, i4⟩ := key t ht
  refine ⟨i3.trans hT, i1.1, ?_⟩
  clear i1 i2 i3 i4
  induction t with
  | zero => simp [hx]
  | succ t ih =>
    obtain ⟨j1, j2, j3, _⟩ := key t (by omega)
    have := (hI (v t) j2 j3 j1).2
    rw [(key (t + 1) ht).2.2.2.2.2 t (by omega), pow_succ', mul_assoc]
    exact this.trans (mul_le_mul_of_nonneg_left (ih (by omega)) hrate)

/-- Traffic vehicles of the linear classes with nobody ahead approach their target speed from either side, at least geometrically, without overshooting. -/
theorem free_settles_linear (G : Globals) (dt : ℝ) (k : ℕ) (s : ℕ → Road) (cmds : ℕ → List (ℕ × VAction)) (n : ℕ) (v : ℕ → Vehicle)
    (h : FreeRide G dt k s cmds n v) (hk : (v 0).kind.isLinear = true) (T p E : ℝ) (hT : (v 0).targetSpeed = T) (hp : (v 0).accParams.1 = p)
    (hp0 : 0 ≤ p) (h0 : 0 ≤ dt) (hshort : p * dt ≤ 1) (hT40 : |T| ≤ 40) (h40 : |(v 0).speed| ≤ 40) (hE : 0 < E) (hvE : |T - (v 0).speed| ≤ E) :
    ∀ t ≤ n, (v t).targetSpeed = T ∧ |T - (v t).speed| ≤ (1 - dt * min p (6 / E)) ^ t * |T - (v 0).speed| ∧
      0 ≤ (T - (v t).speed) * (T - (v 0).speed) := by
  have hkI : (v 0).kind.isIDM = true := by revert hk; cases (v 0).kind <;> simp [VKind.isLinear, VKind.isIDM]
  have hc0 : 0 ≤ min p (6 / E) := le_min hp0 (by positivity)
  have hrate : 0 ≤ 1 - dt * min p (6 / E) := by
    have : dt * min p (6 / E) ≤ dt * p := mul_le_mul_of_nonneg_left (min_le_left _ _) h0
    nlinarith
  -- the error is multiplied by a factor in [0, rate]
  have hfac : ∀ w : Vehicle, w.kind = (v 0).kind → w.targetSpeed = (v 0).targetSpeed → w.accParams = (v 0).accParams → |T - w.speed| ≤ E →
      ∃ q, 0 ≤ q ∧ q ≤ 1 - dt * min p (6 / E) ∧ T - (w.speed + npClip (Settle.freeAcc G w) (-6) 6 * dt) = q * (T - w.speed) := by
    intro w e1 e2 e3 hw
    unfold Settle.freeAcc
    rw [e1, if_pos hk, e3, hp, e2, hT]
    set e := T - w.speed with he
    obtain ⟨c, hc1, hc2, hc3⟩ : ∃ c, min p (6 / E) ≤ c ∧ c ≤ p ∧ npClip (p * e) (-6) 6 = c * e := by
      rcases le_or_gt (|p * e|) 6 with h6 | h6
      · obtain ⟨a1, a2⟩ := abs_le.1 h6
        exact ⟨p, min_le_left _ _, le_rfl, npClip_of_mem a1 a2⟩
      · have hne : e ≠ 0 := by rintro e0; rw [e0] at h6; norm_num at h6
        have hea : 0 < |e| := abs_pos.2 hne
        have hpe : 6 < p * |e| := by rw [abs_mul, abs_of_nonneg hp0] at h6; exact h6
        refine ⟨6 / |e|, (min_le_right _ _).trans (div_le_div_of_nonneg_left (by norm_num) hea hw), ?_, ?_⟩
        · rw [div_le_iff₀ hea]; exact hpe.le
        · rcases lt_or_gt_of_ne hne with hneg | hpos
          · rw [abs_of_neg hneg] at hpe ⊢
            unfold npClip
            rw [max_eq_right (by linarith), min_eq_left (by norm_num)]
            field_simp
          · rw [abs_of_pos hpos] at hpe ⊢
            unfold npClip
            rw [max_eq_left (by linarith), min_eq_right (by linarith)]
            field_simp
    refine ⟨1 - dt * c, ?_, ?_, ?_⟩
    · have : dt * c ≤ dt * p := mul_le_mul_of_nonneg_left hc2 h0
      nlinarith
    · have := mul_le_mul_of_nonneg_left hc1 h0
      linarith
    · rw [hc3, he]; ring
  have hlt1 : 1 - dt * min p (6 / E) ≤ 1 := by nlinarith
  have key := Settle.ride h hkI (I := fun y => ∃ q, 0 ≤ q ∧ q ≤ 1 ∧ T - y = q * (T - (v 0).speed)) ⟨1, by norm_num, le_rfl, by ring⟩
    (fun y ⟨q, q0, q1, hy⟩ => by
      have e : y = (1 - q) * T + q * (v 0).speed := by linarith
      rw [e]
      calc _ ≤ |(1 - q) * T| + |q * (v 0).speed| := abs_add_le _ _
        _ = (1 - q) * |T| + q * |(v 0).speed| := by rw [abs_mul, abs_mul, abs_of_nonneg q0, abs_of_nonneg (by linarith : 0 ≤ 1 - q)]
        _ ≤ (1 - q) * 40 + q * 40 := add_le_add (mul_le_mul_of_nonneg_left hT40 (by linarith)) (mul_le_mul_of_nonneg_left h40 q0)
        _ = 40 := by ring)
    (fun t _ w e1 e2 e3 ⟨q, q0, q1, hy⟩ => by
      have hw : |T - w.speed| ≤ E := by
        rw [hy, abs_mul, abs_of_nonneg q0]
        nlinarith [abs_nonneg (T - (v 0).speed)]
      obtain ⟨q', a0, a1, ha⟩ := hfac w e1 e2 e3 hw
      refine ⟨q' * q, by positivity, ?_, ?_⟩
      · nlinarith
      · rw [ha, hy]; ring)
  intro t ht
  obtain ⟨⟨q, q0, q1, hq⟩, i2, i3, i4⟩ := key t ht
  refine ⟨i3.trans hT, ?_, by rw [hq]; nlinarith [mul_nonneg q0 (sq_nonneg (T - (v 0).speed))]⟩
  clear hq q0 q1 i2 i3 i4
  induction t with
  | zero => simp
  | succ t ih =>
    obtain ⟨⟨q, q0, q1, hq⟩, j2, j3, j4, _⟩ := key t (by omega)
    have hw : |T - (v t).speed| ≤ E := by
      rw [hq, abs_mul, abs_of_nonneg q0]
      nlinarith [abs_nonneg (T - (v 0).speed)]
    obtain ⟨q', a0, a1, ha'⟩ := hfac (v t) j2 j3 j4 hw
    rw [(key (t + 1) ht).2.2.2.2.2 t (by omega), ha', abs_mul, abs_of_nonneg a0, pow_succ', mul_assoc]
    exact mul_le_mul a1 (ih (by omega)) (abs_nonneg _) hrate

/-- A traffic vehicle that is alone on a road without objects or regulation, on any network, drives for ever, with nobody ahead and without crashing. -/
theorem alone_rides (G : Globals) (dt : ℝ) (r : Road) (hr : Healthy r) (hreg : r.regulated = false) (hobj : r.objects = []) (car : Vehicle)
    (hv : r.vehicles = [car]) (hcr : car.crashed = false) :
    ∃ (s : ℕ → Road) (v : ℕ → Vehicle), s 0 = r ∧ v 0 = car ∧ ∀ n, FreeRide G dt 0 s (fun _ => []) n v := by
  have next : ∀ p : { p : Road × Vehicle // Healthy p.1 ∧ p.1.regulated = false ∧ p.1.objects = [] ∧ p.1.vehicles = [p.2] ∧ p.2.crashed = false },
      ∃ q : { p : Road × Vehicle // Healthy p.1 ∧ p.1.regulated = false ∧ p.1.objects = [] ∧ p.1.vehicles = [p.2] ∧ p.2.crashed = false },
      frame G dt p.1.1 [] = .ok q.1.1 := by
    rintro ⟨⟨r, car⟩, hr, hreg, hobj, hv, hcr⟩
    obtain ⟨r1, h1⟩ := roadAct_never_raises G r hr
    have hr1 := healthy_forever G r r1 hr (.tail (.refl r) (.act h1))
    have hreg1 : r1.regulated = false := (Road.act_frame h1).2.regulated.trans hreg
    obtain ⟨r2, h2⟩ := roadStep_never_raises r1 hr1 dt (by intro h; rw [hreg1] at h; cases h)
    have hr2 := healthy_forever G r1 r2 hr1 (.tail (.refl r1) (.step dt h2))
    have hf : frame G dt r [] = .ok r2 := by
      unfold frame
      simp only [List.foldlM_nil, pure, Except.pure, bind, Except.bind, h1, h2]
    obtain ⟨a1, a2, w, a3, a4⟩ := Settle.alone_frame hreg hobj hv hcr hf
    exact ⟨⟨⟨r2, w⟩, hr2, a1, a2, a3, a4⟩, hf⟩
  choose f hf using next
  set st := fun t => f^[t] ⟨(r, car), hr, hreg, hobj, hv, hcr⟩ with hst
  refine ⟨fun t => (st t).1.1, fun t => (st t).1.2, rfl, rfl, fun n => ⟨fun t _ => ?_, hreg, by simp, fun t _ => ?_, fun t _ => ?_, fun t _ => ?_⟩⟩
  · rw [hst]
    dsimp only
    rw [Function.iterate_succ_apply']
    exact hf _
  · rw [(st t).2.2.2.2.1]; rfl
  · exact (st t).2.2.2.2.2
  · obtain ⟨h1, _, h3, h4, _⟩ := (st t).2
    set r := (st t).1.1
    set v := (st t).1.2
    obtain ⟨fr, b, hn, ha, _⟩ := neighbours_nearest r v none v.lane (h1.attached v (by rw [h4]; simp)).1.lane
    refine ⟨b, ?_⟩
    rw [hn]
    have : fr = none := by
      refine ha.1.2 fun e he hq => ?_
      rw [h3, h4] at he
      simp only [List.map_cons, List.map_nil, List.append_nil, List.mem_singleton] at he
      rw [he] at hq
      exact absurd rfl hq.1
    rw [this]

/-- A queue in equilibrium: on a road made of one straight lane, vehicles one behind the other, all at speed `V`, all but the first traffic vehicles (non-linear class, default parameters)
for which the distance to the previous vehicle balances the wish to accelerate.  While the first one keeps driving at `V` along the lane, and until the end of the lane comes into reach,
all the speeds stay `V`, all the distances between the vehicles stay what they are, and nobody crashes. -/
theorem queue_in_equilibrium (G : Globals) (dt : ℝ) (hG : G.comfortAccMax .idm = 3 ∧ G.comfortAccMin .idm = -5 ∧ G.distanceWanted .idm = 10)
    (h0 : 0 < dt) (h1 : dt ≤ 1 / 10) (i : LaneIndex) (l : Lane) (s : ℕ → Road) (cmds : ℕ → List (ℕ × VAction)) (n : ℕ) (V : ℝ) (hV : 0 ≤ V)
    (hrun : ∀ t < n, frame G dt (s t) (cmds t) = .ok (s (t + 1))) (hcmd : ∀ t < n, ∀ c ∈ cmds t, c.1 = 0)
    (hroad : SingleLane (s 0) i l) (hids : ((s 0).vehicles.map Vehicle.uid).Nodup)
    (hon : ∀ v, (s 0).vehicles[0]? = some v → OnMiddle i l v)
    (hdrive : ∀ (k : ℕ) (v : Vehicle), 0 < k → (s 0).vehicles[k]? = some v → DrivesOn dt i l v)
    (hsound : ∀ v ∈ (s 0).vehicles, v.crashed = false) (hspeed : ∀ v ∈ (s 0).vehicles, v.speed = V)
    (hbalance : ∀ (k : ℕ) (w v : Vehicle), (s 0).vehicles[k]? = some w → (s 0).vehicles[k + 1]? = some v → station l v < station l w ∧
      InBalance V v.targetSpeed (station l w - station l v))
    (hlead : ∀ t < n, ∀ v v', (s t).vehicles[0]? = some v → (s (t + 1)).vehicles[0]? = some v' → Advances dt i l v v' ∧ v'.speed = v.speed)
    (hstart : ∀ v ∈ (s 0).vehicles, -5 ≤ station l v) (hend : ∀ v ∈ (s 0).vehicles, station l v + n * (V * dt) < l.length + 5) :
    (s n).vehicles.length = (s 0).vehicles.length ∧
    ∀ (k : ℕ) (v v' : Vehicle), (s 0).vehicles[k]? = some v → (s n).vehicles[k]? = some v' →
      v'.speed = V ∧ v'.crashed = false ∧ station l v' = station l v + n * (V * dt) := by
  refine Settle.queue_core hG h0 h1 hV hrun hcmd hroad hids hon hdrive hsound hspeed hbalance (L := fun _ => True) (fun _ _ => trivial) ?_ hstart hend
  intro t ht _ v v' hv hv' _ hs
  obtain ⟨l1, l2⟩ := hlead t ht v v' hv hv'
  exact ⟨l1.on, l1.advance, fun _ => ⟨l2.trans hs, trivial⟩⟩

/-- The same for a queue made of traffic vehicles only, when the first one drives at its target speed: nothing is assumed about the motion. -/
theorem traffic_in_equilibrium (G : Globals) (dt : ℝ) (hG : G.comfortAccMax .idm = 3 ∧ G.comfortAccMin .idm = -5 ∧ G.distanceWanted .idm = 10)
    (h0 : 0 < dt) (h1 : dt ≤ 1 / 10) (i : LaneIndex) (l : Lane) (s : ℕ → Road) (n : ℕ) (V : ℝ)
    (hrun : ∀ t < n, frame G dt (s t) [] = .ok (s (t + 1)))
    (hroad : SingleLane (s 0) i l) (hids : ((s 0).vehicles.map Vehicle.uid).Nodup)
    (hdrive : ∀ v ∈ (s 0).vehicles, DrivesOn dt i l v)
    (hsound : ∀ v ∈ (s 0).vehicles, v.crashed = false) (hspeed : ∀ v ∈ (s 0).vehicles, v.speed = V)
    (hfirst : ∀ v, (s 0).vehicles[0]? = some v → v.targetSpeed = V)
    (hbalance : ∀ (k : ℕ) (w v : Vehicle), (s 0).vehicles[k]? = some w → (s 0).vehicles[k + 1]? = some v → station l v < station l w ∧
      InBalance V v.targetSpeed (station l w - station l v))
    (hstart : ∀ v ∈ (s 0).vehicles, -5 ≤ station l v) (hend : ∀ v ∈ (s 0).vehicles, station l v + n * (V * dt) < l.length + 5) :
    (s n).vehicles.length = (s 0).vehicles.length ∧
    ∀ (k : ℕ) (v v' : Vehicle), (s 0).vehicles[k]? = some v → (s n).vehicles[k]? = some v' →
      v'.speed = V ∧ v'.crashed = false ∧ station l v' = station l v + n * (V * dt) := by
  rcases hcars : (s 0).vehicles[0]? with _ | first
  · have hnil : (s 0).vehicles = [] := by simpa using hcars
    have hlen : ∀ t ≤ n, SingleLane (s t) i l ∧ (s t).vehicles.length = 0 := by
      intro t ht
      induction t with
      | zero => exact ⟨hroad, by rw [hnil]; rfl⟩
      | succ t ih =>
        obtain ⟨r1, r2⟩ := ih (by omega)
        obtain ⟨hr', moved, hm, hf, _⟩ := Platoon.frame_parts r1 (by simp) (hrun t (by omega))
        exact ⟨hr', by rw [hf, (Road.collidePass_evolves moved []).1.1, hm, r2]⟩
    refine ⟨by rw [(hlen n le_rfl).2, hnil]; rfl, fun k v v' hv _ => ?_⟩
    rw [hnil] at hv; simp at hv
  · have hV : 0 ≤ V := by
      have := (hdrive first (List.mem_of_getElem? hcars)).positive
      rw [hfirst first hcars] at this
      linarith
    refine Settle.queue_core hG h0 h1 hV (cmds := fun _ => []) hrun (by simp) hroad hids
      (fun v hv => (hdrive v (List.mem_of_getElem? hv)).toOnMiddle) (fun k v _ hv => hdrive v (List.mem_of_getElem? hv)) hsound hspeed hbalance
      (L := fun v => DrivesOn dt i l v ∧ v.targetSpeed = V) (fun v hv => ⟨hdrive v (List.mem_of_getElem? hv), hfirst v hv⟩) ?_ hstart hend
    rintro t ht hq v v' hv hv' ⟨hd, hT⟩ hs
    have hcr := hq.sound v (List.mem_of_getElem? hv)
    obtain ⟨f1, f2, f3⟩ := Platoon.first_advances hG.1 h0 h1 hq.road hq.sound (hrun t ht) hv hv' hd
    refine ⟨f1, f2, fun hc => ?_⟩
    have hle := Platoon.first_free hG.1 h0 h1 hq (hrun t ht) hv hv' hd (by rw [hs]; exact hV) hc
    obtain ⟨_, r, u', rng, rec, u, w, _, _, hact, hst, hw, hcase⟩ := Settle.frame_vehicle hq.road.regulated (k := 0) (by simp) (hrun t ht) hv
    rw [hv'] at hw; cases hw
    obtain rfl : v' = u := by
      rcases hcase with e | e
      · exact e
      · rw [hc] at e; cases e
    have hT' : v'.targetSpeed = V :=
      ((Vehicle.step_mind hst).targetSpeed.trans (Settle.idm_target (by rw [hd.kind]; rfl) hcr hact)).trans hT
    have hns := (f3 hc).2.notSpeeding
    exact ⟨le_antisymm (by rw [← hT']; exact hns) (by rw [← hs]; exact hle), (f3 hc).2, hT'⟩

/-! ## The hypotheses are met -/

namespace Settle

/-- One car of class `k` at speed `x` with target speed `T` on the 10 km lane. -/
def loneRoad (k : VKind) (x T : ℝ) : Road :=
  { network := [("0", [("1", [Platoon.longLane])])], rng := ⟨fun _ => 0, fun _ => 0, 0, 0⟩, vehicles := [{ Platoon.car 0 100 x T with kind := k }] }

theorem loneRoad_healthy (k : VKind) (hk : k.isControlled = true) (x T : ℝ) : Healthy (loneRoad k x T) := by
  refine ⟨Platoon.net_wf _ _ _, ?_, ?_, ?_⟩
  · intro v hvm
    simp only [loneRoad, List.mem_cons, List.not_mem_nil, or_false] at hvm
    subst hvm
    exact ⟨⟨⟨0, _, rfl, Platoon.net_has _ _ _⟩, getLane_of_hasLane (k := 0) (Platoon.net_py _ _ _) rfl (Platoon.net_has _ _ _), ⟨0, _, rfl, Platoon.net_has _ _ _⟩⟩,
      by simp [RouteExists, Platoon.car]⟩
  · simp [loneRoad, hk]
  · intro h; cases h

end Settle

/-- A lone car at 10 m/s that wants to drive at 30 m/s, 15 frames per second: the missing speed shrinks by 1/150 of itself or more at each frame. -/
example : ∃ (s : ℕ → Road) (v : ℕ → Vehicle), s 0 = Settle.loneRoad .idm 10 30 ∧ (∀ t, frame {} (1 / 15) (s t) [] = .ok (s (t + 1))) ∧
    ∀ t, (s t).vehicles[0]? = some (v t) ∧ (v t).speed ≤ 30 ∧ 30 - (v t).speed ≤ (149 / 150) ^ t * 20 := by
  obtain ⟨s, v, h0, hv0, h⟩ := alone_rides {} (1 / 15) (Settle.loneRoad .idm 10 30) (Settle.loneRoad_healthy _ rfl _ _) rfl rfl _ rfl rfl
  refine ⟨s, v, h0, fun t => (h (t + 1)).run t (by omega), fun t => ?_⟩
  obtain ⟨h1, _⟩ := free_settles {} (1 / 15) 0 s _ t v (h t) (by rw [hv0]) 30 3 30 (by rw [hv0]; rfl) rfl (by norm_num) (by norm_num) (by norm_num) (by norm_num)
    (by norm_num) (by norm_num) (by rw [hv0]; norm_num [Platoon.car]) (by rw [hv0]; norm_num [Platoon.car]) (by rw [hv0]; norm_num [Platoon.car])
  obtain ⟨_, a2, a3⟩ := h1 t le_rfl
  refine ⟨(h t).car t le_rfl, a2, a3.trans (le_of_eq ?_)⟩
  rw [hv0]; norm_num [Platoon.car]

/-- A lone car at 30 m/s that wants to drive at 20 m/s. -/
example : ∃ (s : ℕ → Road) (v : ℕ → Vehicle), s 0 = Settle.loneRoad .idm 30 20 ∧ (∀ t, frame {} (1 / 15) (s t) [] = .ok (s (t + 1))) ∧
    ∀ t, (s t).vehicles[0]? = some (v t) ∧ 20 ≤ (v t).speed ∧ (v t).speed - 20 ≤ (24 / 25) ^ t * 10 := by
  obtain ⟨s, v, h0, hv0, h⟩ := alone_rides {} (1 / 15) (Settle.loneRoad .idm 30 20) (Settle.loneRoad_healthy _ rfl _ _) rfl rfl _ rfl rfl
  refine ⟨s, v, h0, fun t => (h (t + 1)).run t (by omega), fun t => ?_⟩
  have h1 := free_settles_above {} (1 / 15) 0 s _ t v (h t) (by rw [hv0]) 20 3 30 10 (by rw [hv0]; rfl) rfl (by norm_num) (by norm_num) (by norm_num)
    (by rw [hv0]; norm_num [Platoon.car]) (by norm_num) (by norm_num) (by norm_num) (by norm_num) (by norm_num)
  obtain ⟨_, a2, a3⟩ := h1 t le_rfl
  refine ⟨(h t).car t le_rfl, a2, a3.trans (le_of_eq ?_)⟩
  norm_num

/-- A lone car of the linear class. -/
example : ∃ (s : ℕ → Road) (v : ℕ → Vehicle), s 0 = Settle.loneRoad .linear 30 20 ∧ (∀ t, frame {} (1 / 15) (s t) [] = .ok (s (t + 1))) ∧
    ∀ t, (s t).vehicles[0]? = some (v t) ∧ |20 - (v t).speed| ≤ (1 - (1 / 15) * min (v 0).accParams.1 (6 / 10)) ^ t * 10 := by
  obtain ⟨s, v, h0, hv0, h⟩ := alone_rides {} (1 / 15) (Settle.loneRoad .linear 30 20) (Settle.loneRoad_healthy _ rfl _ _) rfl rfl _ rfl rfl
  refine ⟨s, v, h0, fun t => (h (t + 1)).run t (by omega), fun t => ?_⟩
  have h1 := free_settles_linear {} (1 / 15) 0 s _ t v (h t) (by rw [hv0]; rfl) 20 (v 0).accParams.1 10 (by rw [hv0]; rfl) rfl (by rw [hv0]; norm_num [Platoon.car])
    (by norm_num) (by rw [hv0]; norm_num [Platoon.car]) (by norm_num [abs_le]) (by rw [hv0]; norm_num [Platoon.car, abs_le]) (by norm_num)
    (by rw [hv0]; norm_num [Platoon.car, abs_le])
  obtain ⟨_, a2, _⟩ := h1 t le_rfl
  refine ⟨(h t).car t le_rfl, a2.trans (le_of_eq ?_)⟩
  rw [hv0]; norm_num [Platoon.car, abs_of_neg]

/-- Two cars at 20 m/s, the follower (which would like 30 m/s) at the distance of balance, about 44.7 m: it stays there until the end of the lane is near. -/
example (n : ℕ) (hn : n ≤ 4500) : ∃ (s : ℕ → Road) (w v : Vehicle), (∀ t, frame {} (1 / 15) (s t) [] = .ok (s (t + 1))) ∧ (s n).vehicles = [w, v] ∧
    w.speed = 20 ∧ v.speed = 20 ∧ station Platoon.longLane w - station Platoon.longLane v = 360 / √65 := by
  have hpos : (0 : ℝ) < √65 := Real.sqrt_pos.2 (by norm_num)
  have hsq : √65 ^ 2 = (65 : ℝ) := Real.sq_sqrt (by norm_num)
  have h8 : 8 < √65 := by nlinarith
  have hd : 0 < 360 / √65 := by positivity
  have hd45 : 360 / √65 ≤ 45 := by rw [div_le_iff₀ hpos]; linarith
  set r : Road := { network := [("0", [("1", [Platoon.longLane])])], rng := ⟨fun _ => 0, fun _ => 0, 0, 0⟩
                    vehicles := [Platoon.car 0 (100 + 360 / √65) 20 20, Platoon.car 1 100 20 30] } with hr
  have hh : Healthy r := by
    have hv : ∀ u x v T, Attached r.network (Platoon.car u x v T) := fun u x v T =>
      ⟨⟨0, _, rfl, Platoon.net_has _ _ _⟩, getLane_of_hasLane (k := 0) (Platoon.net_py _ _ _) rfl (Platoon.net_has _ _ _), ⟨0, _, rfl, Platoon.net_has _ _ _⟩⟩
    refine ⟨Platoon.net_wf _ _ _, ?_, ?_, ?_⟩
    · intro v hvm
      rw [hr] at hvm
      simp only [List.mem_cons, List.not_mem_nil, or_false] at hvm
      rcases hvm with rfl | rfl <;> exact ⟨hv _ _ _ _, by simp [RouteExists, Platoon.car]⟩
    · simp [hr, Platoon.car, VKind.isLinear]
    · intro h; cases h
  obtain ⟨s, h0, hs⟩ := runs_for_ever {} (1 / 15) r hh rfl
  have hst : ∀ u x v T, station Platoon.longLane (Platoon.car u x v T) = x := by
    intro u x v T; simp [station, Platoon.car, Platoon.longLane_local]
  have hcars : (s 0).vehicles = [Platoon.car 0 (100 + 360 / √65) 20 20, Platoon.car 1 100 20 30] := by rw [h0]
  have hboth : ∀ P : Vehicle → Prop, P (Platoon.car 0 (100 + 360 / √65) 20 20) → P (Platoon.car 1 100 20 30) → ∀ v ∈ (s 0).vehicles, P v := by
    intro P h1 h2 v hv
    rw [hcars] at hv
    simp only [List.mem_cons, List.not_mem_nil, or_false] at hv
    rcases hv with rfl | rfl
    · exact h1
    · exact h2
  have hn' : (n : ℝ) ≤ 4500 := by exact_mod_cast hn
  obtain ⟨e1, e2⟩ := traffic_in_equilibrium {} (1 / 15) ⟨rfl, rfl, rfl⟩ (by norm_num) (by norm_num) ⟨"0", "1", 0⟩ Platoon.longLane s n 20 (fun t _ => hs t)
    (by rw [h0]; exact ⟨rfl, rfl, by simp, ⟨⟨0, 0⟩, ⟨10000, 0⟩, by simp, rfl⟩, by simp [Platoon.longLane], rfl, rfl⟩) (by rw [hcars]; simp [Platoon.car])
    (hboth _ (Platoon.car_drives _ _ _ _ (by norm_num) (by norm_num) (by norm_num)) (Platoon.car_drives _ _ _ _ (by norm_num) (by norm_num) (by norm_num)))
    (hboth _ rfl rfl) (hboth _ rfl rfl) (by rw [hcars]; intro v hv; cases hv; rfl)
    (by
      intro k w v hw hv
      rw [hcars] at hw hv
      obtain rfl : k = 0 := by
        have := (List.getElem?_eq_some_iff.1 hv).1
        simp at this
        exact this
      cases hw
      cases hv
      rw [hst, hst]
      refine ⟨by linarith, ?_⟩
      unfold InBalance
      have : 100 + 360 / √65 - 100 = 360 / √65 := by ring
      rw [this]
      have e : (10 + 3 / 2 * (20 : ℝ)) / (360 / √65) = √65 / 9 := by field_simp; norm_num
      rw [e, div_pow (√65), hsq]
      norm_num [Platoon.car])
    (hboth _ (by rw [hst]; linarith) (by rw [hst]; norm_num))
    (hboth _ (by rw [hst, Platoon.longLane_length]; linarith) (by rw [hst, Platoon.longLane_length]; linarith))
  obtain ⟨w, v, hwv⟩ : ∃ w v, (s n).vehicles = [w, v] := by
    rw [hcars] at e1
    exact List.length_eq_two.1 e1
  obtain ⟨w1, _, w3⟩ := e2 0 _ w (by rw [hcars]; rfl) (by rw [hwv]; rfl)
  obtain ⟨v1, _, v3⟩ := e2 1 _ v (by rw [hcars]; rfl) (by rw [hwv]; rfl)
  refine ⟨s, w, v, hs, hwv, w1, v1, ?_⟩
  rw [w3, v3, hst, hst]; ring

end HighwayEnv.Props
