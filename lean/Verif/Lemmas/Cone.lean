import Verif.Props.Kinematics
import Verif.Lemmas.Acted
import Verif.Lemmas.Invariant
import Verif.Spec.Traffic

/-! Steering towards a lane is a convex correction of the heading. -/

noncomputable section
namespace HighwayEnv
open Classical Real

theorem slip_neg (d : ℝ) : Vehicle.slip (-d) = -Vehicle.slip d := by
  unfold Vehicle.slip
  rw [Real.tan_neg, mul_neg, Real.arctan_neg]

theorem slip_range {d : ℝ} (h0 : 0 ≤ d) (h1 : d ≤ π / 3) : 0 ≤ Vehicle.slip d ∧ Vehicle.slip d ≤ d := by
  have hp := Real.pi_pos
  have ht : 0 ≤ Real.tan d := Real.tan_nonneg_of_nonneg_of_le_pi_div_two h0 (by linarith)
  unfold Vehicle.slip
  constructor
  · rw [← Real.arctan_zero]; exact Real.arctan_strictMono.monotone (by linarith)
  · calc Real.arctan (1 / 2 * Real.tan d) ≤ Real.arctan (Real.tan d) := Real.arctan_strictMono.monotone (by linarith)
      _ = d := Real.arctan_tan (by linarith) (by linarith)

/-- The slip angle is less than 45°. -/
theorem slip_lt {d : ℝ} (h : |d| ≤ π / 3) : |Vehicle.slip d| < π / 4 := by
  have hp := Real.pi_pos
  obtain ⟨h1, h2⟩ := abs_le.1 h
  have hs : √3 < 2 := by rw [Real.sqrt_lt' (by norm_num)]; norm_num
  have key : ∀ x, 0 ≤ x → x ≤ π / 3 → |Vehicle.slip x| < π / 4 := by
    intro x hx0 hx1
    rw [abs_of_nonneg (slip_range hx0 hx1).1]
    unfold Vehicle.slip
    rw [← Real.arctan_one]
    apply Real.arctan_strictMono
    have : Real.tan x ≤ Real.tan (π / 3) := by
      rcases hx1.lt_or_eq with h | h
      · exact (Real.tan_lt_tan_of_lt_of_lt_pi_div_two (by linarith) (by linarith) h).le
      · rw [h]
    rw [Real.tan_pi_div_three] at this
    linarith
  rcases le_total 0 d with hd | hd
  · exact key d hd h2
  · have := key (-d) (by linarith) (by linarith)
    rwa [slip_neg, abs_neg] at this

private theorem executed_pos {A : ℝ} (h0 : 0 ≤ A) (h1 : A ≤ 1) :
    0 ≤ Real.sin (Vehicle.slip (npClip (Real.arcsin A) (-(π / 3)) (π / 3))) ∧
    Real.sin (Vehicle.slip (npClip (Real.arcsin A) (-(π / 3)) (π / 3))) ≤ A := by
  have hp := Real.pi_pos
  have ha0 : 0 ≤ Real.arcsin A := Real.arcsin_nonneg.2 h0
  have ha1 := Real.arcsin_le_pi_div_two A
  set d := npClip (Real.arcsin A) (-(π / 3)) (π / 3) with hd
  have hd0 : 0 ≤ d := by rw [hd]; unfold npClip; exact le_min (le_max_of_le_left ha0) (by linarith)
  have hd1 : d ≤ π / 3 := by rw [hd]; unfold npClip; exact min_le_right _ _
  have hd2 : d ≤ Real.arcsin A := by rw [hd]; unfold npClip; exact (min_le_left _ _).trans (max_le le_rfl (by linarith))
  obtain ⟨s0, s1⟩ := slip_range hd0 hd1
  refine ⟨Real.sin_nonneg_of_nonneg_of_le_pi s0 (by linarith), ?_⟩
  calc Real.sin (Vehicle.slip d) ≤ Real.sin (Real.arcsin A) :=
        Real.sin_le_sin_of_le_of_le_pi_div_two (by linarith) ha1 (by linarith)
    _ = A := Real.sin_arcsin (by linarith) h1

/-- Through saturation, `arcsin`, clipping and slip, a command is executed in its direction and at most fully. -/
theorem executed_share (B : ℝ) : ∃ c : ℝ, 0 ≤ c ∧ c ≤ 1 ∧
    Real.sin (Vehicle.slip (npClip (Real.arcsin (npClip B (-1) 1)) (-(π / 3)) (π / 3))) = c * B := by
  have hp := Real.pi_pos
  have key : ∀ B, 0 < B → ∃ c : ℝ, 0 ≤ c ∧ c ≤ 1 ∧
      Real.sin (Vehicle.slip (npClip (Real.arcsin (npClip B (-1) 1)) (-(π / 3)) (π / 3))) = c * B := by
    intro B hB
    have c0 : 0 ≤ npClip B (-1) 1 := by unfold npClip; exact le_min (le_max_of_le_left hB.le) (by norm_num)
    have c1 : npClip B (-1) 1 ≤ 1 := by unfold npClip; exact min_le_right _ _
    have c2 : npClip B (-1) 1 ≤ B := by unfold npClip; exact (min_le_left _ _).trans (max_le le_rfl (by linarith))
    obtain ⟨e0, e1⟩ := executed_pos c0 c1
    refine ⟨_ / B, div_nonneg e0 hB.le, (div_le_one hB).2 (e1.trans c2), ?_⟩
    field_simp
  have npneg : ∀ x m : ℝ, 0 ≤ m → npClip (-x) (-m) m = -npClip x (-m) m := by
    intro x m hm
    unfold npClip
    rw [← max_neg_neg, ← min_neg_neg, neg_neg, min_max_distrib_right, min_eq_left (show -m ≤ m by linarith), max_comm]
  rcases lt_trichotomy B 0 with h | h | h
  · obtain ⟨c, c0, c1, e⟩ := key (-B) (by linarith)
    refine ⟨c, c0, c1, ?_⟩
    rw [npneg B 1 (by norm_num), Real.arcsin_neg, npneg _ _ (by positivity), slip_neg, Real.sin_neg] at e
    linarith
  · subst h
    refine ⟨0, le_rfl, by norm_num, ?_⟩
    have e1 : npClip 0 (-1) 1 = 0 := npClip_of_mem (by norm_num) (by norm_num)
    have e2 : npClip 0 (-(π / 3)) (π / 3) = 0 := npClip_of_mem (by linarith) (by linarith)
    rw [e1, Real.arcsin_zero, e2]
    simp [Vehicle.slip]
  · exact key B h

/-- The heading rate obtained by steering towards a lane is a share of the commanded one. -/
theorem steering_share (v : Vehicle) (l : Lane) : ∃ c : ℝ, 0 ≤ c ∧ c ≤ 1 ∧
    v.speed * Real.sin (Vehicle.slip (v.steeringToLane l)) / (Vehicle.LENGTH / 2) =
      c * (5 * wrapToPi (l.headingAt ((l.localCoordinates v.pos).1 + v.speed * (1 / 10)) +
        npClip (Real.arcsin (npClip (-(5 / 3) * (l.localCoordinates v.pos).2 / notZero v.speed) (-1) 1)) (-π / 4) (π / 4) - v.heading)) := by
  have hkl : Vehicle.KP_LATERAL = 5 / 3 := by unfold Vehicle.KP_LATERAL Vehicle.KP_HEADING; norm_num
  unfold Vehicle.steeringToLane
  dsimp only
  rw [hkl]
  set w := wrapToPi (l.headingAt ((l.localCoordinates v.pos).1 + v.speed * Vehicle.PURSUIT_TAU) +
        npClip (Real.arcsin (npClip (-(5 / 3) * (l.localCoordinates v.pos).2 / notZero v.speed) (-1) 1)) (-π / 4) (π / 4) - v.heading) with hw
  have hw' : wrapToPi (l.headingAt ((l.localCoordinates v.pos).1 + v.speed * (1 / 10)) +
        npClip (Real.arcsin (npClip (-(5 / 3) * (l.localCoordinates v.pos).2 / notZero v.speed) (-1) 1)) (-π / 4) (π / 4) - v.heading) = w := by
    rw [hw]; rfl
  rw [hw']
  obtain ⟨c, c0, c1, e⟩ := executed_share (Vehicle.LENGTH / 2 / notZero v.speed * (Vehicle.KP_HEADING * w))
  unfold Vehicle.MAX_STEERING_ANGLE
  rw [e]
  have hnz : notZero v.speed ≠ 0 ∧ 0 ≤ v.speed / notZero v.speed ∧ v.speed / notZero v.speed ≤ 1 := by
    unfold notZero
    split_ifs with h1 h2
    · have : v.speed ≠ 0 := by rintro h; rw [h] at h1; norm_num at h1
      exact ⟨this, by rw [div_self this]; norm_num, by rw [div_self this]⟩
    · refine ⟨by norm_num, by positivity, ?_⟩
      rw [div_le_one (by norm_num)]
      have := le_abs_self v.speed; linarith
    · refine ⟨by norm_num, ?_, ?_⟩
      · exact div_nonneg_of_nonpos (by linarith) (by norm_num)
      · rw [div_le_one_of_neg (by norm_num)]
        have := neg_abs_le v.speed; linarith
  obtain ⟨n0, n1, n2⟩ := hnz
  refine ⟨c * (v.speed / notZero v.speed), mul_nonneg c0 n1, mul_le_one₀ c1 n1 n2, ?_⟩
  have hL : (Vehicle.LENGTH / 2 : ℝ) ≠ 0 := by norm_num [Vehicle.LENGTH]
  have hL' : Vehicle.LENGTH ≠ 0 := by norm_num [Vehicle.LENGTH]
  unfold Vehicle.KP_HEADING
  field_simp

/-- One step of steering towards a lane whose heading (where the vehicle looks) is within `e` of `H` keeps the heading within `π/4 + e` of
`H`. -/
theorem cone_step {v : Vehicle} {l : Lane} {H e dt : ℝ} (h0 : 0 ≤ dt) (h1 : dt ≤ 1 / 5) (he : e < π / 4)
    (hl : ∀ s, |l.headingAt s - H| ≤ e) (hv : |v.heading - H| ≤ π / 4 + e) :
    |v.heading + v.speed * Real.sin (Vehicle.slip (v.steeringToLane l)) / (Vehicle.LENGTH / 2) * dt - H| ≤ π / 4 + e := by
  have hp := Real.pi_pos
  obtain ⟨c, c0, c1, hs⟩ := steering_share v l
  rw [hs]
  set ref := l.headingAt ((l.localCoordinates v.pos).1 + v.speed * (1 / 10)) +
        npClip (Real.arcsin (npClip (-(5 / 3) * (l.localCoordinates v.pos).2 / notZero v.speed) (-1) 1)) (-π / 4) (π / 4) with href
  have hr : |ref - H| ≤ π / 4 + e := by
    have h1 := hl ((l.localCoordinates v.pos).1 + v.speed * (1 / 10))
    have h2 : |npClip (Real.arcsin (npClip (-(5 / 3) * (l.localCoordinates v.pos).2 / notZero v.speed) (-1) 1)) (-π / 4) (π / 4)| ≤ π / 4 := by
      rw [neg_div]; exact abs_npClip (by positivity)
    rw [abs_le] at h1 h2 ⊢
    rw [href]
    constructor <;> linarith [h1.1, h1.2, h2.1, h2.2]
  have hw : wrapToPi (ref - v.heading) = ref - v.heading := by
    rw [abs_le] at hr hv
    exact wrapToPi_of_mem (by linarith [hr.1, hv.2]) (by linarith [hr.2, hv.1])
  rw [hw]
  have hm0 : 0 ≤ c * 5 * dt := by positivity
  have hm1 : c * 5 * dt ≤ 1 := by
    calc c * 5 * dt ≤ 1 * 5 * (1 / 5) := by
          apply mul_le_mul _ h1 h0 (by norm_num)
          linarith
      _ = 1 := by norm_num
  have : v.heading + c * (5 * (ref - v.heading)) * dt - H = (1 - c * 5 * dt) * (v.heading - H) + (c * 5 * dt) * (ref - H) := by ring
  rw [this]
  calc |(1 - c * 5 * dt) * (v.heading - H) + (c * 5 * dt) * (ref - H)|
      ≤ |(1 - c * 5 * dt) * (v.heading - H)| + |(c * 5 * dt) * (ref - H)| := abs_add_le _ _
    _ = (1 - c * 5 * dt) * |v.heading - H| + (c * 5 * dt) * |ref - H| := by
        rw [abs_mul, abs_mul, abs_of_nonneg hm0, abs_of_nonneg (by linarith : 0 ≤ 1 - c * 5 * dt)]
    _ ≤ (1 - c * 5 * dt) * (π / 4 + e) + (c * 5 * dt) * (π / 4 + e) := by
        apply add_le_add
        · exact mul_le_mul_of_nonneg_left hv (by linarith)
        · exact mul_le_mul_of_nonneg_left hr hm0
    _ = π / 4 + e := by ring

/-- The decision of a lane-following vehicle (of any class but the linear ones): it steers towards its target lane. -/
theorem act_steers {G : Globals} {r : Road} {v v' : Vehicle} {a : VAction} {rng' : Rng} (hk : v.kind.isControlled = true)
    (hl : v.kind.isLinear = false) (hc : v.kind.isIDM = true → v.crashed = false) (h : v.act G r a = .ok (v', rng')) :
    ∃ l, r.network.getLane v'.targetLane = .ok l ∧ v'.steering = v.steeringToLane l := by
  have hclip : ∀ (w : Vehicle) (l : Lane), npClip (w.steeringToLane l) (-Vehicle.MAX_STEERING_ANGLE) Vehicle.MAX_STEERING_ANGLE = w.steeringToLane l := by
    intro w l
    have hp := Real.pi_pos
    have hm : (0 : ℝ) ≤ Vehicle.MAX_STEERING_ANGLE := by unfold Vehicle.MAX_STEERING_ANGLE; positivity
    have : |w.steeringToLane l| ≤ Vehicle.MAX_STEERING_ANGLE := by
      unfold Vehicle.steeringToLane; exact abs_npClip hm
    exact npClip_of_mem (abs_le.1 this).1 (abs_le.1 this).2
  have steer : ∀ (w : Vehicle) (i : LaneIndex) (st : ℝ), w.kind.isLinear = false → w.steeringControl r.network i = .ok st →
      ∃ l, r.network.getLane i = .ok l ∧ st = w.steeringToLane l := by
    intro w i st hw h
    unfold Vehicle.steeringControl at h
    obtain ⟨l, h1, h⟩ := bind_ok h
    rw [if_neg (by simp [hw])] at h
    cases h
    exact ⟨l, h1, rfl⟩
  have ctl : ∀ (w : Vehicle) (b : VAction) (rng : Rng), w.kind = v.kind → w.pos = v.pos → w.heading = v.heading → w.speed = v.speed →
      w.controlledAct r.network rng b = .ok (v', rng') → ∃ l, r.network.getLane v'.targetLane = .ok l ∧ v'.steering = v.steeringToLane l := by
    intro w b rng e1 e2 e3 e4 h
    unfold Vehicle.controlledAct at h
    obtain ⟨⟨w1, rng1⟩, h1, h⟩ := bind_ok h
    obtain ⟨w2, h2, h⟩ := bind_ok h
    obtain ⟨st, h3, h⟩ := bind_ok h
    cases h
    obtain ⟨t, ro, rfl⟩ := Vehicle.followRoad_shape h1
    have hw2 : w2.kind = w.kind ∧ w2.pos = w.pos ∧ w2.heading = w.heading ∧ w2.speed = w.speed := by
      have chg : ∀ d, Vehicle.changeLane r.network { w with targetLane := t, route := ro } d = .ok w2 →
          w2.kind = w.kind ∧ w2.pos = w.pos ∧ w2.heading = w.heading ∧ w2.speed = w.speed := by
        intro d hd
        unfold Vehicle.changeLane at hd
        obtain ⟨ls, _, hd⟩ := bind_ok hd
        obtain ⟨lane, _, hd⟩ := bind_ok hd
        split at hd <;> cases hd <;> exact ⟨rfl, rfl, rfl, rfl⟩
      unfold Vehicle.applyMeta at h2
      cases b <;> first
        | exact chg _ h2
        | (cases h2; exact ⟨rfl, rfl, rfl, rfl⟩)
    obtain ⟨l, q1, q2⟩ := steer w2 _ st (by rw [hw2.1, e1]; exact hl) h3
    refine ⟨l, q1, ?_⟩
    change npClip st _ _ = _
    rw [q2, hclip]
    unfold Vehicle.steeringToLane
    rw [hw2.2.1, hw2.2.2.1, hw2.2.2.2, e2, e3, e4]
  unfold Vehicle.act at h
  cases hkk : v.kind <;> rw [hkk] at h hk hl hc <;> simp only at h
  · cases hk
  · cases hk
  · exact ctl v a r.rng rfl rfl rfl rfl h
  · unfold Vehicle.mdpAct at h
    cases a <;> first
      | exact ctl v _ r.rng rfl rfl rfl rfl h
      | exact ctl (v.setSpeedIndex G _) _ r.rng rfl rfl rfl rfl h
  · unfold Vehicle.idmAct at h
    rw [if_neg (by simp [hc rfl])] at h
    obtain ⟨⟨front, rear⟩, hf, h⟩ := bind_ok h
    obtain ⟨⟨v1, rng1⟩, h1, h⟩ := bind_ok h
    obtain ⟨v2, h2, h⟩ := bind_ok h
    obtain ⟨st, h3, h⟩ := bind_ok h
    obtain ⟨acc, h4, h⟩ := bind_ok h
    cases h
    obtain ⟨t, tm, e, _⟩ := Vehicle.maybeChangeLane_shape h2
    obtain ⟨t', ro, rfl⟩ := Vehicle.followRoad_shape h1
    subst e
    obtain ⟨l, q1, q2⟩ := steer _ _ st (by simp only; rw [hkk]; rfl) h3
    refine ⟨l, q1, ?_⟩
    change npClip st _ _ = _
    rw [q2, hclip]
    rfl
  · cases hl
  · cases hl
  · cases hl

/-- Steering towards a lane, as a vehicle is after its decision. -/
def Steers (g : Graph) (v : Vehicle) : Prop := v.crashed = true ∨ ∃ l, g.getLane v.targetLane = .ok l ∧ v.steering = v.steeringToLane l

theorem steers_of_act {G : Globals} {r : Road} {v v' : Vehicle} {a : VAction} {rng' : Rng} (hk : v.kind.isControlled = true)
    (hl : v.kind.isLinear = false) (h : v.act G r a = .ok (v', rng')) : Steers r.network v' := by
  have hb := Vehicle.act_body h
  by_cases hc : v.crashed = true
  · exact .inl (hb.crashed.trans hc)
  · obtain ⟨l, h1, h2⟩ := act_steers hk hl (fun _ => by simpa using hc) h
    refine .inr ⟨l, h1, ?_⟩
    rw [h2]; unfold Vehicle.steeringToLane; rw [hb.pos, hb.heading, hb.speed]

theorem Steers.yield {g : Graph} {v w : Vehicle} (h : Road.SameButYield v w) (hs : Steers g v) : Steers g w := by
  obtain ⟨_, _, _, _, rfl⟩ := h
  exact hs

/-- The move of a vehicle that steers towards a lane whose heading is within `e` of `H`. -/
theorem Steers.heading {g : Graph} {rec : Bool} {v w : Vehicle} {H e dt : ℝ} (h0 : 0 ≤ dt) (h1 : dt ≤ 1 / 5) (he : e < π / 4)
    (hk : v.kind ≠ .bicycle) (hs : Steers g v) (hl : ∀ l, g.getLane v.targetLane = .ok l → ∀ s, |l.headingAt s - H| ≤ e)
    (hv : |v.heading - H| ≤ π / 4 + e) (h : v.step g rec dt = .ok w) : |w.heading - H| ≤ π / 4 + e := by
  obtain ⟨_, hh, _⟩ := Props.step_kin hk h
  rw [hh]
  unfold Props.executedSteering
  cases hc : v.crashed with
  | true => simp [Vehicle.slip]; exact hv
  | false =>
    rcases hs with hs | ⟨l, h2, h3⟩
    · rw [hs] at hc; cases hc
    · rw [if_neg (by simp), h3]
      exact cone_step h0 h1 he (hl l h2) hv

namespace Road

/-- An invariant of single vehicles over one frame: kept by decisions, established in a form `Q` by the last decision before the move, and
re-established by the move and the collisions. -/
theorem frame_each {G : Globals} {dt : ℝ} {r r' : Road} {cmds : List (ℕ × VAction)} {P Q P' : Vehicle → Prop}
    (hcmd : ∀ (s : Road) v a v' rng, s.network = r.network → P v → v.act G s a = .ok (v', rng) → P v')
    (hact : ∀ (s : Road) v v' rng, s.network = r.network → P v → v.act G s .none = .ok (v', rng) → Q v')
    (hyield : r.regulated = true → ∀ v w, SameButYield v w → Q v → Q w)
    (hstep : ∀ v w, Q v → v.step r.network r.recordHistory dt = .ok w → P' w)
    (hbump : ∀ v s b, |s| ≤ |v.speed| → P' v → P' (bump v s b))
    (hI : ∀ v ∈ r.vehicles, P v) (h : Spec.frame G dt r cmds = .ok r') :
    (∀ v ∈ r'.vehicles, P' v) ∧ r'.network = r.network ∧ r'.recordHistory = r.recordHistory ∧ r'.regulated = r.regulated := by
  unfold Spec.frame at h
  obtain ⟨r1, hr1, h⟩ := bind_ok h
  obtain ⟨r2, hr2, h⟩ := bind_ok h
  have p1 : (r1.network = r.network ∧ r1.recordHistory = r.recordHistory ∧ r1.regulated = r.regulated) ∧ ∀ v ∈ r1.vehicles, P v := by
    refine foldlM_inv (I := fun s : Road => (s.network = r.network ∧ s.recordHistory = r.recordHistory ∧ s.regulated = r.regulated) ∧ ∀ v ∈ s.vehicles, P v)
      ?_ _ _ _ ⟨⟨rfl, rfl, rfl⟩, hI⟩ hr1
    rintro s c s' ⟨⟨i1, i3, i4⟩, i2⟩ hs
    refine ⟨⟨(actAt_frame hs).2.network.trans i1, (actAt_frame hs).2.recordHistory.trans i3, (actAt_frame hs).2.regulated.trans i4⟩, ?_⟩
    unfold Road.actAt at hs
    split at hs
    · cases hs; exact i2
    · rename_i v hv
      obtain ⟨⟨w, rng⟩, hw, hs⟩ := bind_ok hs
      cases hs
      exact forall_set i2 (hcmd s v _ w rng i1 (i2 v (List.mem_of_getElem? hv)) hw)
  obtain ⟨⟨n1, n2, n3⟩, p1⟩ := p1
  have hacted := act_acted hr2
  have hsc := (act_frame hr2).2
  have hn2 : r2.network = r.network := hsc.network.trans n1
  have hrec2 : r2.recordHistory = r.recordHistory := hsc.recordHistory.trans n2
  have hreg2 : r2.regulated = r.regulated := hsc.regulated.trans n3
  have p2 : ∀ v ∈ r2.vehicles, Q v := by
    refine hacted.forall (P := P) (Q := Q) ?_ p1
    rintro v w ⟨s, rng, h1, _, h2⟩ hv
    exact hact s v w rng (h1.network.trans n1) hv h2
  obtain ⟨hs, hn3, hr3, hreg3, _⟩ := step_frame h
  rw [hn2, hrec2] at hs
  refine ⟨?_, hn3.trans hn2, hr3.trans hrec2, hreg3.trans hreg2⟩
  cases hreg : r.regulated with
  | true =>
    refine hs.forall (P := Q) (Q := P') ?_ p2
    rintro v w ⟨u, hu, x, hx, s, b, rfl, hle, _⟩ hv
    exact hbump x s b hle (hstep u x (hyield hreg v u hu hv) hx)
  | false =>
    unfold Road.step at h
    rw [hreg2, hreg, if_neg (by simp)] at h
    obtain ⟨hs, _⟩ := stepBase_frame h
    rw [hn2, hrec2] at hs
    refine hs.forall (P := Q) (Q := P') ?_ p2
    rintro v w ⟨x, hx, s, b, rfl, hle, _⟩ hv
    exact hbump x s b hle (hstep v x hv hx)

end Road

end HighwayEnv
