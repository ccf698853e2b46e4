import Verif.Props.Mirror
import Mathlib.Analysis.SpecialFunctions.Complex.Arg

/-!
# C124 — the dynamic bicycle in a mirror
-/

noncomputable section
open Classical
namespace HighwayEnv
namespace Props
open Spec Vehicle

private theorem arctan2_neg {y x : ℝ} (h : 0 ≤ x ∨ y ≠ 0) : arctan2 (-y) x = -arctan2 y x := by
  unfold arctan2
  have e : (⟨x, -y⟩ : ℂ) = (starRingEnd ℂ) ⟨x, y⟩ := rfl
  rw [e, Complex.arg_conj, if_neg]
  rw [Complex.arg_eq_pi_iff]
  rintro ⟨h1, h2⟩
  rcases h with h | h
  · exact absurd h1 (not_lt.2 h)
  · exact h h2

private theorem arctan2_back {x : ℝ} (h : x < 0) : arctan2 0 x = Real.pi := by
  unfold arctan2
  rw [Complex.arg_eq_pi_iff]
  exact ⟨h, rfl⟩

private theorem clip_odd {b : ℝ} (hb : 0 ≤ b) (x : ℝ) : npClip (-x) (-b) b = -npClip x (-b) b := Vehicle.npClip_odd x hb

private theorem clipActions_bicycle {v : Vehicle} (hk : v.kind = .bicycle) : v.clipActions.kind = .bicycle ∧ v.clipActions.speed = v.speed ∧
    v.clipActions.lateralSpeed = v.lateralSpeed ∧ v.clipActions.yawRate = npClip v.yawRate (-(2 * Real.pi)) (2 * Real.pi) ∧
    v.clipActions.steering ≤ Real.pi / 2 := by
  have hb : v.clipActionsBase.kind = v.kind ∧ v.clipActionsBase.speed = v.speed ∧ v.clipActionsBase.lateralSpeed = v.lateralSpeed ∧
      v.clipActionsBase.yawRate = v.yawRate := by
    unfold clipActionsBase
    dsimp only
    split_ifs <;> exact ⟨rfl, rfl, rfl, rfl⟩
  unfold clipActions
  dsimp only
  rw [if_pos (hb.1.trans hk)]
  refine ⟨hb.1.trans hk, hb.2.1, hb.2.2.1, by dsimp only; rw [hb.2.2.2], ?_⟩
  dsimp only
  unfold npClip
  exact min_le_right _ _

private theorem clipActions_mb {v : Vehicle} (hk : v.kind = .bicycle) : v.mirror.clipActions = v.clipActions.mirror := by
  have h : v.clipActionsBase.kind = v.kind := by
    unfold clipActionsBase
    dsimp only
    split_ifs <;> rfl
  have hp := Real.pi_pos
  unfold clipActions
  rw [clipActionsBase_m]
  have h' : v.clipActionsBase.mirror.kind = v.kind := h
  dsimp only
  rw [if_pos (h'.trans hk), if_pos (h.trans hk)]
  generalize v.clipActionsBase = w
  have e1 : npClip (-w.steering) (-Real.pi / 2) (Real.pi / 2) = -npClip w.steering (-Real.pi / 2) (Real.pi / 2) := by
    rw [show -Real.pi / 2 = -(Real.pi / 2) by ring]
    exact clip_odd (by linarith) _
  have e2 : npClip (-w.yawRate) (-(2 * Real.pi)) (2 * Real.pi) = -npClip w.yawRate (-(2 * Real.pi)) (2 * Real.pi) := clip_odd (by linarith) _
  unfold Vehicle.mirror
  dsimp only
  rw [e1, e2]

private theorem lateral_mb {v : Vehicle} (h : -1 < v.speed ∨ (v.lateralSpeed + LENGTH / 2 * v.yawRate ≠ 0 ∧ v.lateralSpeed - LENGTH / 2 * v.yawRate ≠ 0)) :
    v.mirror.bicycleLateral = (-v.bicycleLateral.1, -v.bicycleLateral.2) := by
  unfold bicycleLateral
  dsimp only
  by_cases hs : |v.speed| < 1
  · rw [if_pos (show |v.mirror.speed| < 1 from hs), if_pos hs]
    simp only [lateralSpeed_m, yawRate_m, speed_m]
    ext <;> dsimp only <;> ring
  · rw [if_neg (show ¬ |v.mirror.speed| < 1 from hs), if_neg hs]
    simp only [lateralSpeed_m, yawRate_m, speed_m]
    have hx : (0 ≤ v.speed ∨ v.lateralSpeed + LENGTH / 2 * v.yawRate ≠ 0) ∧ (0 ≤ v.speed ∨ v.lateralSpeed - LENGTH / 2 * v.yawRate ≠ 0) := by
      rcases h with h | h
      · have : 0 ≤ v.speed := by
          by_contra hn
          push Not at hn
          exact hs (by rw [abs_of_neg hn]; linarith)
        exact ⟨.inl this, .inl this⟩
      · exact ⟨.inr h.1, .inr h.2⟩
    have e1 : -v.lateralSpeed + LENGTH / 2 * -v.yawRate = -(v.lateralSpeed + LENGTH / 2 * v.yawRate) := by ring
    have e2 : -v.lateralSpeed - LENGTH / 2 * -v.yawRate = -(v.lateralSpeed - LENGTH / 2 * v.yawRate) := by ring
    rw [e1, e2, arctan2_neg hx.1, arctan2_neg hx.2]
    have e3 : v.mirror.steering = -v.steering := rfl
    rw [e3]
    ext <;> dsimp only <;> ring

private theorem integrate_mb {v : Vehicle} (dt : ℝ)
    (h : -1 < v.speed ∨ (v.lateralSpeed + LENGTH / 2 * v.yawRate ≠ 0 ∧ v.lateralSpeed - LENGTH / 2 * v.yawRate ≠ 0)) :
    v.mirror.integrateBicycle dt = (v.integrateBicycle dt).mirror := by
  have e1 : v.pos.mirror + dt • Vec2.rot (-v.heading) ⟨v.speed, -v.lateralSpeed⟩ = (v.pos + dt • Vec2.rot v.heading ⟨v.speed, v.lateralSpeed⟩).mirror := by
    unfold Vec2.mirror Vec2.rot
    ext
    · simp [Real.cos_neg, Real.sin_neg]
    · simp [Real.cos_neg, Real.sin_neg]; ring
  unfold integrateBicycle
  rw [lateral_mb h]
  unfold Vehicle.mirror
  dsimp only
  rw [e1, show -v.heading + -v.yawRate * dt = -(v.heading + v.yawRate * dt) by ring,
    show -v.lateralSpeed + -v.bicycleLateral.1 * dt = -(v.lateralSpeed + v.bicycleLateral.1 * dt) by ring,
    show -v.yawRate + -v.bicycleLateral.2 * dt = -(v.yawRate + v.bicycleLateral.2 * dt) by ring]

private theorem move_bicycle {v : Vehicle} (hk : v.kind = .bicycle) (dt : ℝ) : v.move dt = v.clipActions.integrateBicycle dt := by
  unfold move
  have h1 : v.kind.isIDM = false := by rw [hk]; rfl
  simp only [h1, Bool.false_eq_true, if_false]
  rw [if_pos (clipActions_bicycle hk).1]

/-- **C124.** The motion of a dynamic bicycle in the mirror, for any duration, when it does not reverse faster than 1 m/s — or does, but slides sideways at
both axles (`LENGTH / 2` before and behind the middle). -/
theorem mirrored_bicycle (v : Vehicle) (hk : v.kind = .bicycle) (dt : ℝ)
    (h : -1 < v.speed ∨ (v.lateralSpeed + 5 / 2 * npClip v.yawRate (-(2 * Real.pi)) (2 * Real.pi) ≠ 0 ∧
      v.lateralSpeed - 5 / 2 * npClip v.yawRate (-(2 * Real.pi)) (2 * Real.pi) ≠ 0)) :
    v.mirror.move dt = (v.move dt).mirror := by
  obtain ⟨_, c2, c3, c4, _⟩ := clipActions_bicycle hk
  rw [move_bicycle hk, move_bicycle (v := v.mirror) hk, clipActions_mb hk]
  refine integrate_mb dt ?_
  rw [c2, c3, c4, show (LENGTH : ℝ) / 2 = 5 / 2 by unfold LENGTH; norm_num]
  exact h

/-- **C124.** Hence a whole `step` of it, on a road all of whose lanes have an image of where it arrives: the same lane, and the mirrored state. -/
theorem mirrored_bicycle_step (g : Graph) (rec : Bool) (v : Vehicle) (hk : v.kind = .bicycle) (dt : ℝ)
    (h : -1 < v.speed ∨ (v.lateralSpeed + 5 / 2 * npClip v.yawRate (-(2 * Real.pi)) (2 * Real.pi) ≠ 0 ∧
      v.lateralSpeed - 5 / 2 * npClip v.yawRate (-(2 * Real.pi)) (2 * Real.pi) ≠ 0))
    (hg : ∀ nd ∈ g, ∀ ml ∈ nd.2, ∀ l ∈ ml.2, HasImage l (v.move dt).pos) :
    v.mirror.step g.mirror rec dt = (v.step g rec dt).map Vehicle.mirror := by
  unfold step
  rw [mirrored_bicycle v hk dt h]
  exact onStateUpdate_m (L := {l | HasImage l (v.move dt).pos}) hg rec fun l hl => hl

/-- **C124, the exception.** A bicycle that reverses straight at 1 m/s or more is thrown sideways, whatever its steering and always to the same side: after
a time `dt` it slides at `45 π dt` at least. -/
theorem bicycle_reverses_askew (v : Vehicle) (hk : v.kind = .bicycle) (hs : v.speed ≤ -1) (hl : v.lateralSpeed = 0) (hy : v.yawRate = 0) (dt : ℝ)
    (h0 : 0 ≤ dt) : (v.move dt).lateralSpeed ≤ -(45 * Real.pi * dt) := by
  obtain ⟨_, c2, c3, c4, c5⟩ := clipActions_bicycle hk
  have hp := Real.pi_pos
  have c4' : v.clipActions.yawRate = 0 := by
    rw [c4, hy]
    unfold npClip
    rw [max_eq_left (by linarith), min_eq_left (by linarith)]
  have hb : v.clipActions.bicycleLateral.1 = 30 * v.clipActions.steering - 60 * Real.pi := by
    unfold bicycleLateral
    simp only [c2, c3, c4', hl, mul_zero, add_zero, sub_zero, arctan2_back (show v.speed < 0 by linarith)]
    rw [if_neg (by rw [abs_of_neg (by linarith)]; linarith)]
    ring
  rw [move_bicycle hk]
  unfold integrateBicycle
  dsimp only
  rw [hb, c3, hl]
  nlinarith [mul_nonneg h0 (show 0 ≤ Real.pi / 2 - v.clipActions.steering by linarith)]

/-- **C124.** So that it does not behave alike on both sides. -/
theorem bicycle_reverses_unlike (v : Vehicle) (hk : v.kind = .bicycle) (hs : v.speed ≤ -1) (hl : v.lateralSpeed = 0) (hy : v.yawRate = 0) (dt : ℝ)
    (h0 : 0 < dt) : v.mirror.move dt ≠ (v.move dt).mirror := by
  intro h
  have h1 := bicycle_reverses_askew v hk hs hl hy dt h0.le
  have h2 := bicycle_reverses_askew v.mirror hk hs (by rw [lateralSpeed_m, hl, neg_zero]) (by rw [yawRate_m, hy, neg_zero]) dt h0.le
  rw [h, lateralSpeed_m] at h2
  have : 0 < 45 * Real.pi * dt := by have := Real.pi_pos; positivity
  linarith

/-- One slow step backwards: no lateral motion appears, whatever the steering. -/
private theorem slow_move {v : Vehicle} (hk : v.kind = .bicycle) (hc : v.crashed = false) (h1 : -1 < v.speed) (h2 : v.speed ≤ 0)
    (hl : v.lateralSpeed = 0) (hy : v.yawRate = 0) (dt : ℝ) : (v.move dt).kind = .bicycle ∧ (v.move dt).crashed = false ∧
      (v.move dt).lateralSpeed = 0 ∧ (v.move dt).yawRate = 0 ∧ (v.move dt).acceleration = v.acceleration ∧
      (v.move dt).speed = v.speed + v.acceleration * dt := by
  have hp := Real.pi_pos
  have hbase : v.clipActionsBase = v := by
    unfold clipActionsBase
    have hm : v.kind.maxSpeed = 15 := by rw [hk]; rfl
    rw [hc]
    simp only [Bool.false_eq_true, if_false]
    rw [hm, if_neg (by linarith), if_neg (by linarith)]
  have hclip : v.clipActions = { v with steering := npClip v.steering (-Real.pi / 2) (Real.pi / 2), yawRate := 0 } := by
    unfold clipActions
    rw [hbase]
    dsimp only
    have : npClip v.yawRate (-(2 * Real.pi)) (2 * Real.pi) = 0 := by
      rw [hy]
      unfold npClip
      rw [max_eq_left (by linarith), min_eq_left (by linarith)]
    rw [if_pos hk, this]
  have hb : v.clipActions.bicycleLateral = (0, 0) := by
    rw [hclip]
    unfold bicycleLateral
    dsimp only
    rw [if_pos (by rw [abs_of_nonpos h2]; linarith), hl]
    ext <;> dsimp only <;> ring
  rw [move_bicycle hk]
  unfold integrateBicycle
  rw [hb, hclip]
  dsimp only
  exact ⟨hk, hc, by rw [hl]; ring, by ring, rfl, rfl⟩

/-- **C124.** So no bicycle can back out: from rest, with any constant backward command and any steering, it moves straight for some steps and is then thrown
sideways. -/
theorem bicycle_backs_out (v : Vehicle) (hk : v.kind = .bicycle) (hc : v.crashed = false) (h0 : v.speed = 0) (hl : v.lateralSpeed = 0)
    (hy : v.yawRate = 0) (ha : v.acceleration < 0) (dt : ℝ) (ht : 0 < dt) :
    ∃ n, ((fun w : Vehicle => w.move dt)^[n + 1] v).lateralSpeed ≤ -(45 * Real.pi * dt) ∧
      ∀ k ≤ n, ((fun w : Vehicle => w.move dt)^[k] v).lateralSpeed = 0 := by
  have hat : v.acceleration * dt < 0 := mul_neg_of_neg_of_pos ha ht
  have hex : ∃ n : ℕ, (n : ℝ) * (v.acceleration * dt) ≤ -1 := by
    obtain ⟨n, hn⟩ := exists_nat_ge (1 / -(v.acceleration * dt))
    refine ⟨n, ?_⟩
    rw [div_le_iff₀ (by linarith)] at hn
    linarith
  have key : ∀ k ≤ Nat.find hex, ((fun w : Vehicle => w.move dt)^[k] v).kind = .bicycle ∧ ((fun w : Vehicle => w.move dt)^[k] v).crashed = false ∧
      ((fun w : Vehicle => w.move dt)^[k] v).lateralSpeed = 0 ∧ ((fun w : Vehicle => w.move dt)^[k] v).yawRate = 0 ∧
      ((fun w : Vehicle => w.move dt)^[k] v).acceleration = v.acceleration ∧
      ((fun w : Vehicle => w.move dt)^[k] v).speed = k * (v.acceleration * dt) := by
    intro k
    induction k with
    | zero => intro _; exact ⟨hk, hc, hl, hy, rfl, by rw [Function.iterate_zero, id, h0]; simp⟩
    | succ k ih =>
      intro hle
      obtain ⟨i1, i2, i3, i4, i5, i6⟩ := ih (by omega)
      have hnot := Nat.find_min hex (show k < Nat.find hex by omega)
      push Not at hnot
      rw [Function.iterate_succ_apply']
      generalize (fun w : Vehicle => w.move dt)^[k] v = w at i1 i2 i3 i4 i5 i6
      have hk0 : (0 : ℝ) ≤ k := Nat.cast_nonneg k
      obtain ⟨s1, s2, s3, s4, s5, s6⟩ := slow_move i1 i2 (by rw [i6]; exact hnot) (by rw [i6]; nlinarith) i3 i4 dt
      refine ⟨s1, s2, s3, s4, s5.trans i5, ?_⟩
      rw [s6, i6, i5]
      push_cast
      ring
  refine ⟨Nat.find hex, ?_, fun k hk => (key k hk).2.2.1⟩
  obtain ⟨i1, _, i3, i4, _, i6⟩ := key _ le_rfl
  rw [Function.iterate_succ_apply']
  exact bicycle_reverses_askew _ i1 (by rw [i6]; exact Nat.find_spec hex) i3 i4 dt ht.le

/-- Non-vacuity: a bicycle driving and turning at 8 m/s moves alike on both sides; the same one reversing straight does not. -/
example : ∃ v : Vehicle, v.kind = .bicycle ∧ v.steering = 1 / 10 ∧ v.mirror.move (1 / 15) = (v.move (1 / 15)).mirror ∧
    (∃ n, ((fun w : Vehicle => w.move (1 / 15))^[n + 1] { v with speed := 0, acceleration := -5 }).lateralSpeed ≤ -(45 * Real.pi * (1 / 15))) ∧
    (∀ dt > 0, ({ v with speed := -8, steering := 0 } : Vehicle).mirror.move dt ≠ (({ v with speed := -8, steering := 0 } : Vehicle).move dt).mirror) := by
  let v : Vehicle := { uid := 0, kind := .bicycle, pos := ⟨0, 0⟩, heading := 0, speed := 8, steering := 1 / 10, laneIndex := ⟨"", "", 0⟩,
                       targetLane := ⟨"", "", 0⟩, lane := { shape := .straight ⟨0, 0⟩ ⟨1, 0⟩ } }
  exact ⟨v, rfl, rfl, mirrored_bicycle v rfl _ (.inl (by show (-1 : ℝ) < 8; norm_num)),
    (bicycle_backs_out { v with speed := 0, acceleration := -5 } rfl rfl rfl rfl rfl (by show (-5 : ℝ) < 0; norm_num) _ (by norm_num)).imp fun _ h => h.1,
    fun dt hdt => bicycle_reverses_unlike _ rfl (by show (-8 : ℝ) ≤ -1; norm_num) rfl rfl dt hdt⟩

end Props
end HighwayEnv
