import Verif.Props.Lpv
import Verif.Spec.Prediction
import Verif.Lemmas.Utils
import Verif.Lemmas.Num
import Verif.Lemmas.Lane
import Verif.Lemmas.Act

/-!
# C66: interval vehicles
-/

noncomputable section
open Classical Matrix Real
namespace HighwayEnv.Props
open HighwayEnv Spec

/-! ## The heading -/

private theorem cos_anti {x y : ℝ} (h0 : 0 ≤ x) (h : x ≤ y) (hy : y ≤ π) : cos y ≤ cos x := cos_le_cos_of_nonneg_of_le_pi h0 hy h

private theorem cos_mono {x y : ℝ} (h0 : -π ≤ x) (h : x ≤ y) (hy : y ≤ 0) : cos x ≤ cos y := by
  rw [← cos_neg x, ← cos_neg y]; exact cos_anti (by linarith) (by linarith) (by linarith)

private theorem cos_mono2 {x y : ℝ} (h0 : π ≤ x) (h : x ≤ y) (hy : y ≤ 2 * π) : cos x ≤ cos y := by
  have e : ∀ z, cos z = cos (2 * π - z) := fun z => by rw [cos_two_pi_sub]
  rw [e x, e y]; exact cos_anti (by linarith) (by linarith) (by linarith)

/-- **C66, cosine.**  For headings between -π and 2π, the interval of cosines contains the cosine of every heading of the interval. -/
theorem cosI_encloses (psi : Itv ℝ) (h1 : -π ≤ psi.1) (h2 : psi.2 ≤ 2 * π) (x : ℝ) (hx : InItv x psi) : InItv (cos x) (Observer.cosI psi) := by
  obtain ⟨a, b⟩ := psi
  obtain ⟨ha, hb⟩ := hx
  dsimp only at *
  have hp := pi_pos
  constructor
  · show (if a ≤ π ∧ π ≤ b then (-1 : ℝ) else min (cos a) (cos b)) ≤ cos x
    split
    · exact neg_one_le_cos x
    · rename_i h
      by_cases h3 : b < π
      · rcases le_total 0 x with h0 | h0
        · exact (min_le_right _ _).trans (cos_anti h0 hb h3.le)
        · exact (min_le_left _ _).trans (cos_mono h1 ha h0)
      · have h4 : π < a := by by_contra h5; exact h ⟨not_lt.1 h5, not_lt.1 h3⟩
        exact (min_le_left _ _).trans (cos_mono2 h4.le ha (by linarith))
  · show cos x ≤ (if a ≤ 0 ∧ 0 ≤ b then (1 : ℝ) else max (cos a) (cos b))
    split
    · exact cos_le_one x
    · rename_i h
      by_cases h3 : b < 0
      · exact (cos_mono (by linarith) hb h3.le).trans (le_max_right _ _)
      · have h4 : 0 < a := by by_contra h5; exact h ⟨not_lt.1 h5, not_lt.1 h3⟩
        rcases le_total x π with h0 | h0
        · exact (cos_anti h4.le ha h0).trans (le_max_left _ _)
        · exact (cos_mono2 h0 hb h2).trans (le_max_right _ _)

/-- **C66, sine.**  The same for headings between -3π/2 and 3π/2. -/
theorem sinI_encloses (psi : Itv ℝ) (h1 : -(3 * π / 2) ≤ psi.1) (h2 : psi.2 ≤ 3 * π / 2) (x : ℝ) (hx : InItv x psi) :
    InItv (sin x) (Observer.sinI psi) := by
  have key := cosI_encloses (psi.1 + π / 2, psi.2 + π / 2) (by dsimp only; linarith) (by dsimp only; linarith) (x + π / 2)
    ⟨by have := hx.1; dsimp only; linarith, by have := hx.2; dsimp only; linarith⟩
  unfold InItv Observer.cosI at key
  unfold InItv Observer.sinI
  simp only [cos_add_pi_div_two] at key
  obtain ⟨k1, k2⟩ := key
  have c1 : (psi.1 + π / 2 ≤ π ∧ π ≤ psi.2 + π / 2) ↔ (psi.1 ≤ π / 2 ∧ π / 2 ≤ psi.2) := by constructor <;> rintro ⟨a, b⟩ <;> constructor <;> linarith
  have c2 : (psi.1 + π / 2 ≤ 0 ∧ 0 ≤ psi.2 + π / 2) ↔ (psi.1 ≤ -π / 2 ∧ -π / 2 ≤ psi.2) := by constructor <;> rintro ⟨a, b⟩ <;> constructor <;> linarith
  simp only [c1] at k1
  simp only [c2] at k2
  constructor
  · split at k2
    · rename_i h; dsimp only; rw [if_pos h]; exact neg_one_le_sin x
    · rename_i h; dsimp only; rw [if_neg h]; rw [← neg_le_neg_iff]; rw [← max_neg_neg]; exact k2
  · split at k1
    · rename_i h; dsimp only; rw [if_pos h]; exact sin_le_one x
    · rename_i h; dsimp only; rw [if_neg h]; rw [← neg_le_neg_iff]; rw [← min_neg_neg]; exact k1

/-- Outside this window the intervals do not enclose: between 3/2 π and 5/2 π the cosine reaches 1, but the computed interval is about 0. -/
theorem cosI_window : ¬ InItv (cos (2 * π)) (Observer.cosI (3 * π / 2, 5 * π / 2)) := by
  rintro ⟨_, h⟩
  have hp := pi_pos
  unfold Observer.cosI at h
  dsimp only at h
  have e1 : cos (3 * π / 2) = 0 := by rw [show 3 * π / 2 = π / 2 + π by ring, cos_add_pi, cos_pi_div_two, neg_zero]
  have e2 : cos (5 * π / 2) = 0 := by rw [show 5 * π / 2 = π / 2 + 2 * π by ring, cos_add_two_pi, cos_pi_div_two]
  rw [cos_two_pi, if_neg (by rintro ⟨h, _⟩; linarith), e1, e2, max_self] at h
  linarith

/-! ## The observer -/

private theorem clip_mono {x y a b : ℝ} (h : x ≤ y) : npClip x a b ≤ npClip y a b := by
  unfold npClip; exact min_le_min_right b (max_le_max_right a h)

private theorem sub_box {p q : Vec2} {i j : Itv Vec2} (hp : InBox p i) (hq : InBox q j) : InBox (q - p) (j.1 - i.2, j.2 - i.1) := by
  obtain ⟨⟨a, b⟩, c, d⟩ := hp
  obtain ⟨⟨a', b'⟩, c', d'⟩ := hq
  refine ⟨⟨?_, ?_⟩, ⟨?_, ?_⟩⟩ <;> simp only [Vec2.sub_x, Vec2.sub_y] <;> dsimp only at * <;> linarith

private theorem negPart_mono {x : ℝ} {a : Itv ℝ} (h : InItv x a) : InItv (min x 0) (Itv.negativePart a) :=
  ⟨min_le_min_right 0 h.1, min_le_min_right 0 h.2⟩

/-- **C66, speed.**  Whatever the parameters in their box, the position and the speed in their intervals, and the front vehicle in its
interval, the acceleration of the driver lies in the computed interval. -/
theorem observer_acceleration (o : Observer) (i : VehicleInterval) (ht : 0 ≤ o.timeWanted) (pos : Vec2) (speed heading : ℝ)
    (hs : InVehicle pos speed heading i) (θ : Fin 3 → ℝ) (hθ : InItv θ o.thetaA) (front : Option (Vec2 × ℝ))
    (hf : ∀ f, o.front = some f → ∃ q vf, front = some (q, vf) ∧ InBox q f.position ∧ InItv vf f.speed) (hn : o.front = none → front = none) :
    InItv (linearAcceleration θ o.targetSpeed o.distanceWanted o.timeWanted speed
      (front.map fun q => ((q.1.x - pos.x) * cos o.ownPsi + (q.1.y - pos.y) * sin o.ownPsi, q.2))) (o.dv i) := by
  obtain ⟨hp, hv, _⟩ := hs
  have hT := product_encloses.1 (o.thetaA.1 0, o.thetaA.2 0) (o.targetSpeed - i.speed.2, o.targetSpeed - i.speed.1) (θ 0) (o.targetSpeed - speed)
    ⟨hθ.1 0, hθ.2 0⟩ ⟨sub_le_sub_left hv.2 _, sub_le_sub_left hv.1 _⟩
  have main : ∀ φ : Fin 3 → ℝ, InItv φ (o.phiA i) → InItv (min (max (θ 0 * (o.targetSpeed - speed) + θ ⬝ᵥ φ) (-6)) 6) (o.dv i) := by
    intro φ hφ
    have hA := product_encloses.2.1 (Fin 3) o.thetaA (o.phiA i) θ φ hθ hφ
    constructor
    · exact clip_mono (a := -6) (b := 6) (add_le_add hT.1 hA.1)
    · exact clip_mono (a := -6) (b := 6) (add_le_add hT.2 hA.2)
  cases hof : o.front with
  | none =>
    rw [hn hof]
    have := main 0 (by unfold Observer.phiA; rw [hof]; constructor <;> intro j <;> fin_cases j <;> simp)
    simpa [linearAcceleration] using this
  | some f =>
    obtain ⟨q, vf, rfl, hq, hvf⟩ := hf f hof
    have h1 : InItv (min (vf - speed) 0) (Itv.negativePart (Itv.diff f.speed i.speed)) :=
      negPart_mono ⟨sub_le_sub hvf.1 hv.2, sub_le_sub hvf.2 hv.1⟩
    have hbox := sub_box hp hq
    have h2 : InItv ((q.x - pos.x) * cos o.ownPsi + (q.y - pos.y) * sin o.ownPsi)
        (Itv.section' (f.position.1 - i.position.2, f.position.2 - i.position.1) ⟨cos o.ownPsi, sin o.ownPsi⟩) := by
      have := section_exact (f.position.1 - i.position.2, f.position.2 - i.position.1) ⟨cos o.ownPsi, sin o.ownPsi⟩
        (hbox.1.1.trans hbox.1.2) (hbox.2.1.trans hbox.2.2)
      exact ⟨this.1.2 ⟨q - pos, hbox, rfl⟩, this.2.2 ⟨q - pos, hbox, rfl⟩⟩
    have h3 : InItv (min ((q.x - pos.x) * cos o.ownPsi + (q.y - pos.y) * sin o.ownPsi - (o.distanceWanted + o.timeWanted * speed)) 0)
        (Itv.negativePart (Itv.diff (Itv.section' (f.position.1 - i.position.2, f.position.2 - i.position.1) ⟨cos o.ownPsi, sin o.ownPsi⟩)
          (o.distanceWanted + o.timeWanted * i.speed.1, o.distanceWanted + o.timeWanted * i.speed.2))) := by
      refine negPart_mono ⟨sub_le_sub h2.1 ?_, sub_le_sub h2.2 ?_⟩
      · exact add_le_add le_rfl (mul_le_mul_of_nonneg_left hv.2 ht)
      · exact add_le_add le_rfl (mul_le_mul_of_nonneg_left hv.1 ht)
    have := main ![0, min (vf - speed) 0, min ((q.x - pos.x) * cos o.ownPsi + (q.y - pos.y) * sin o.ownPsi - (o.distanceWanted + o.timeWanted * speed)) 0]
      (by
        unfold Observer.phiA; rw [hof]
        constructor <;> intro j <;> fin_cases j
        · exact le_rfl
        · exact h1.1
        · exact h3.1
        · exact le_rfl
        · exact h1.2
        · exact h3.2)
    have e : θ ⬝ᵥ ![0, min (vf - speed) 0, min ((q.x - pos.x) * cos o.ownPsi + (q.y - pos.y) * sin o.ownPsi - (o.distanceWanted + o.timeWanted * speed)) 0] =
        θ 1 * min (vf - speed) 0 + θ 2 * min ((q.x - pos.x) * cos o.ownPsi + (q.y - pos.y) * sin o.ownPsi - (o.distanceWanted + o.timeWanted * speed)) 0 := by
      simp [dotProduct, Fin.sum_univ_three]
    rw [e, ← add_assoc] at this
    exact this

/-- The heading moves with the yaw rate up to the noise: if the driver follows a straight lane at positive speeds, with gains that the time
step does not overshoot, and the relative headings of the interval do not cross the cut of the angles, the new heading is in the stepped
interval. -/
theorem observer_heading (o : Observer) (i : VehicleInterval) (a b : Vec2) (hl : o.target.shape = .straight a b) (dt : ℝ) (hdt : 0 ≤ dt)
    (hk : 0 ≤ o.thetaB.1 0) (hdk : dt * o.thetaB.2 0 ≤ 1) (hv0 : 0 < i.speed.1)
    (hw : wrapToPi (i.heading.2 - o.targetPsi) - wrapToPi (i.heading.1 - o.targetPsi) = i.heading.2 - i.heading.1)
    (pos : Vec2) (speed heading : ℝ) (hs : InVehicle pos speed heading i) (θ : Fin 2 → ℝ) (hθ : InItv θ o.thetaB) (w : ℝ) (hn : |w| ≤ 1) :
    InItv (heading + dt * (linearYawRate θ (wrapToPi (heading - o.targetPsi)) (o.target.localCoordinates pos).2 speed + w)) (o.step dt i).heading := by
  obtain ⟨hp, hv, hh⟩ := hs
  have hle : i.heading.1 ≤ i.heading.2 := hh.1.trans hh.2
  -- the lateral feature
  have hlat := (absoluteToLocal_exact o.target a b hl i.position (hp.1.1.trans hp.1.2) (hp.2.1.trans hp.2.2)).2
  have hl1 := hlat.1.2 ⟨pos, hp, rfl⟩
  have hl2 := hlat.2.2 ⟨pos, hp, rfl⟩
  have hsp : 0 < speed := hv0.trans_le hv.1
  have hq := product_encloses.1 (-(Itv.absoluteToLocal i.position o.target).2.2, -(Itv.absoluteToLocal i.position o.target).2.1)
    (1 / i.speed.2, 1 / i.speed.1) (-(o.target.localCoordinates pos).2) (1 / speed) ⟨neg_le_neg hl2, neg_le_neg hl1⟩
    ⟨one_div_le_one_div_of_le hsp hv.2, one_div_le_one_div_of_le hv0 hv.1⟩
  have hB := product_encloses.2.1 (Fin 2) o.thetaB (o.phiB i) θ ![0, -(o.target.localCoordinates pos).2 * (1 / speed)] hθ
    (by
      unfold Observer.phiB
      constructor <;> intro j <;> fin_cases j
      · exact le_rfl
      · exact hq.1
      · exact le_rfl
      · exact hq.2)
  have eB : θ ⬝ᵥ ![0, -(o.target.localCoordinates pos).2 * (1 / speed)] = θ 1 * (-(o.target.localCoordinates pos).2 / speed) := by
    simp [dotProduct, Fin.sum_univ_two, div_eq_mul_inv]
  rw [eB] at hB
  -- the relative heading
  have hwr : wrapToPi (heading - o.targetPsi) = wrapToPi (i.heading.1 - o.targetPsi) + (heading - i.heading.1) := by
    have h1 := wrapToPi_ge (i.heading.1 - o.targetPsi)
    have h2 := wrapToPi_lt (i.heading.2 - o.targetPsi)
    have e := wrapToPi_eq (i.heading.1 - o.targetPsi)
    refine (wrapToPi_unique (y := wrapToPi (i.heading.1 - o.targetPsi) + (heading - i.heading.1)) (by linarith [hh.1]) (by linarith [hh.2])
      (-⌊(i.heading.1 - o.targetPsi + π) / (2 * π)⌋) ?_).symm
    rw [e]; push_cast; ring
  have hI := integrator_step (wrapToPi (i.heading.1 - o.targetPsi), wrapToPi (i.heading.2 - o.targetPsi)) (o.thetaB.1 0, o.thetaB.2 0) dt hdt hk hdk
    (wrapToPi (heading - o.targetPsi)) (θ 0) ⟨by rw [hwr]; dsimp only; linarith [hh.1], by rw [hwr]; dsimp only; linarith [hh.2]⟩ ⟨hθ.1 0, hθ.2 0⟩
  have hw' := abs_le.1 hn
  have w1 : dt * -1 ≤ dt * w := mul_le_mul_of_nonneg_left hw'.1 hdt
  have w2 : dt * w ≤ dt * 1 := mul_le_mul_of_nonneg_left hw'.2 hdt
  have b1 := mul_le_mul_of_nonneg_left hB.1 hdt
  have b2 := mul_le_mul_of_nonneg_left hB.2 hdt
  have i1 := hI.1
  have i2 := hI.2
  dsimp only at i1 i2
  have hd : (o.step dt i).heading = (i.heading.1 + (o.dpsi i).1 * dt + 1 * dt * (-1), i.heading.2 + (o.dpsi i).2 * dt + 1 * dt * 1) := rfl
  have e1 : (o.dpsi i).1 = (Itv.integrator (wrapToPi (i.heading.1 - o.targetPsi), wrapToPi (i.heading.2 - o.targetPsi)) (o.thetaB.1 0, o.thetaB.2 0)).1 +
      (Itv.product (fun x y : Fin 2 → ℝ => x ⬝ᵥ y) o.thetaB (o.phiB i)).1 := rfl
  have e2 : (o.dpsi i).2 = (Itv.integrator (wrapToPi (i.heading.1 - o.targetPsi), wrapToPi (i.heading.2 - o.targetPsi)) (o.thetaB.1 0, o.thetaB.2 0)).2 +
      (Itv.product (fun x y : Fin 2 → ℝ => x ⬝ᵥ y) o.thetaB (o.phiB i)).2 := rfl
  rw [hd, e1, e2]
  unfold linearYawRate
  constructor
  · dsimp only
    nlinarith
  · dsimp only
    nlinarith

/-- **C66.**  One step of the interval observer.  Let the state, the parameters and the front vehicle lie in their intervals, with positive
speeds and headings between -π and 3π/2, and the gain and relative headings as in `observer_heading`.  Then the state of the linear driver
after one Euler step — with noise up to 1 on both coordinates and on the heading — lies in the stepped interval. -/
theorem observer_encloses (o : Observer) (i : VehicleInterval) (a b : Vec2) (hl : o.target.shape = .straight a b) (dt : ℝ) (hdt : 0 ≤ dt)
    (ht : 0 ≤ o.timeWanted) (hk : 0 ≤ o.thetaB.1 0) (hdk : dt * o.thetaB.2 0 ≤ 1) (hv0 : 0 < i.speed.1)
    (hw : wrapToPi (i.heading.2 - o.targetPsi) - wrapToPi (i.heading.1 - o.targetPsi) = i.heading.2 - i.heading.1)
    (hh1 : -π ≤ i.heading.1) (hh2 : i.heading.2 ≤ 3 * π / 2)
    (pos : Vec2) (speed heading : ℝ) (hs : InVehicle pos speed heading i)
    (θa : Fin 3 → ℝ) (hθa : InItv θa o.thetaA) (θb : Fin 2 → ℝ) (hθb : InItv θb o.thetaB)
    (front : Option (Vec2 × ℝ)) (hf : ∀ f, o.front = some f → ∃ q vf, front = some (q, vf) ∧ InBox q f.position ∧ InItv vf f.speed)
    (hn : o.front = none → front = none) (wx wy wh : ℝ) (hx : |wx| ≤ 1) (hy : |wy| ≤ 1) (hhn : |wh| ≤ 1) :
    InVehicle ⟨pos.x + dt * (speed * cos heading + wx), pos.y + dt * (speed * sin heading + wy)⟩
      (speed + dt * linearAcceleration θa o.targetSpeed o.distanceWanted o.timeWanted speed
        (front.map fun q => ((q.1.x - pos.x) * cos o.ownPsi + (q.1.y - pos.y) * sin o.ownPsi, q.2)))
      (heading + dt * (linearYawRate θb (wrapToPi (heading - o.targetPsi)) (o.target.localCoordinates pos).2 speed + wh))
      (o.step dt i) := by
  have hp := pi_pos
  have hA := observer_acceleration o i ht pos speed heading hs θa hθa front hf hn
  have hH := observer_heading o i a b hl dt hdt hk hdk hv0 hw pos speed heading hs θb hθb wh hhn
  obtain ⟨⟨bx, byy⟩, hv, hh⟩ := hs
  have hc := product_encloses.1 i.speed (Observer.cosI i.heading) speed (cos heading) hv (cosI_encloses i.heading hh1 (by linarith) heading hh)
  have hsn := product_encloses.1 i.speed (Observer.sinI i.heading) speed (sin heading) hv (sinI_encloses i.heading (by linarith) hh2 heading hh)
  have c1 := mul_le_mul_of_nonneg_left hc.1 hdt
  have c2 := mul_le_mul_of_nonneg_left hc.2 hdt
  have s1 := mul_le_mul_of_nonneg_left hsn.1 hdt
  have s2 := mul_le_mul_of_nonneg_left hsn.2 hdt
  have a1 := mul_le_mul_of_nonneg_left hA.1 hdt
  have a2 := mul_le_mul_of_nonneg_left hA.2 hdt
  have x1 : dt * -1 ≤ dt * wx := mul_le_mul_of_nonneg_left (abs_le.1 hx).1 hdt
  have x2 : dt * wx ≤ dt * 1 := mul_le_mul_of_nonneg_left (abs_le.1 hx).2 hdt
  have y1 : dt * -1 ≤ dt * wy := mul_le_mul_of_nonneg_left (abs_le.1 hy).1 hdt
  have y2 : dt * wy ≤ dt * 1 := mul_le_mul_of_nonneg_left (abs_le.1 hy).2 hdt
  refine ⟨⟨⟨?_, ?_⟩, ⟨?_, ?_⟩⟩, ⟨?_, ?_⟩, hH⟩
  · show i.position.1.x + (Itv.product (· * ·) i.speed (Observer.cosI i.heading)).1 * dt + 1 * dt * (-1) ≤ _
    have := bx.1; dsimp only at this ⊢; linarith
  · show _ ≤ i.position.2.x + (Itv.product (· * ·) i.speed (Observer.cosI i.heading)).2 * dt + 1 * dt * 1
    have := bx.2; dsimp only at this ⊢; linarith
  · show i.position.1.y + (Itv.product (· * ·) i.speed (Observer.sinI i.heading)).1 * dt + 1 * dt * (-1) ≤ _
    have := byy.1; dsimp only at this ⊢; linarith
  · show _ ≤ i.position.2.y + (Itv.product (· * ·) i.speed (Observer.sinI i.heading)).2 * dt + 1 * dt * 1
    have := byy.2; dsimp only at this ⊢; linarith
  · show i.speed.1 + (o.dv i).1 * dt ≤ _
    have := hv.1; linarith
  · show _ ≤ i.speed.2 + (o.dv i).2 * dt
    have := hv.2; linarith

/-- The driver of the simulation is such a driver: on a straight lane, for non-negative speeds, the command of a linear vehicle with parameters
in the box lies in the interval computed by its observer. -/
theorem observer_of_vehicle (G : Globals) (g : Graph) (v : Vehicle) (hlin : v.kind.isLinear = true) (hc : v.kind.isControlled = true)
    (a b : Vec2) (hab : a ≠ b) (hl : v.lane.shape = .straight a b) (hv : 0 ≤ v.speed)
    (thetaA : Itv (Fin 3 → ℝ)) (thetaB : Itv (Fin 2 → ℝ)) (hθ : InItv ![v.accParams.1, v.accParams.2.1, v.accParams.2.2] thetaA)
    (front : Option Entity) (estimated : Option VehicleInterval)
    (hest : ∀ f e, front = some f → estimated = some e → InBox f.pos e.position ∧ InItv f.speed e.speed)
    (o : Observer) (ho : Observer.of G g v thetaA thetaB front estimated = .ok o) (i : VehicleInterval) (hi : InVehicle v.pos v.speed v.heading i) :
    ∃ acc, Vehicle.accelerationOf G v (some (.veh v)) front = .ok acc ∧ InItv (npClip acc (-6) 6) (o.dv i) := by
  unfold Observer.of at ho
  obtain ⟨lane, _, ho⟩ := bind_ok ho
  have ho := Except.ok.inj ho
  have htw : 0 ≤ o.timeWanted := by rw [← ho]; show 0 ≤ Vehicle.timeWanted v.kind; unfold Vehicle.timeWanted; split <;> norm_num
  have hfr : o.front = front.map fun f => estimated.getD (VehicleInterval.certain f.pos f.speed f.heading) := by
    rw [← ho]
  have hpsi : o.ownPsi = Lane.straightHeading a b := by
    rw [← ho]; show v.lane.headingAt _ = _; unfold Lane.headingAt; rw [hl]
  have hth : o.thetaA = thetaA := by rw [← ho]
  have hts : o.targetSpeed = v.targetSpeed := by rw [← ho]
  have hdw : o.distanceWanted = G.distanceWanted v.kind := by rw [← ho]
  have htw2 : o.timeWanted = Vehicle.timeWanted v.kind := by rw [← ho]
  have key := observer_acceleration o i htw v.pos v.speed v.heading hi ![v.accParams.1, v.accParams.2.1, v.accParams.2.2] (hth ▸ hθ)
    (front.map fun f => (f.pos, f.speed))
    (by
      intro f hf
      rw [hfr] at hf
      cases hF : front with
      | none => rw [hF] at hf; cases hf
      | some e =>
        rw [hF] at hf
        have hf := Option.some.inj hf
        refine ⟨e.pos, e.speed, rfl, ?_⟩
        cases hE : estimated with
        | none =>
          rw [hE] at hf
          rw [← hf]
          exact ⟨⟨⟨le_rfl, le_rfl⟩, ⟨le_rfl, le_rfl⟩⟩, ⟨le_rfl, le_rfl⟩⟩
        | some e' =>
          rw [hE] at hf
          have hf : e' = f := hf
          exact hf ▸ hest e e' hF hE)
    (by
      intro hf
      rw [hfr] at hf
      cases hF : front with
      | none => rfl
      | some e => rw [hF] at hf; cases hf)
  have hdist : ∀ q : Vec2, v.laneDistanceTo q = (q.x - v.pos.x) * cos o.ownPsi + (q.y - v.pos.y) * sin o.ownPsi := by
    intro q
    have hd := Lane.straightDir_eq_dir hab
    unfold Vehicle.laneDistanceTo Lane.localCoordinates
    rw [hl]
    simp only [Lane.straightLocal, Vec2.dot, Vec2.sub_x, Vec2.sub_y, hd, Vec2.dir, hpsi]
    ring
  unfold Vehicle.accelerationOf
  rw [if_pos hlin]
  simp only [hc, if_true]
  refine ⟨_, rfl, ?_⟩
  unfold Vehicle.accelerationFeatures
  cases hF : front with
  | none =>
    rw [hF] at key
    simp only [Option.map_none, linearAcceleration, hts] at key
    simpa [npClip] using key
  | some f =>
    rw [hF] at key
    simp only [Option.map_some, linearAcceleration, hts, hdw, htw2] at key
    simp only [hdist, max_eq_left hv]
    rw [mul_comm v.speed]
    exact key

/-- The hypotheses are met: a driver at 20 m/s, 30 m behind a certain vehicle, with uncertain position, speed, heading and parameters. -/
example : InVehicle ⟨0 + 1 / 10 * (20 * cos 0 + 0), 0 + 1 / 10 * (20 * sin 0 + 0)⟩ (20 + 1 / 10 * linearAcceleration ![3 / 10, 3 / 10, 2] 25 10 (5 / 2) 20 (some ((30 - 0) * cos 0 + (0 - 0) * sin 0, 15)))
    (0 + 1 / 10 * (linearYawRate ![5, 8] (wrapToPi (0 - 0)) 0 20 + 0))
    (Observer.step
      { thetaA := (![1 / 10, 1 / 10, 1], ![1, 1, 3]), thetaB := (![4, 7], ![6, 9]), targetSpeed := 25, distanceWanted := 10, timeWanted := 5 / 2
        front := some (VehicleInterval.certain ⟨30, 0⟩ 15 0), ownPsi := 0
        target := { shape := .straight ⟨0, 0⟩ ⟨100, 0⟩ }, targetPsi := 0 } (1 / 10)
      ⟨(⟨-1, -1⟩, ⟨1, 1⟩), (19, 21), (-1, 1)⟩) := by
  have hp := two_le_pi
  have hlat : ((({ shape := .straight ⟨0, 0⟩ ⟨100, 0⟩ } : Lane)).localCoordinates ⟨0, 0⟩).2 = 0 := by
    simp [Lane.localCoordinates, Lane.straightLocal, Vec2.dot, Vec2.sub_x, Vec2.sub_y]
  have := observer_encloses
      { thetaA := (![1 / 10, 1 / 10, 1], ![1, 1, 3]), thetaB := (![4, 7], ![6, 9]), targetSpeed := 25, distanceWanted := 10, timeWanted := 5 / 2
        front := some (VehicleInterval.certain ⟨30, 0⟩ 15 0), ownPsi := 0
        target := { shape := .straight ⟨0, 0⟩ ⟨100, 0⟩ }, targetPsi := 0 }
      ⟨(⟨-1, -1⟩, ⟨1, 1⟩), (19, 21), (-1, 1)⟩ ⟨0, 0⟩ ⟨100, 0⟩ rfl (1 / 10) (by norm_num) (by norm_num) (by simp) (by norm_num) (by norm_num)
      (by
        dsimp only
        rw [wrapToPi_of_mem (by linarith) (by linarith), wrapToPi_of_mem (by linarith) (by linarith)]
        norm_num) (by dsimp only; linarith) (by dsimp only; linarith)
      ⟨0, 0⟩ 20 0 (by norm_num [InVehicle, InBox, InItv]) ![3 / 10, 3 / 10, 2]
      (by constructor <;> intro j <;> fin_cases j <;> norm_num) ![5, 8]
      (by constructor <;> intro j <;> fin_cases j <;> norm_num) (some (⟨30, 0⟩, 15))
      (by
        rintro f hf
        cases hf
        exact ⟨_, _, rfl, by norm_num [InBox, InItv, VehicleInterval.certain], by norm_num [InItv, VehicleInterval.certain]⟩)
      (by intro h; cases h) 0 0 0 (by norm_num) (by norm_num) (by norm_num)
  rw [hlat] at this
  exact this

/-- **C66, finding.**  The default mode steps only the two extreme corners of the interval, and does not enclose: for a vehicle at 10 m/s
whose heading is between -π/2 and π/2, driving straight ahead leaves the interval. -/
theorem partial_step_not_enclosing (o : Observer) (dt : ℝ) (hdt : 0 < dt) :
    ∃ i : VehicleInterval, InVehicle ⟨0, 0⟩ 10 0 i ∧ ∀ speed heading, ¬ InVehicle ⟨0 + dt * (10 * cos 0), 0 + dt * (10 * sin 0)⟩ speed heading (o.partialStep dt 0 i) := by
  have hp := pi_pos
  refine ⟨⟨(⟨0, 0⟩, ⟨0, 0⟩), (10, 10), (-(π / 2), π / 2)⟩, ?_, ?_⟩
  · refine ⟨by norm_num [InBox, InItv], by norm_num [InItv], ⟨?_, ?_⟩⟩ <;> dsimp only <;> linarith
  · rintro speed heading ⟨⟨⟨_, h⟩, _⟩, _⟩
    have hc : Observer.cosI (Observer.mix (1 - 0) (-(π / 2)) (π / 2), π / 2) = (0, 0) := by
      have e : Observer.mix (1 - 0) (-(π / 2)) (π / 2) = π / 2 := by unfold Observer.mix; ring
      rw [e]
      unfold Observer.cosI
      dsimp only
      rw [cos_pi_div_two, if_neg (by rintro ⟨_, h⟩; linarith), if_neg (by rintro ⟨h, _⟩; linarith), min_self, max_self]
    have h' : 0 + dt * (10 * cos 0) ≤ 0 + (Itv.product (fun x y : ℝ => x * y) (Observer.mix (1 - 0) 10 10, 10)
        (Observer.cosI (Observer.mix (1 - 0) (-(π / 2)) (π / 2), π / 2))).2 * dt + 1 * dt * 1 := h
    rw [hc, cos_zero] at h'
    simp only [Itv.product, Itv.p, Itv.n] at h'
    norm_num at h'
    nlinarith

/-- **C66, the default mode, headings.**  Every heading that the full step allows from the lowest or from the highest corner of the interval is in the heading interval of the
default step. -/
theorem partial_step_headings (o : Observer) (dt : ℝ) (i : VehicleInterval) (h : ℝ)
    (hh : InItv h (o.step dt (VehicleInterval.certain i.position.1 i.speed.1 i.heading.1)).heading ∨
      InItv h (o.step dt (VehicleInterval.certain i.position.2 i.speed.2 i.heading.2)).heading) :
    InItv h (o.partialStep dt 0 i).heading := by
  have h0 : ∀ a b : ℝ, Observer.mix 0 a b = a := fun a b => by unfold Observer.mix; ring
  have h1 : ∀ a b : ℝ, Observer.mix (1 - 0) a b = b := fun a b => by unfold Observer.mix; ring
  unfold Observer.partialStep
  simp only [h0, h1]
  rcases hh with ⟨u, v⟩ | ⟨u, v⟩
  · exact ⟨(min_le_left _ _).trans u, v.trans (le_max_left _ _)⟩
  · exact ⟨(min_le_right _ _).trans u, v.trans (le_max_right _ _)⟩

/-! ## The predictor -/

/-- **C65, the driver of the longitudinal predictor.**  The matrix the predictor builds for the parameters `θ`, applied to the state relative to the centre, is the acceleration of
a linear driver: it adapts to the target speed, to the speed of a front vehicle that is not faster, and to the desired gap — the latter only if the front vehicle is exactly at the
desired distance (the code tests `d == safe distance` where `d <= safe distance` is meant). -/
theorem longitudinal_driver (tw dw speed target : ℝ) (front : Option (ℝ × ℝ)) (θ : Fin 3 → ℝ) (x : Fin 4 → ℝ) :
    (((longitudinalStructure tw dw speed front).1 + ∑ j, θ j • (longitudinalStructure tw dw speed front).2 j) *ᵥ
        (x - ![-dw - target * tw, 0, target, target])) 2 =
      θ 0 * (target - x 2) + (if ∃ v d, front = some (v, d) ∧ v ≤ speed then θ 1 * (x 3 - x 2) else 0) +
      (if ∃ v, front = some (v, dw + tw * speed) then θ 2 * ((x 1 - x 0) - (dw + tw * x 2)) else 0) := by
  rw [Fin.sum_univ_three]
  cases hf : front with
  | none =>
    rw [if_neg (by rintro ⟨v, d, h, _⟩; cases h), if_neg (by rintro ⟨v, h⟩; cases h)]
    simp [longitudinalStructure, mulVec, dotProduct, Fin.sum_univ_four]
    ring
  | some vd =>
    obtain ⟨v, d⟩ := vd
    by_cases hv : speed < v <;> by_cases hd : d = dw + tw * speed
    · rw [if_neg (by rintro ⟨v', d', h, h'⟩; cases h; linarith), if_pos ⟨v, by rw [hd]⟩]
      simp [longitudinalStructure, mulVec, dotProduct, Fin.sum_univ_four, hv, hd]
      ring
    · rw [if_neg (by rintro ⟨v', d', h, h'⟩; cases h; linarith), if_neg (by rintro ⟨v', h⟩; cases h; exact hd rfl)]
      simp [longitudinalStructure, mulVec, dotProduct, Fin.sum_univ_four, hv, hd]
      ring
    · rw [if_pos ⟨v, d, rfl, not_lt.1 hv⟩, if_pos ⟨v, by rw [hd]⟩]
      simp [longitudinalStructure, mulVec, dotProduct, Fin.sum_univ_four, hv, hd]
      ring
    · rw [if_pos ⟨v, d, rfl, not_lt.1 hv⟩, if_neg (by rintro ⟨v', h⟩; cases h; exact hd rfl)]
      simp [longitudinalStructure, mulVec, dotProduct, Fin.sum_univ_four, hv, hd]
      ring

private theorem box_inPolytope {k : ℕ} {ι : Type} (box : Itv (Fin k → ℝ)) (s : Matrix ι ι ℝ × (Fin k → Matrix ι ι ℝ)) (θ : Fin k → ℝ)
    (hθ : InItv θ box) : InPolytope (boxToPolytope box s).1 (boxToPolytope box s).2 (s.1 + ∑ j, θ j • s.2 j) :=
  polytope_inPolytope s.1 s.2 (fun j => (box.1 j, box.2 j)) θ (fun j => ⟨hθ.1 j, hθ.2 j⟩) _ (Finset.nodup_toList _) fun _ => Finset.mem_toList

/-- The deviations are never empty: a predictor can always be stepped. -/
theorem boxToPolytope_ne_nil {k : ℕ} {ι : Type} (box : Itv (Fin k → ℝ)) (s : Matrix ι ι ℝ × (Fin k → Matrix ι ι ℝ)) : (boxToPolytope box s).2 ≠ [] := by
  unfold boxToPolytope polytope
  dsimp only
  rw [Ne, Finset.toList_eq_nil, Finset.image_eq_empty]
  exact Finset.univ_nonempty.ne_empty

private theorem linearStep_apply {n : ℕ} (m : Matrix (Fin n) (Fin n) ℝ) (e : Matrix (Fin n) (Fin 1) ℝ) (c u : Fin n → ℝ) (w dt : ℝ) (x : Fin n → ℝ) (i : Fin n) :
    linearStep m 1 e c u (fun _ : Fin 1 => w) dt x i = x i + dt * (∑ j, m i j * (x j - c j) + e i 0 * w + u i) := by
  simp [linearStep, mulVec, dotProduct]
  ring

/-- **C65, longitudinal prediction.**  Unless the distance to the front vehicle is exactly the desired one, the longitudinal predictor encloses
every evolution, for any number of steps and parameters that may change at each step: own position and speed, front position and speed. -/
theorem longitudinal_encloses (eig : Matrix (Fin 4) (Fin 4) ℝ → Option (Matrix (Fin 4) (Fin 4) ℝ × Matrix (Fin 4) (Fin 4) ℝ)) (x0 : Fin 4 → ℝ)
    (dw tw target speed : ℝ) (theta : Itv (Fin 3 → ℝ)) (front : Option (ℝ × ℝ)) (hpos : ∀ v d, front = some (v, d) → d ≠ dw + tw * speed)
    (h1 : 0 ≤ theta.1 1 + theta.2 1) (dt : ℝ) (hdt : 0 ≤ dt) (hst : dt * ((theta.1 0 + theta.2 0) / 2 + (theta.1 1 + theta.2 1) / 2) ≤ 1)
    (s : ℕ → LPV (Fin 4) (Fin 4) (Fin 1)) (hs0 : s 0 = longitudinalLpv eig x0 dw tw target theta (longitudinalStructure tw dw speed front))
    (hs : ∀ t, (s t).step dt = .ok (s (t + 1)))
    (x : ℕ → Fin 4 → ℝ) (hx0 : x 0 = x0)
    (hx : ∀ t, ∃ θ w, InItv θ theta ∧ |w| ≤ 1 ∧ LongitudinalStep target dt (∃ v d, front = some (v, d) ∧ v ≤ speed) θ w (x t) (x (t + 1))) (t : ℕ) :
    InItv (x t) ((s t).intervalBack (s t).xit) := by
  set S := longitudinalStructure tw dw speed front with hS
  set follow := ∃ v d, front = some (v, d) ∧ v ≤ speed with hfol
  have e0 : S.1 = !![0, 0, 1, 0; 0, 0, 0, 1; 0, 0, 0, 0; 0, 0, 0, 0] := rfl
  have p0 : S.2 0 = !![0, 0, 0, 0; 0, 0, 0, 0; 0, 0, -1, 0; 0, 0, 0, -1] := rfl
  have p1 : S.2 1 = if follow then !![0, 0, 0, 0; 0, 0, 0, 0; 0, 0, -1, 1; 0, 0, 0, 0] else 0 := by
    rw [hS, hfol]
    cases hf : front with
    | none => rw [if_neg (by rintro ⟨v, d, h, _⟩; cases h)]; rfl
    | some vd =>
      obtain ⟨v, d⟩ := vd
      by_cases hv : speed < v
      · rw [if_neg (by rintro ⟨v', d', h, h'⟩; cases h; linarith)]
        simp only [longitudinalStructure, Matrix.cons_val_one, Matrix.cons_val_zero, if_pos hv]
      · rw [if_pos ⟨v, d, rfl, not_lt.1 hv⟩]
        simp only [longitudinalStructure, Matrix.cons_val_one, Matrix.cons_val_zero, if_neg hv]
  have p2 : S.2 2 = 0 := by
    rw [hS]
    cases hf : front with
    | none => rfl
    | some vd =>
      obtain ⟨v, d⟩ := vd
      simp only [longitudinalStructure, Matrix.cons_val, if_pos (hpos v d hf)]
  have hA : ∀ θ : Fin 3 → ℝ, S.1 + ∑ j, θ j • S.2 j =
      !![0, 0, 1, 0; 0, 0, 0, 1; 0, 0, -θ 0 - (if follow then θ 1 else 0), (if follow then θ 1 else 0); 0, 0, 0, -θ 0] := by
    intro θ
    rw [Fin.sum_univ_three, e0, p0, p1, p2]
    split <;> ext i j <;> fin_cases i <;> fin_cases j <;> simp <;> ring
  have hm : (boxToPolytope theta S).1 = _ := hA fun j => (theta.1 j + theta.2 j) / 2
  have hz : (boxToPolytope theta S).1 + (1 : Matrix (Fin 4) (Fin 4) ℝ) * (0 : Matrix (Fin 4) (Fin 4) ℝ) = (boxToPolytope theta S).1 := by simp
  refine lpv_encloses eig x0 (boxToPolytope theta S).1 (boxToPolytope theta S).2 1 !![1; 0; 0; 0] (fun _ => -1, fun _ => 1) ![target, target, 0, 0] 0
    ![-dw - target * tw, 0, target, target] (x0, x0) dt hdt ?_ ?_ s hs0 hs x (by rw [hx0]; exact ⟨le_rfl, le_rfl⟩) ?_ t
  · rw [hz, hm]
    intro i j hij
    have : 0 ≤ (theta.1 1 + theta.2 1) / 2 := by linarith
    fin_cases i <;> fin_cases j <;> first | exact absurd rfl hij | (simp; done) | (simp; split <;> linarith)
  · rw [hz, hm]
    have q1 : 0 ≤ dt * ((theta.1 1 + theta.2 1) / 2) := mul_nonneg hdt (by linarith)
    intro i
    fin_cases i
    · simp
    · simp
    · simp
      split <;> linarith
    · simp
      linarith
  · intro t
    obtain ⟨θ, w, hθ, hw, l0, l1, l2, l2', l3⟩ := hx t
    refine ⟨S.1 + ∑ j, θ j • S.2 j, fun _ => w, ?_, ⟨fun _ => (abs_le.1 hw).1, fun _ => (abs_le.1 hw).2⟩, ?_⟩
    · rw [hz]; exact box_inPolytope theta S θ hθ
    · rw [hA]
      ext i
      have lin := @linearStep_apply 4
      by_cases hfo : follow
      · fin_cases i
        · rw [lin]; refine l0.trans (congrArg (fun z => x t 0 + dt * z) ?_); simp [Fin.sum_univ_four]; try ring
        · rw [lin]; refine l1.trans (congrArg (fun z => x t 1 + dt * z) ?_); simp [Fin.sum_univ_four]; try ring
        · rw [lin]; refine (l2 hfo).trans (congrArg (fun z => x t 2 + dt * z) ?_); simp [Fin.sum_univ_four, hfo]; try ring
        · rw [lin]; refine l3.trans (congrArg (fun z => x t 3 + dt * z) ?_); simp [Fin.sum_univ_four]; try ring
      · fin_cases i
        · rw [lin]; refine l0.trans (congrArg (fun z => x t 0 + dt * z) ?_); simp [Fin.sum_univ_four]; try ring
        · rw [lin]; refine l1.trans (congrArg (fun z => x t 1 + dt * z) ?_); simp [Fin.sum_univ_four]; try ring
        · rw [lin]; refine (l2' hfo).trans (congrArg (fun z => x t 2 + dt * z) ?_); simp [Fin.sum_univ_four, hfo]; try ring
        · rw [lin]; refine l3.trans (congrArg (fun z => x t 3 + dt * z) ?_); simp [Fin.sum_univ_four]; try ring

/-- **C65, lateral prediction.**  When the nominal matrix has no real eigenvectors, the lateral predictor encloses every evolution of the
distance from the lane and the relative heading. -/
theorem lateral_encloses (eig : Matrix (Fin 2) (Fin 2) ℝ → Option (Matrix (Fin 2) (Fin 2) ℝ × Matrix (Fin 2) (Fin 2) ℝ)) (x0 : Fin 2 → ℝ)
    (theta : Itv (Fin 2 → ℝ)) (h1 : 1 / 10 ^ 9 < (theta.1 1 + theta.2 1) / 2) (heig : eig (boxToPolytope theta lateralStructure).1 = none)
    (dt : ℝ) (hdt : 0 ≤ dt) (s : ℕ → LPV (Fin 2) (Fin 2) (Fin 1)) (hs0 : s 0 = lateralLpv eig x0 theta)
    (hs : ∀ t, (s t).step dt = .ok (s (t + 1))) (x : ℕ → Fin 2 → ℝ) (hx0 : x 0 = x0)
    (hx : ∀ t, ∃ θ w, InItv θ theta ∧ |w| ≤ 1 / 2 ∧ LateralStep dt θ w (x t) (x (t + 1))) (t : ℕ) :
    InItv (x t) ((s t).intervalBack (s t).xit) := by
  have hA : ∀ θ : Fin 2 → ℝ, lateralStructure.1 + ∑ j, θ j • lateralStructure.2 j = !![0, 1; -θ 1, -θ 0] := by
    intro θ
    rw [Fin.sum_univ_two]
    unfold lateralStructure
    ext i j
    fin_cases i <;> fin_cases j <;> simp
  have hm : (boxToPolytope theta lateralStructure).1 = _ := hA fun j => (theta.1 j + theta.2 j) / 2
  have hz : (boxToPolytope theta lateralStructure).1 + (1 : Matrix (Fin 2) (Fin 2) ℝ) * (0 : Matrix (Fin 2) (Fin 2) ℝ) = (boxToPolytope theta lateralStructure).1 := by simp
  refine lpv_encloses_unrotated eig x0 (boxToPolytope theta lateralStructure).1 (boxToPolytope theta lateralStructure).2 1 !![1; 0]
    (fun _ => -(1 / 2), fun _ => 1 / 2) 0 0 0 (x0, x0) dt hdt ?_ (by rw [hz]; exact heig) s hs0 hs x (by rw [hx0]; exact ⟨le_rfl, le_rfl⟩) ?_ t
  · rw [hz, hm]
    unfold isMetzler
    refine @decide_eq_false _ (propDecidable _) ?_
    intro h
    have := h 1 0
    simp at this
    linarith
  · intro t
    obtain ⟨θ, w, hθ, hw, l0, l1⟩ := hx t
    refine ⟨lateralStructure.1 + ∑ j, θ j • lateralStructure.2 j, fun _ => w, ?_, ⟨fun _ => (abs_le.1 hw).1, fun _ => (abs_le.1 hw).2⟩, ?_⟩
    · rw [hz]; exact box_inPolytope theta lateralStructure θ hθ
    · rw [hA]
      ext i
      fin_cases i
      · rw [linearStep_apply]; refine l0.trans (congrArg (fun z => x t 0 + dt * z) ?_); simp [Fin.sum_univ_two]
      · rw [linearStep_apply]; refine l1.trans (congrArg (fun z => x t 1 + dt * z) ?_); simp [Fin.sum_univ_two]; try ring

/-- With the default box of steering parameters, the nominal lateral matrix has no real eigenvectors. -/
theorem lateral_default_no_eigenvector (μ : ℝ) (v : Fin 2 → ℝ)
    (h : (boxToPolytope (![5 - 7 / 100, 25 / 3 - 3 / 2], ![5 + 7 / 100, 25 / 3 + 3 / 2]) lateralStructure).1 *ᵥ v = μ • v) : v = 0 := by
  have hA : ∀ θ : Fin 2 → ℝ, lateralStructure.1 + ∑ j, θ j • lateralStructure.2 j = !![0, 1; -θ 1, -θ 0] := by
    intro θ
    rw [Fin.sum_univ_two]
    unfold lateralStructure
    ext i j
    fin_cases i <;> fin_cases j <;> simp
  have hm : (boxToPolytope (![5 - 7 / 100, 25 / 3 - 3 / 2], ![5 + 7 / 100, 25 / 3 + 3 / 2]) lateralStructure).1 = _ :=
    hA fun j => ((![5 - 7 / 100, 25 / 3 - 3 / 2] : Fin 2 → ℝ) j + (![5 + 7 / 100, 25 / 3 + 3 / 2] : Fin 2 → ℝ) j) / 2
  rw [hm] at h
  have h0 := congrFun h 0
  have h1 := congrFun h 1
  simp [mulVec, dotProduct, Fin.sum_univ_two] at h0 h1
  have e : (μ ^ 2 + 5 * μ + 25 / 3) * v 0 = 0 := by rw [h0] at h1; linarith
  have pos : 0 < μ ^ 2 + 5 * μ + 25 / 3 := by nlinarith [sq_nonneg (μ + 5 / 2)]
  have v0 : v 0 = 0 := by
    rcases mul_eq_zero.1 e with h | h
    · exact absurd h pos.ne'
    · exact h
  have v1 : v 1 = 0 := by rw [h0, v0, mul_zero]
  ext i
  fin_cases i
  · exact v0
  · exact v1

/-- **C65, predicted vehicle.**  On a straight target lane, after any number of prediction steps, the predicted interval contains the position,
the speed and the heading *relative to the lane* of every evolution. -/
theorem predictor_step_encloses (lane : Lane) (a b : Vec2) (hl : lane.shape = .straight a b) (dt : ℝ)
    (lon : LPV (Fin 4) (Fin 4) (Fin 1)) (lat : LPV (Fin 2) (Fin 2) (Fin 1)) (lon' : LPV (Fin 4) (Fin 4) (Fin 1)) (lat' : LPV (Fin 2) (Fin 2) (Fin 1))
    (i : VehicleInterval) (h : predictorStep lane dt lon lat = .ok (lon', lat', i)) :
    lon.step dt = .ok lon' ∧ lat.step dt = .ok lat' ∧
    ∀ (x : Fin 4 → ℝ) (y : Fin 2 → ℝ), InItv x (lon'.intervalBack lon'.xit) → InItv y (lat'.intervalBack lat'.xit) →
      InVehicle (lane.position (x 0) (y 0)) (x 2) (y 1) i := by
  unfold predictorStep at h
  obtain ⟨l1, h1, h⟩ := bind_ok h
  obtain ⟨l2, h2, h⟩ := bind_ok h
  have h := Except.ok.inj h
  simp only [Prod.mk.injEq] at h
  obtain ⟨rfl, rfl, rfl⟩ := h
  refine ⟨h1, h2, fun x y hx hy => ?_⟩
  have hx0 : InItv (x 0) ((l1.intervalBack l1.xit).1 0, (l1.intervalBack l1.xit).2 0) := ⟨hx.1 0, hx.2 0⟩
  have hy0 : InItv (y 0) ((l2.intervalBack l2.xit).1 0, (l2.intervalBack l2.xit).2 0) := ⟨hy.1 0, hy.2 0⟩
  have hp := localToAbsolute_exact lane a b hl _ _ (hx0.1.trans hx0.2) (hy0.1.trans hy0.2)
  exact ⟨⟨⟨hp.1.1.2 ⟨x 0, y 0, hx0, hy0, rfl⟩, hp.1.2.2 ⟨x 0, y 0, hx0, hy0, rfl⟩⟩,
    ⟨hp.2.1.2 ⟨x 0, y 0, hx0, hy0, rfl⟩, hp.2.2.2 ⟨x 0, y 0, hx0, hy0, rfl⟩⟩⟩, ⟨hx.1 2, hx.2 2⟩, ⟨hy.1 1, hy.2 1⟩⟩

/-- The hypotheses of the longitudinal theorem are met by the default parameters, steps of 1/15 s, and a front vehicle. -/
example (eig : Matrix (Fin 4) (Fin 4) ℝ → Option (Matrix (Fin 4) (Fin 4) ℝ × Matrix (Fin 4) (Fin 4) ℝ)) :
    ∃ (s : ℕ → LPV (Fin 4) (Fin 4) (Fin 1)) (x : ℕ → Fin 4 → ℝ),
      s 0 = longitudinalLpv eig ![0, 40, 25, 20] 10 (5 / 2) 25 (![15 / 100, 15 / 100, 1], ![45 / 100, 45 / 100, 3]) (longitudinalStructure (5 / 2) 10 25 (some (20, 40))) ∧
      (∀ t, (s t).step (1 / 15) = .ok (s (t + 1))) ∧ x 0 = ![0, 40, 25, 20] ∧
      ∀ t, InItv (x t) ((s t).intervalBack (s t).xit) := by
  obtain ⟨s, h0, hs⟩ := lpv_runs (longitudinalLpv eig ![0, 40, 25, 20] 10 (5 / 2) 25 (![15 / 100, 15 / 100, 1], ![45 / 100, 45 / 100, 3])
    (longitudinalStructure (5 / 2) 10 25 (some (20, 40)))) (1 / 15) (by
      unfold longitudinalLpv LPV.init
      dsimp only
      rw [Ne, List.map_eq_nil_iff]
      exact boxToPolytope_ne_nil _ _)
  let f : (Fin 4 → ℝ) → Fin 4 → ℝ := fun x => ![x 0 + 1 / 15 * (x 2 + 0), x 1 + 1 / 15 * x 3, x 2 + 1 / 15 * (3 / 10 * (25 - x 2) + 3 / 10 * (x 3 - x 2)), x 3 + 1 / 15 * (3 / 10 * (25 - x 3))]
  refine ⟨s, fun t => f^[t] ![0, 40, 25, 20], h0, hs, rfl, fun t => ?_⟩
  refine longitudinal_encloses eig ![0, 40, 25, 20] 10 (5 / 2) 25 25 _ (some (20, 40)) ?_ ?_ (1 / 15) (by norm_num) ?_ s h0 hs (fun t => f^[t] ![0, 40, 25, 20]) rfl ?_ t
  · rintro v d h; cases h; norm_num
  · simp; norm_num
  · simp; norm_num
  · intro t
    refine ⟨![3 / 10, 3 / 10, 2], 0, ?_, by norm_num, ?_⟩
    · constructor <;> intro j <;> fin_cases j <;> simp <;> norm_num
    · show LongitudinalStep _ _ _ _ _ (f^[t] ![0, 40, 25, 20]) (f^[t + 1] ![0, 40, 25, 20])
      rw [Function.iterate_succ_apply']
      generalize f^[t] ![0, 40, 25, 20] = z
      exact ⟨rfl, rfl, fun _ => rfl, fun h => absurd ⟨20, 40, rfl, by norm_num⟩ h, rfl⟩

end HighwayEnv.Props
