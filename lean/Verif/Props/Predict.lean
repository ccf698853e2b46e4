import Verif.Lemmas.Vehicle
import Verif.Spec.Sample

/-!
# Trajectory prediction (C33)
-/

noncomputable section
namespace HighwayEnv.Props
open Spec Classical

/-- Reference: the states after each of `k` simulation frames (decide without a new action, step `dt`), then the final vehicle and
generator. -/
def frames (G : Globals) (g : Graph) (rec : Bool) (dt : ℝ) : ℕ → Vehicle → Rng → Py (List Vehicle × Vehicle × Rng)
  | 0, v, rng => .ok ([], v, rng)
  | k + 1, v, rng => do
    let (v, rng) ← v.mdpAct G g rng .none
    let v ← v.step g rec dt
    let (l, w, rng) ← frames G g rec dt k v rng
    return (v :: l, w, rng)

/-- Reference: the states after every frame when the actions are applied one after the other, each followed by `k` frames. -/
def rollout (G : Globals) (g : Graph) (rec : Bool) (dt : ℝ) (k : ℕ) : List VAction → Vehicle → Rng → Py (List Vehicle)
  | [], _, _ => .ok []
  | a :: as, v, rng => do
    let (v, rng) ← v.mdpAct G g rng a
    let (l, v, rng) ← frames G g rec dt k v rng
    let rest ← rollout G g rec dt k as v rng
    return l ++ rest

theorem frames_length {G : Globals} {g : Graph} {rec : Bool} {dt : ℝ} {k : ℕ} {v w : Vehicle} {rng rng' : Rng} {l : List Vehicle}
    (h : frames G g rec dt k v rng = .ok (l, w, rng')) : l.length = k := by
  induction k generalizing v rng l with
  | zero => cases h; rfl
  | succ k ih =>
    unfold frames at h
    obtain ⟨⟨v1, rng1⟩, _, h⟩ := bind_ok h
    obtain ⟨v2, _, h⟩ := bind_ok h
    obtain ⟨⟨l', w', rng2⟩, h3, h⟩ := bind_ok h
    cases h
    simp [ih h3]

/-- The reference trajectory has one state per frame. -/
theorem rollout_length {G : Globals} {g : Graph} {rec : Bool} {dt : ℝ} {k : ℕ} {as : List VAction} {v : Vehicle} {rng : Rng}
    {l : List Vehicle} (h : rollout G g rec dt k as v rng = .ok l) : l.length = as.length * k := by
  induction as generalizing v rng l with
  | nil => cases h; simp
  | cons a as ih =>
    unfold rollout at h
    obtain ⟨⟨v1, rng1⟩, _, h⟩ := bind_ok h
    obtain ⟨⟨l1, v2, rng2⟩, h2, h⟩ := bind_ok h
    obtain ⟨l2, h3, h⟩ := bind_ok h
    cases h
    simp [frames_length h2, ih h3, Nat.add_mul, Nat.add_comm]

/-- Elements at the frames (counted from `t + 1`) divisible by `p`. -/
private def pick (p : Int) : ℕ → List Vehicle → List Vehicle
  | _, [] => []
  | t, v :: l => (if ((t + 1 : ℕ) : Int) % p = 0 then [v] else []) ++ pick p (t + 1) l

private theorem pick_append (p : Int) (t : ℕ) (l1 l2 : List Vehicle) :
    pick p t (l1 ++ l2) = pick p t l1 ++ pick p (t + l1.length) l2 := by
  induction l1 generalizing t with
  | nil => simp [pick]
  | cons v l1 ih =>
    simp only [List.cons_append, pick, ih, List.append_assoc, List.length_cons]
    congr 3
    omega

private theorem predictFrames_eq {G : Globals} {g : Graph} {rec : Bool} {dt : ℝ} {p : Int} (hp : p ≠ 0) (k t : ℕ) (v : Vehicle)
    (rng : Rng) (acc : List Vehicle) :
    Vehicle.predictFrames G g rec dt p k t v rng acc =
      (frames G g rec dt k v rng).map fun x => (t + k, x.2.1, x.2.2, acc ++ pick p t x.1) := by
  induction k generalizing t v rng acc with
  | zero => simp [Vehicle.predictFrames, frames, Except.map, pick]
  | succ k ih =>
    unfold Vehicle.predictFrames frames
    rcases v.mdpAct G g rng .none with e | ⟨v1, rng1⟩
    · rfl
    · simp only [bind, Except.bind]
      rcases Vehicle.step g rec dt v1 with e | v2
      · rfl
      · simp only [if_neg hp, ih]
        rcases frames G g rec dt k v2 rng1 with e | ⟨l, w, rng2⟩
        · rfl
        · simp only [Except.map, pure, Except.pure, pick]
          congr 2
          · omega
          · congr 2
            split <;> simp

private theorem predictLoop_eq {G : Globals} {g : Graph} {rec : Bool} {dt : ℝ} {p : Int} (hp : p ≠ 0) (k : ℕ) (as : List VAction)
    (t : ℕ) (v : Vehicle) (rng : Rng) (acc : List Vehicle) :
    Vehicle.predictLoop G g rec dt k p as t v rng acc = (rollout G g rec dt k as v rng).map fun l => acc ++ pick p t l := by
  induction as generalizing t v rng acc with
  | nil => simp [Vehicle.predictLoop, rollout, Except.map, pick]
  | cons a as ih =>
    unfold Vehicle.predictLoop rollout
    rcases v.mdpAct G g rng a with e | ⟨v1, rng1⟩
    · rfl
    · simp only [bind, Except.bind, predictFrames_eq hp]
      rcases hf : frames G g rec dt k v1 rng1 with e | ⟨l, v2, rng2⟩
      · rfl
      · simp only [Except.map, ih]
        rcases rollout G g rec dt k as v2 rng2 with e | l2
        · rfl
        · simp only [Except.map, pure, Except.pure, pick_append, frames_length hf, List.append_assoc]

private theorem pick_get (p : ℕ) (hp : 0 < p) (t : ℕ) (l : List Vehicle) (k : ℕ) :
    (pick p t l)[k]? = l[(t / p + 1 + k) * p - t - 1]? := by
  induction l generalizing t k with
  | nil => simp [pick]
  | cons v l ih =>
    have hdm := Nat.div_add_mod t p
    have hlt := Nat.mod_lt t hp
    have hmul : (t / p + 1 + k) * p = p * (t / p) + p + k * p := by ring
    unfold pick
    by_cases hd : ((t + 1 : ℕ) : Int) % (p : Int) = 0
    · rw [if_pos hd]
      have hd' : (t + 1) % p = 0 := by exact_mod_cast hd
      have hq : (t + 1) / p = t / p + 1 := by
        rw [Nat.succ_div, if_pos (Nat.dvd_of_mod_eq_zero hd')]
      have hm : t % p = p - 1 := by
        rcases Nat.lt_or_ge (t % p + 1) p with h | h
        · exfalso
          have : (t + 1) % p = t % p + 1 := by
            rw [Nat.add_mod, Nat.mod_eq_of_lt (a := 1) (by omega), Nat.mod_eq_of_lt h]
          omega
        · omega
      cases k with
      | zero =>
        have : (t / p + 1 + 0) * p - t - 1 = 0 := by rw [hmul]; simp; omega
        rw [this]; simp
      | succ k =>
        simp only [List.singleton_append, List.getElem?_cons_succ, ih, hq]
        have e : (t / p + 1 + (k + 1)) * p - t - 1 = ((t / p + 1 + 1 + k) * p - (t + 1) - 1) + 1 := by
          have h1 : (t / p + 1 + (k + 1)) * p = p * (t / p) + p + (k * p + p) := by ring
          have h2 : (t / p + 1 + 1 + k) * p = p * (t / p) + p + (k * p + p) := by ring
          rw [h1, h2]
          have : t + 1 < p * (t / p) + p + (k * p + p) := by omega
          omega
        rw [e]; simp
    · rw [if_neg hd]
      have hd' : (t + 1) % p ≠ 0 := by intro h; exact hd (by exact_mod_cast h)
      have hq : (t + 1) / p = t / p := by
        rw [Nat.succ_div, if_neg (fun h => hd' (Nat.mod_eq_zero_of_dvd h))]; rfl
      have hm : t % p + 1 < p := by
        by_contra h
        have : t % p + 1 = p := by omega
        apply hd'
        have : t + 1 = p * (t / p + 1) := by rw [Nat.mul_add]; omega
        rw [this]; exact Nat.mul_mod_right _ _
      simp only [List.nil_append, ih, hq]
      have e : (t / p + 1 + k) * p - t - 1 = ((t / p + 1 + k) * p - (t + 1) - 1) + 1 := by
        rw [hmul]
        have : t + 1 < p * (t / p) + p + k * p := by omega
        omega
      rw [e]; simp

private theorem pick_length (p : ℕ) (hp : 0 < p) (t : ℕ) (l : List Vehicle) :
    (pick p t l).length = (t + l.length) / p - t / p := by
  induction l generalizing t with
  | nil => simp [pick]
  | cons v l ih =>
    unfold pick
    rw [List.length_append, ih, List.length_cons]
    have h1 : t + 1 + l.length = t + (l.length + 1) := by omega
    rw [h1]
    have hle : (t + 1) / p ≤ (t + (l.length + 1)) / p := Nat.div_le_div_right (by omega)
    by_cases hd : ((t + 1 : ℕ) : Int) % (p : Int) = 0
    · have hd' : (t + 1) % p = 0 := by exact_mod_cast hd
      have hq : (t + 1) / p = t / p + 1 := by
        rw [Nat.succ_div, if_pos (Nat.dvd_of_mod_eq_zero hd')]
      rw [if_pos hd]
      simp only [List.length_singleton]
      omega
    · have hd' : (t + 1) % p ≠ 0 := by intro h; exact hd (by exact_mod_cast h)
      have hq : (t + 1) / p = t / p := by
        rw [Nat.succ_div, if_neg (fun h => hd' (Nat.mod_eq_zero_of_dvd h))]; rfl
      rw [if_neg hd]
      simp only [List.length_nil]
      omega

/-- C33.  When the trajectory timestep is at least one simulation frame, the prediction is the trajectory of the copied vehicle sampled
every `int(trajectory_timestep / dt)` frames: state number `j` is the state after `(j+1)·period` frames, and there are
`⌊total frames / period⌋` states; it fails exactly when the simulated motion itself fails. -/
theorem prediction_samples (G : Globals) (g : Graph) (rec : Bool) (rng : Rng) (v : Vehicle) (as : List VAction) (T tau dt : ℝ)
    (hp : 0 < pyInt (tau / dt)) :
    (∀ e, Vehicle.predictTrajectory G g rec rng v as T tau dt = .error e ↔
      rollout G g rec dt (pyInt (T / dt)).toNat as v rng = .error e) ∧
    ∀ res, Vehicle.predictTrajectory G g rec rng v as T tau dt = .ok res →
      ∃ all, rollout G g rec dt (pyInt (T / dt)).toNat as v rng = .ok all ∧
        res.length = as.length * (pyInt (T / dt)).toNat / (pyInt (tau / dt)).toNat ∧
        ∀ j, res[j]? = all[(j + 1) * (pyInt (tau / dt)).toNat - 1]? := by
  unfold Vehicle.predictTrajectory
  rw [predictLoop_eq (by omega)]
  obtain ⟨p, hpe⟩ : ∃ p : ℕ, pyInt (tau / dt) = p := ⟨(pyInt (tau / dt)).toNat, by omega⟩
  rw [hpe] at hp ⊢
  have hp' : 0 < p := by exact_mod_cast hp
  rcases hr : rollout G g rec dt (pyInt (T / dt)).toNat as v rng with e | all
  · exact ⟨fun e' => by simp [Except.map], fun res h => by cases h⟩
  · refine ⟨fun e' => by simp [Except.map], fun res h => ?_⟩
    cases h
    refine ⟨all, rfl, ?_, fun j => ?_⟩
    · simp only [List.nil_append, Int.toNat_natCast]
      rw [pick_length p hp', rollout_length hr]; simp
    · simp only [List.nil_append, Int.toNat_natCast]
      rw [pick_get p hp']
      congr 1
      simp only [Nat.zero_div, Nat.zero_add, Nat.sub_zero]
      rw [Nat.add_comm 1 j]

/-- A trajectory timestep shorter than one frame makes the prediction divide by zero as soon as one frame is simulated. -/
theorem prediction_zero_period (G : Globals) (g : Graph) (rec : Bool) (rng : Rng) (v : Vehicle) (a : VAction) (as : List VAction)
    (T tau dt : ℝ) (hp : pyInt (tau / dt) = 0) (hT : 0 < (pyInt (T / dt)).toNat) (res : List Vehicle) :
    Vehicle.predictTrajectory G g rec rng v (a :: as) T tau dt ≠ .ok res := by
  intro h
  unfold Vehicle.predictTrajectory Vehicle.predictLoop at h
  obtain ⟨⟨v1, rng1⟩, _, h⟩ := bind_ok h
  obtain ⟨x, hx, h⟩ := bind_ok h
  rw [hp] at hx
  obtain ⟨k, hk⟩ : ∃ k, (pyInt (T / dt)).toNat = k + 1 := ⟨(pyInt (T / dt)).toNat - 1, by omega⟩
  rw [hk] at hx
  unfold Vehicle.predictFrames at hx
  obtain ⟨⟨v2, rng2⟩, _, hx⟩ := bind_ok hx
  obtain ⟨v3, _, hx⟩ := bind_ok hx
  simp at hx

example : (0 : Int) < pyInt ((1 : ℝ) / 2 / (1 / 10)) := by
  unfold pyInt
  norm_num

end HighwayEnv.Props
