import Verif.Lemmas.Collide
import Verif.Spec.Run

/-! Frame lemmas for whole-road operations. -/

noncomputable section
namespace HighwayEnv
open Classical Spec

theorem Spec.Pointwise.refl' {α : Type} {R : α → α → Prop} (h : ∀ v, R v v) (vs : List α) : Pointwise R vs vs :=
  ⟨rfl, fun _ v hv => ⟨v, hv, h v⟩⟩

theorem Spec.Pointwise.trans' {α β γ : Type} {R : α → β → Prop} {S : β → γ → Prop} {T : α → γ → Prop}
    (h : ∀ a b c, R a b → S b c → T a c) {us : List α} {vs : List β} {ws : List γ} (h1 : Pointwise R us vs)
    (h2 : Pointwise S vs ws) : Pointwise T us ws := by
  refine ⟨h2.1.trans h1.1, fun i u hu => ?_⟩
  obtain ⟨v, hv, huv⟩ := h1.2 i u hu
  obtain ⟨w, hw, hvw⟩ := h2.2 i v hv
  exact ⟨w, hw, h _ _ _ huv hvw⟩

theorem Spec.Pointwise.comp {α : Type} {R : α → α → Prop} (h : ∀ {a b c}, R a b → R b c → R a c) {us vs ws : List α}
    (h1 : Pointwise R us vs) (h2 : Pointwise R vs ws) : Pointwise R us ws :=
  Pointwise.trans' (R := R) (S := R) (T := R) (fun _ _ _ => h) h1 h2

theorem Spec.Pointwise.mono {α β : Type} {R S : α → β → Prop} (h : ∀ a b, R a b → S a b) {us : List α} {vs : List β}
    (h1 : Pointwise R us vs) : Pointwise S us vs :=
  ⟨h1.1, fun i u hu => by obtain ⟨v, hv, hr⟩ := h1.2 i u hu; exact ⟨v, hv, h _ _ hr⟩⟩

theorem Spec.Pointwise.set {α : Type} {R : α → α → Prop} (hr : ∀ v, R v v) {vs : List α} {i : ℕ} {v w : α} (hv : vs[i]? = some v)
    (h : R v w) : Pointwise R vs (vs.set i w) := by
  refine ⟨by simp, fun k u hu => ?_⟩
  by_cases hk : i = k
  · subst hk
    rw [hv] at hu; cases hu
    exact ⟨w, List.getElem?_set_self (List.getElem?_eq_some_iff.1 hv).1, h⟩
  · exact ⟨u, by rw [List.getElem?_set_ne hk]; exact hu, hr _⟩

theorem mapM_pointwise {α β : Type} {f : α → Py β} {vs : List α} {ws : List β} (h : vs.mapM f = .ok ws) :
    Pointwise (fun v w => f v = .ok w) vs ws := by
  induction vs generalizing ws with
  | nil => rw [List.mapM_nil] at h; cases h; exact ⟨rfl, by simp⟩
  | cons v vs ih =>
    rw [List.mapM_cons] at h
    obtain ⟨w, hw, h⟩ := bind_ok h
    obtain ⟨ws', hws, h⟩ := bind_ok h
    cases h
    obtain ⟨h1, h2⟩ := ih hws
    refine ⟨by simp [h1], fun i u hu => ?_⟩
    cases i with
    | zero =>
      simp only [List.getElem?_cons_zero, Option.some.injEq] at hu
      subst hu; exact ⟨w, rfl, hw⟩
    | succ i => simpa using h2 i u (by simpa using hu)

theorem mapM_ok {α β : Type} {f : α → Py β} (vs : List α) (h : ∀ v ∈ vs, ∃ w, f v = .ok w) : ∃ ws, vs.mapM f = .ok ws := by
  induction vs with
  | nil => exact ⟨[], by rw [List.mapM_nil]; rfl⟩
  | cons v vs ih =>
    obtain ⟨w, hw⟩ := h v (by simp)
    obtain ⟨ws, hws⟩ := ih fun v hv => h v (by simp [hv])
    exact ⟨w :: ws, by rw [List.mapM_cons, hw, hws]; rfl⟩

namespace Road

/-- The two roads differ at most in their vehicles and random state. -/
structure SameScene (r r' : Road) : Prop where
  network : r'.network = r.network
  objects : r'.objects = r.objects
  recordHistory : r'.recordHistory = r.recordHistory
  regulated : r'.regulated = r.regulated
  steps : r'.steps = r.steps

theorem actAt_frame {G : Globals} {a : VAction} {r r' : Road} {i : ℕ} (h : r.actAt G a i = .ok r') :
    Pointwise SameBody r.vehicles r'.vehicles ∧ SameScene r r' := by
  unfold actAt at h
  split at h
  · cases h; exact ⟨.refl' SameBody.refl _, rfl, rfl, rfl, rfl, rfl⟩
  · rename_i v hv
    obtain ⟨⟨w, rng⟩, hw, h⟩ := bind_ok h
    cases h
    exact ⟨.set SameBody.refl hv (Vehicle.act_body hw), rfl, rfl, rfl, rfl, rfl⟩

theorem SameScene.trans {a b c : Road} (h1 : SameScene a b) (h2 : SameScene b c) : SameScene a c :=
  ⟨h2.1.trans h1.1, h2.2.trans h1.2, h2.3.trans h1.3, h2.4.trans h1.4, h2.5.trans h1.5⟩

theorem act_frame {G : Globals} {r r' : Road} (h : r.act G = .ok r') :
    Pointwise SameBody r.vehicles r'.vehicles ∧ SameScene r r' := by
  unfold act at h
  refine Vehicle.foldlM_rel (R := fun r r' => Pointwise SameBody r.vehicles r'.vehicles ∧ SameScene r r') ?_ ?_ ?_ _ _ _ h
  · exact fun b => ⟨.refl' SameBody.refl _, rfl, rfl, rfl, rfl, rfl⟩
  · exact fun a b c h1 h2 => ⟨Pointwise.comp (R := SameBody) SameBody.trans h1.1 h2.1, h1.2.trans h2.2⟩
  · exact fun b a b' h => actAt_frame h

/-- What the road rules may change on a vehicle: its speed target and yield state. -/
def SameButYield (v w : Vehicle) : Prop :=
  ∃ ts y t c, w = { v with targetSpeed := ts, isYielding := y, yieldTimer := t, hasColor := c }

theorem SameButYield.refl (v : Vehicle) : SameButYield v v := ⟨_, _, _, _, rfl⟩
theorem SameButYield.trans {a b c : Vehicle} (h1 : SameButYield a b) (h2 : SameButYield b c) : SameButYield a c := by
  obtain ⟨_, _, _, _, rfl⟩ := h1
  obtain ⟨_, _, _, _, rfl⟩ := h2
  exact ⟨_, _, _, _, rfl⟩
theorem SameButYield.body {v w : Vehicle} (h : SameButYield v w) : SameBody v w := by
  obtain ⟨_, _, _, _, rfl⟩ := h
  exact ⟨rfl, rfl, rfl, rfl, rfl, rfl, rfl, rfl, rfl, rfl, rfl, rfl⟩

theorem release_frame {v w : Vehicle} (h : release v = .ok w) : SameButYield v w := by
  unfold release at h
  split at h
  · split at h
    · split at h
      · cases h; exact ⟨_, _, _, _, rfl⟩
      · cases h
    · cases h; exact ⟨_, _, _, _, rfl⟩
  · cases h; exact .refl _

theorem markYield_frame (v : Vehicle) : SameButYield v (markYield v) := by
  unfold markYield
  split
  · exact ⟨_, _, _, _, rfl⟩
  · exact .refl _

theorem resolvePair_frame {g : Graph} {vs ws : List Vehicle} {ij : ℕ × ℕ} (h : resolvePair g vs ij = .ok ws) :
    Pointwise SameButYield vs ws := by
  unfold resolvePair at h
  split at h
  · rename_i v w hv hw
    obtain ⟨c, _, h⟩ := bind_ok h
    split at h
    · split at h
      · cases h; exact .set SameButYield.refl hv (markYield_frame _)
      · cases h; exact .set SameButYield.refl hw (markYield_frame _)
    · cases h; exact .refl' SameButYield.refl _
  · cases h; exact .refl' SameButYield.refl _

theorem enforce_frame {r r' : Road} (h : r.enforceRoadRules = .ok r') :
    Pointwise SameButYield r.vehicles r'.vehicles ∧ SameScene r r' ∧ r'.rng = r.rng := by
  unfold enforceRoadRules at h
  obtain ⟨us, hu, h⟩ := bind_ok h
  obtain ⟨ws, hw, h⟩ := bind_ok h
  cases h
  refine ⟨?_, ⟨rfl, rfl, rfl, rfl, rfl⟩, rfl⟩
  have h1 : Pointwise SameButYield r.vehicles us := (mapM_pointwise hu).mono fun _ _ => release_frame
  have h2 : Pointwise SameButYield us ws :=
    Vehicle.foldlM_rel (R := Pointwise SameButYield) (fun _ => .refl' SameButYield.refl _)
      (fun _ _ _ h1 h2 => Pointwise.comp (R := SameButYield) SameButYield.trans h1 h2) (fun _ _ _ => resolvePair_frame) _ _ _ hw
  exact Pointwise.comp (R := SameButYield) SameButYield.trans h1 h2

/-- A vehicle before and after a simulation step of the base class: it moved, then possibly collided. -/
def SteppedTo (g : Graph) (rec : Bool) (dt : ℝ) (v w : Vehicle) : Prop :=
  ∃ u, v.step g rec dt = .ok u ∧ Became True u w

theorem Evolves.pointwise {C : ℕ → Prop} {vs ws : List Vehicle} (h : Evolves C vs ws) : Pointwise (Became True) vs ws := by
  refine ⟨h.1, fun i v hv => ?_⟩
  obtain ⟨w, hw, s, b, h1, h2, h3, h4⟩ := h.2 i v hv
  exact ⟨w, hw, s, b, h1, h2, h3, h4.imp_right fun h => ⟨trivial, h.2⟩⟩

theorem stepBase_frame {r r' : Road} {dt : ℝ} (h : r.stepBase dt = .ok r') :
    Pointwise (SteppedTo r.network r.recordHistory dt) r.vehicles r'.vehicles ∧ r'.network = r.network ∧
    r'.recordHistory = r.recordHistory ∧ r'.regulated = r.regulated ∧ r'.steps = r.steps ∧ r'.rng = r.rng ∧
    OsEvolves r.objects r'.objects := by
  unfold stepBase at h
  obtain ⟨r1, h1, h⟩ := bind_ok h
  cases h
  unfold moveAll at h1
  obtain ⟨vs, hvs, h1⟩ := bind_ok h1
  cases h1
  refine ⟨?_, rfl, rfl, rfl, rfl, rfl, (collidePass_evolves _ _).2⟩
  exact (mapM_pointwise hvs).trans' (fun a b c h1 h2 => ⟨b, h1, h2⟩) (collidePass_evolves vs r.objects).1.pointwise

/-- Crash flags are never lowered by a step of a road of either class. -/
theorem step_frame {r r' : Road} {dt : ℝ} (h : r.step dt = .ok r') :
    Pointwise (fun v w => ∃ u, SameButYield v u ∧ SteppedTo r.network r.recordHistory dt u w) r.vehicles r'.vehicles ∧
    r'.network = r.network ∧ r'.recordHistory = r.recordHistory ∧ r'.regulated = r.regulated ∧ r'.rng = r.rng ∧
    OsEvolves r.objects r'.objects := by
  unfold step at h
  split at h
  · unfold stepRegulated at h
    dsimp only at h
    split at h
    · cases h
    · obtain ⟨r1, h1, h⟩ := bind_ok h
      obtain ⟨a1, a2, a3, a4, a5, a6, a7⟩ := stepBase_frame h
      unfold maybeEnforce at h1
      split at h1
      · obtain ⟨b1, b2, b3⟩ := enforce_frame h1
        refine ⟨?_, a2.trans b2.network, a3.trans b2.recordHistory, a4.trans b2.regulated, a6.trans b3, ?_⟩
        · refine b1.trans' (fun a b c h1 h2 => ⟨b, h1, ?_⟩) a1
          rwa [b2.network, b2.recordHistory] at h2
        · rw [b2.objects] at a7; exact a7
      · cases h1
        exact ⟨a1.mono fun v w h => ⟨v, .refl v, h⟩, a2, a3, a4, a6, a7⟩
  · obtain ⟨a1, a2, a3, a4, a5, a6, a7⟩ := stepBase_frame h
    exact ⟨a1.mono fun v w h => ⟨v, .refl v, h⟩, a2, a3, a4, a6, a7⟩

/-- A step of a road of either class, with the vehicles just before the collision pass. -/
theorem step_moved {r r' : Road} {dt : ℝ} (h : r.step dt = .ok r') :
    ∃ moved, Pointwise (fun v u => ∃ v0, SameButYield v v0 ∧ v0.step r.network r.recordHistory dt = .ok u) r.vehicles moved ∧
      r'.vehicles = (collidePass moved r.objects).1 ∧ r'.objects = (collidePass moved r.objects).2 := by
  have base : ∀ r1 : Road, r1.stepBase dt = .ok r' →
      ∃ moved, Pointwise (fun v u => v.step r1.network r1.recordHistory dt = .ok u) r1.vehicles moved ∧
      r'.vehicles = (collidePass moved r1.objects).1 ∧ r'.objects = (collidePass moved r1.objects).2 := by
    intro r1 h
    unfold stepBase at h
    obtain ⟨r2, h1, h⟩ := bind_ok h
    cases h
    unfold moveAll at h1
    obtain ⟨vs, hvs, h1⟩ := bind_ok h1
    cases h1
    exact ⟨vs, mapM_pointwise hvs, rfl, rfl⟩
  unfold step at h
  split at h
  · unfold stepRegulated at h
    dsimp only at h
    split at h
    · cases h
    · obtain ⟨r1, h1, h⟩ := bind_ok h
      obtain ⟨moved, m1, m2, m3⟩ := base r1 h
      unfold maybeEnforce at h1
      split at h1
      · obtain ⟨b1, b2, b3⟩ := enforce_frame h1
        rw [b2.objects] at m2 m3
        refine ⟨moved, ?_, m2, m3⟩
        refine b1.trans' (fun a b c h1 h2 => ⟨b, h1, ?_⟩) m1
        rwa [b2.network, b2.recordHistory] at h2
      · cases h1
        exact ⟨moved, m1.mono fun v w h => ⟨v, .refl v, h⟩, m2, m3⟩
  · obtain ⟨moved, m1, m2, m3⟩ := base r h
    exact ⟨moved, m1.mono fun v w h => ⟨v, .refl v, h⟩, m2, m3⟩

theorem SteppedTo.mind {g : Graph} {rec : Bool} {dt : ℝ} {v w : Vehicle} (h : SteppedTo g rec dt v w) :
    w.uid = v.uid ∧ w.kind = v.kind ∧ (v.crashed = true → w.crashed = true) ∧ w.collisionsEnabled = v.collisionsEnabled ∧
    w.targetLane = v.targetLane ∧ w.targetSpeed = v.targetSpeed ∧ w.route = v.route ∧ w.speedIndex = v.speedIndex := by
  obtain ⟨u, hu, s, b, rfl, _, hb, _⟩ := h
  have hm := Vehicle.step_mind hu
  exact ⟨hm.uid, hm.kind, fun h => hb (hm.crashed.trans h), hm.collisionsEnabled, hm.targetLane, hm.targetSpeed, hm.route,
    hm.speedIndex⟩

end Road
end HighwayEnv
