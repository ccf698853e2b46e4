import Verif.Lemmas.Act

/-! Per-vehicle invariants over all histories of a road. -/

noncomputable section
namespace HighwayEnv
open Classical Spec Graph

theorem Spec.Pointwise.forall {α β : Type} {R : α → β → Prop} {P : α → Prop} {Q : β → Prop} (h : ∀ a b, R a b → P a → Q b)
    {vs : List α} {ws : List β} (hp : Pointwise R vs ws) (hP : ∀ v ∈ vs, P v) : ∀ w ∈ ws, Q w := by
  intro w hw
  obtain ⟨i, hi, rfl⟩ := List.mem_iff_getElem.1 hw
  have hi' : i < vs.length := hp.1 ▸ hi
  obtain ⟨w', hw', hr⟩ := hp.2 i vs[i] (List.getElem?_eq_getElem hi')
  rw [List.getElem?_eq_getElem hi] at hw'
  cases hw'
  exact h _ _ hr (hP _ (List.getElem_mem hi'))

namespace Road

theorem forall_set {P : Vehicle → Prop} {vs : List Vehicle} {i : ℕ} {w : Vehicle} (h : ∀ v ∈ vs, P v) (hw : P w) :
    ∀ v ∈ vs.set i w, P v := by
  intro v hv
  rcases List.mem_or_eq_of_mem_set hv with h' | rfl
  · exact h v h'
  · exact hw

theorem foldlM_inv {α β : Type} {I : β → Prop} {f : β → α → Py β} (hf : ∀ b a b', I b → f b a = .ok b' → I b') (l : List α)
    (b b' : β) (hb : I b) (h : l.foldlM f b = .ok b') : I b' := by
  induction l generalizing b with
  | nil => rw [List.foldlM_nil] at h; cases h; exact hb
  | cons a l ih =>
    rw [List.foldlM_cons] at h
    obtain ⟨c, hc, h⟩ := bind_ok h
    exact ih c (hf _ _ _ hb hc) h

theorem foldlM_total {α β : Type} {I : β → Prop} {f : β → α → Py β} (l : List α) (hf : ∀ b a, a ∈ l → I b → ∃ b', f b a = .ok b' ∧ I b')
    (b : β) (hb : I b) : ∃ b', l.foldlM f b = .ok b' ∧ I b' := by
  induction l generalizing b with
  | nil => exact ⟨b, by rw [List.foldlM_nil]; rfl, hb⟩
  | cons a l ih =>
    obtain ⟨c, hc, hI⟩ := hf b a (by simp) hb
    obtain ⟨d, hd, hI'⟩ := ih (fun b a ha => hf b a (by simp [ha])) c hI
    exact ⟨d, by rw [List.foldlM_cons, hc]; exact hd, hI'⟩

/-- A predicate on vehicles kept by everything that happens on a road with the given network. -/
structure Kept (G : Globals) (g : Graph) (I : Vehicle → Prop) : Prop where
  act : ∀ (r : Road) (v v' : Vehicle) (a : VAction) (rng' : Rng), r.network = g → I v → v.act G r a = .ok (v', rng') → I v'
  release : ∀ v v' : Vehicle, I v → release v = .ok v' → I v'
  markYield : ∀ v : Vehicle, I v → I (markYield v)
  step : ∀ (rec : Bool) (dt : ℝ) (v v' : Vehicle), I v → v.step g rec dt = .ok v' → I v'
  collide : ∀ (v : Vehicle) (s : ℝ), I v → |s| ≤ |v.speed| → I { v with speed := s, crashed := true }

theorem Kept.became {G : Globals} {g : Graph} {I : Vehicle → Prop} (k : Kept G g I) {u w : Vehicle} (hu : I u)
    (h : Became True u w) : I w := by
  obtain ⟨s, b, rfl, h1, h2, h3⟩ := h
  rcases h3 with h3 | ⟨_, h3⟩
  · rw [h3]; exact hu
  · have := k.collide u s hu h1
    rw [h3]; exact this

theorem Kept.actAt {G : Globals} {r r' : Road} {I : Vehicle → Prop} (k : Kept G r.network I) {a : VAction} {i : ℕ}
    (h : r.actAt G a i = .ok r') (hI : ∀ v ∈ r.vehicles, I v) : ∀ v ∈ r'.vehicles, I v := by
  unfold Road.actAt at h
  split at h
  · cases h; exact hI
  · rename_i v hv
    obtain ⟨⟨w, rng⟩, hw, h⟩ := bind_ok h
    cases h
    exact forall_set hI (k.act r v w a rng rfl (hI v (List.mem_of_getElem? hv)) hw)

theorem Kept.roadAct {G : Globals} {r r' : Road} {I : Vehicle → Prop} (k : Kept G r.network I)
    (h : r.act G = .ok r') (hI : ∀ v ∈ r.vehicles, I v) : ∀ v ∈ r'.vehicles, I v := by
  unfold Road.act at h
  have := foldlM_inv (I := fun s : Road => s.network = r.network ∧ ∀ v ∈ s.vehicles, I v) ?_ _ _ _ ⟨rfl, hI⟩ h
  · exact this.2
  · rintro s i s' ⟨h1, h2⟩ hs
    exact ⟨(actAt_frame hs).2.network.trans h1, Kept.actAt (h1 ▸ k) hs h2⟩

theorem Kept.enforce {G : Globals} {r r' : Road} {I : Vehicle → Prop} (k : Kept G r.network I)
    (h : r.enforceRoadRules = .ok r') (hI : ∀ v ∈ r.vehicles, I v) : ∀ v ∈ r'.vehicles, I v := by
  unfold enforceRoadRules at h
  obtain ⟨us, hu, h⟩ := bind_ok h
  obtain ⟨ws, hw, h⟩ := bind_ok h
  cases h
  refine foldlM_inv (I := fun vs : List Vehicle => ∀ v ∈ vs, I v) ?_ _ _ _ ?_ hw
  · intro vs ij vs' hvs h
    unfold resolvePair at h
    split at h
    · rename_i v w hv hw
      obtain ⟨c, _, h⟩ := bind_ok h
      split at h
      · split at h
        · cases h; exact forall_set hvs (k.markYield _ (hvs _ (List.mem_of_getElem? hv)))
        · cases h; exact forall_set hvs (k.markYield _ (hvs _ (List.mem_of_getElem? hw)))
      · cases h; exact hvs
    · cases h; exact hvs
  · exact (mapM_pointwise hu).forall (fun v w h hv => k.release v w hv h) hI

theorem Kept.stepBase {G : Globals} {r r' : Road} {I : Vehicle → Prop} (k : Kept G r.network I) {dt : ℝ}
    (h : r.stepBase dt = .ok r') (hI : ∀ v ∈ r.vehicles, I v) : ∀ v ∈ r'.vehicles, I v := by
  refine (stepBase_frame h).1.forall ?_ hI
  rintro v w ⟨u, hu, hb⟩ hv
  exact k.became (k.step _ _ _ _ hv hu) hb

theorem Kept.roadStep {G : Globals} {r r' : Road} {I : Vehicle → Prop} (k : Kept G r.network I) {dt : ℝ}
    (h : r.step dt = .ok r') (hI : ∀ v ∈ r.vehicles, I v) : ∀ v ∈ r'.vehicles, I v := by
  unfold Road.step at h
  split at h
  · unfold stepRegulated at h
    dsimp only at h
    split at h
    · cases h
    · obtain ⟨r1, h1, h⟩ := bind_ok h
      unfold maybeEnforce at h1
      split at h1
      · have hn := (enforce_frame h1).2.1.network
        have h2 := Kept.enforce (r := { r with steps := r.steps + 1 }) k h1 hI
        exact Kept.stepBase (r := r1) (by rw [hn]; exact k) h h2
      · cases h1
        exact Kept.stepBase (r := { r with steps := r.steps + 1 }) k h hI
  · exact k.stepBase h hI

theorem RoadEvent.network {G : Globals} {r r' : Road} (h : RoadEvent G r r') : r'.network = r.network := by
  cases h with
  | actAt i a h => exact (actAt_frame h).2.network
  | act h => exact (act_frame h).2.network
  | step dt h => exact (step_frame h).2.1

theorem Kept.event {G : Globals} {r r' : Road} {I : Vehicle → Prop} (k : Kept G r.network I) (h : RoadEvent G r r')
    (hI : ∀ v ∈ r.vehicles, I v) : ∀ v ∈ r'.vehicles, I v := by
  cases h with
  | actAt i a h => exact k.actAt h hI
  | act h => exact k.roadAct h hI
  | step dt h => exact k.roadStep h hI

theorem Kept.run {G : Globals} {r r' : Road} {I : Vehicle → Prop} (k : Kept G r.network I) (h : RoadRun G r r')
    (hI : ∀ v ∈ r.vehicles, I v) : r'.network = r.network ∧ ∀ v ∈ r'.vehicles, I v := by
  induction h with
  | refl => exact ⟨rfl, hI⟩
  | tail _ hev ih =>
    refine ⟨(RoadEvent.network hev).trans ih.1, Kept.event (by rw [ih.1]; exact k) hev ih.2⟩

end Road
end HighwayEnv
