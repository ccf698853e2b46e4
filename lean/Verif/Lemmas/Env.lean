import Verif.Lemmas.Invariant
import Verif.Spec.Episode

/-! Lemmas about the environment loop. -/

noncomputable section
namespace HighwayEnv
open Classical Spec

theorem Spec.Pointwise.map_eq {α β γ : Type} {R : α → β → Prop} {f : α → γ} {g : β → γ} (h : ∀ a b, R a b → g b = f a)
    {vs : List α} {ws : List β} (hp : Pointwise R vs ws) : ws.map g = vs.map f := by
  apply List.ext_getElem?
  intro i
  rw [List.getElem?_map, List.getElem?_map]
  cases hv : vs[i]? with
  | none =>
    have : ws[i]? = none := by
      rw [List.getElem?_eq_none_iff] at hv ⊢
      rw [hp.1]; exact hv
    rw [this]; rfl
  | some v =>
    obtain ⟨w, hw, hr⟩ := hp.2 i v hv
    rw [hw]; simp [h _ _ hr]

namespace Road

/-- The identities of the vehicles, in order. -/
def uids (r : Road) : List ℕ := r.vehicles.map (·.uid)

theorem uids_event {G : Globals} {r r' : Road} (h : RoadEvent G r r') : r'.uids = r.uids := by
  cases h with
  | actAt i a h => exact (actAt_frame h).1.map_eq fun _ _ h => h.uid
  | act h => exact (act_frame h).1.map_eq fun _ _ h => h.uid
  | step dt h =>
    refine (step_frame h).1.map_eq ?_
    rintro v w ⟨u, hu, hs⟩
    rw [hs.mind.1, hu.body.uid]

theorem uids_run {G : Globals} {r r' : Road} (h : RoadRun G r r') : r'.uids = r.uids := by
  induction h with
  | refl => rfl
  | tail _ hev ih => exact (uids_event hev).trans ih

theorem RoadRun.trans {G : Globals} {r s t : Road} (h1 : RoadRun G r s) (h2 : RoadRun G s t) : RoadRun G r t := by
  induction h2 with
  | refl => exact h1
  | tail _ hev ih => exact .tail ih hev

theorem at_iff (r : Road) (uid i : ℕ) : At r uid i ↔ r.uids[i]? = some uid := by
  unfold At uids
  rw [List.getElem?_map]
  cases r.vehicles[i]? <;> simp

theorem indexOf_uids (r : Road) (uid : ℕ) : r.indexOf uid = r.uids.findIdx? fun u => decide (u = uid) := by
  unfold indexOf uids
  rw [List.findIdx?_map]; rfl

theorem indexOf_at {r : Road} {uid i : ℕ} (hd : r.uids.Nodup) (h : At r uid i) : r.indexOf uid = some i := by
  rw [indexOf_uids]
  rw [at_iff] at h
  obtain ⟨hi, h⟩ := List.getElem?_eq_some_iff.1 h
  rw [List.findIdx?_eq_some_iff_getElem]
  refine ⟨hi, by simp [h], fun j hj hc => ?_⟩
  simp only [decide_eq_true_eq] at hc
  have : j = i := (List.Nodup.getElem_inj_iff hd).1 (hc.trans h.symm)
  omega

theorem at_of_mem {r : Road} {uid : ℕ} (h : ∃ v ∈ r.vehicles, v.uid = uid) : ∃ i, At r uid i := by
  obtain ⟨v, hv, rfl⟩ := h
  obtain ⟨i, hi, rfl⟩ := List.mem_iff_getElem.1 hv
  exact ⟨i, _, List.getElem?_eq_getElem hi, rfl⟩

theorem agentAct_of {G : Globals} {t : AgentType} {r : Road} {uid : ℕ} {a : AgentAction} {o : ℕ × VAction} (hd : r.uids.Nodup)
    (h : Sends r t uid a o) : r.agentAct G t uid a = r.actAt G o.2 o.1 := by
  unfold agentAct
  rw [h.2, indexOf_at hd h.1]; rfl

theorem Sends.congr {r r' : Road} (h : r'.uids = r.uids) {t : AgentType} {uid : ℕ} {a : AgentAction} {o : ℕ × VAction}
    (hs : Sends r t uid a o) : Sends r' t uid a o :=
  ⟨by rw [at_iff, h, ← at_iff]; exact hs.1, hs.2⟩

private theorem multi_of {G : Globals} {t : AgentType} (l : List (AgentAction × ℕ)) (cmds : List (ℕ × VAction)) (r : Road)
    (hd : r.uids.Nodup) (h : Pointwise (fun (au : AgentAction × ℕ) o => Sends r t au.2 au.1 o) l cmds) :
    l.foldlM (fun r au => r.agentAct G t au.2 au.1) r = cmds.foldlM (fun r o => r.actAt G o.2 o.1) r := by
  induction l generalizing r cmds with
  | nil =>
    have : cmds = [] := by simpa using h.1
    subst this; rfl
  | cons au l ih =>
    cases cmds with
    | nil => have := h.1; simp at this
    | cons o cmds =>
      rw [List.foldlM_cons, List.foldlM_cons]
      obtain ⟨o', ho', hs⟩ := h.2 0 au (by simp)
      simp only [List.getElem?_cons_zero, Option.some.injEq] at ho'
      subst ho'
      rw [agentAct_of hd hs]
      cases hr : r.actAt G o.2 o.1 with
      | error _ => rfl
      | ok r1 =>
        have hu : r1.uids = r.uids := uids_event (.actAt _ _ hr)
        simp only [bind, Except.bind]
        refine ih cmds r1 (by rw [hu]; exact hd) ⟨by simpa using h.1, fun i x hx => ?_⟩
        obtain ⟨o', ho', hs'⟩ := h.2 (i + 1) x (by simpa using hx)
        exact ⟨o', by simpa using ho', Sends.congr hu hs'⟩

/-- Forwarding an action is executing, in order, the commands it stands for. -/
theorem envAct_of {G : Globals} {t : ActionType} {ctl : List ℕ} {r : Road} {a : AgentAction} {cmds : List (ℕ × VAction)}
    (hd : r.uids.Nodup) (h : Orders t ctl r a cmds) :
    r.envAct G t ctl a = cmds.foldlM (fun r o => r.actAt G o.2 o.1) r := by
  cases t with
  | single t =>
    obtain ⟨o, uid, h1, h2, rfl⟩ := h
    cases ctl with
    | nil => cases h1
    | cons u ctl =>
      simp only [List.head?_cons, Option.some.injEq] at h1
      subst h1
      simp only [envAct, agentAct_of hd h2, List.foldlM_cons, List.foldlM_nil]
      cases r.actAt G o.2 o.1 <;> rfl
  | multi t =>
    cases a with
    | tuple as => exact multi_of _ _ _ hd h
    | index i => exact h.elim
    | vector xs => exact h.elim

/-- An action that is executed stands for some commands. -/
theorem orders_of {G : Globals} {t : ActionType} {ctl : List ℕ} {r r' : Road} {a : AgentAction}
    (hon : ∀ uid ∈ ctl, ∃ v ∈ r.vehicles, v.uid = uid) (h : r.envAct G t ctl a = .ok r') : ∃ cmds, Orders t ctl r a cmds := by
  cases t with
  | single t =>
    cases ctl with
    | nil => simp [envAct] at h
    | cons u ctl =>
      simp only [envAct, agentAct] at h
      obtain ⟨c, hc, _⟩ := bind_ok h
      obtain ⟨i, hi⟩ := at_of_mem (hon u (by simp))
      exact ⟨[(i, c)], (i, c), u, rfl, ⟨hi, hc⟩, rfl⟩
  | multi t =>
    cases a with
    | index i => simp [envAct] at h
    | vector xs => simp [envAct] at h
    | tuple as =>
      simp only [envAct] at h
      have key : ∀ (l : List (AgentAction × ℕ)) (r1 : Road), r1.uids = r.uids → (∀ au ∈ l, ∃ v ∈ r.vehicles, v.uid = au.2) →
          l.foldlM (fun r au => r.agentAct G t au.2 au.1) r1 = .ok r' →
          ∃ cmds, Pointwise (fun (au : AgentAction × ℕ) o => Sends r t au.2 au.1 o) l cmds := by
        intro l
        induction l with
        | nil => intro _ _ _ _; exact ⟨[], rfl, by simp⟩
        | cons au l ih =>
          intro r1 hu hl h
          rw [List.foldlM_cons] at h
          obtain ⟨r2, h2, h⟩ := bind_ok h
          have h2' := h2
          unfold agentAct at h2
          obtain ⟨c, hc, h2⟩ := bind_ok h2
          obtain ⟨i, hi⟩ := at_of_mem (hl au (by simp))
          have hu2 : r2.uids = r1.uids := by
            split at h2
            · cases h2; rfl
            · exact uids_event (G := G) (.actAt _ _ h2)
          obtain ⟨cmds, hc1, hc2⟩ := ih r2 (hu2.trans hu) (fun x hx => hl x (by simp [hx])) h
          refine ⟨(i, c) :: cmds, by simp [hc1], fun j x hx => ?_⟩
          cases j with
          | zero =>
            simp only [List.getElem?_cons_zero, Option.some.injEq] at hx
            subst hx
            exact ⟨(i, c), by simp, hi, hc⟩
          | succ j => simpa using hc2 j x (by simpa using hx)
      exact key _ r rfl (fun au hau => hon _ (List.of_mem_zip hau).2) h

theorem actAts_run {G : Globals} {cmds : List (ℕ × VAction)} {r r' : Road}
    (h : cmds.foldlM (fun r (o : ℕ × VAction) => r.actAt G o.2 o.1) r = .ok r') : RoadRun G r r' := by
  induction cmds generalizing r with
  | nil => rw [List.foldlM_nil] at h; cases h; exact .refl _
  | cons o cmds ih =>
    rw [List.foldlM_cons] at h
    obtain ⟨r1, h1, h⟩ := bind_ok h
    exact RoadRun.trans (.tail (.refl _) (.actAt _ _ h1)) (ih h)

theorem frame_run {G : Globals} {dt : ℝ} {cmds : List (ℕ × VAction)} {r r' : Road} (h : Spec.frame G dt r cmds = .ok r') :
    RoadRun G r r' := by
  unfold Spec.frame at h
  obtain ⟨r1, h1, h⟩ := bind_ok h
  obtain ⟨r2, h2, h⟩ := bind_ok h
  exact .tail (.tail (actAts_run h1) (.act h2)) (.step _ h)

theorem frames_run {G : Globals} {dt : ℝ} {cmds : List (List (ℕ × VAction))} {r r' : Road} (h : frames G dt r cmds = .ok r') :
    RoadRun G r r' := by
  unfold frames at h
  induction cmds generalizing r with
  | nil => rw [List.foldlM_nil] at h; cases h; exact .refl _
  | cons o cmds ih =>
    rw [List.foldlM_cons] at h
    obtain ⟨r1, h1, h⟩ := bind_ok h
    exact RoadRun.trans (frame_run h1) (ih h)

end Road
end HighwayEnv
