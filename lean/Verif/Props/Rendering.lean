import Verif.Spec.Rendering
import Verif.Spec.Sample
import Verif.Props.EnvSafe

/-!
# C96: what `render` shows, C97: rendering does not disturb the simulation
-/

noncomputable section
open Classical
namespace HighwayEnv.Props
open HighwayEnv Spec

/-! ## Calm renderings -/

private theorem untouched_tail {s : Renv} (h : Untouched s) : Untouched { s with inbox := s.inbox.tail } :=
  fun evs he => h evs (List.mem_of_mem_tail he)

private theorem read_cases (G : Globals) (c : SimConfig) (s : Renv) :
    s.readEvents G c = (s, .ok ()) ∨ ∃ v, s.viewer = some v ∧ ¬ v.offscreen = true ∧ s.readEvents G c = s.handleEvents G c := by
  unfold Renv.readEvents
  cases hv : s.viewer with
  | none => exact .inl rfl
  | some v =>
    dsimp only
    by_cases ho : v.offscreen = true
    · rw [if_pos ho]; exact .inl rfl
    · rw [if_neg ho]; exact .inr ⟨v, rfl, ho, rfl⟩

private theorem read_calm {G : Globals} {c : SimConfig} {u : UiConfig} {s : Renv} (h : Calm u s) :
    ∃ i, s.readEvents G c = ({ s with inbox := i }, .ok ()) ∧ Calm u { s with inbox := i } := by
  rcases read_cases G c s with h1 | ⟨v, hv, ho, h1⟩
  · exact ⟨s.inbox, h1, h⟩
  · rw [h1]
    rcases h with h | h
    · refine ⟨s.inbox.tail, ?_, .inl (untouched_tail h)⟩
      unfold Renv.handleEvents
      have : s.inbox.head?.getD [] = [] := by
        cases hi : s.inbox with
        | nil => rfl
        | cons e l => exact h e (by rw [hi]; exact List.mem_cons_self)
      rw [this]; rfl
    · exact absurd (h.2 v hv) ho

private theorem prepare_calm {u : UiConfig} {m : RenderMode} {s : Renv} (h : Calm u s) : Calm u (s.prepare u m) := by
  rcases h with h | h
  · refine .inl ?_
    have : (s.prepare u m).inbox = s.inbox := by
      unfold Renv.prepare Renv.refresh Renv.ensureViewer
      cases s.viewer <;> (dsimp only; split <;> rfl)
    intro evs he
    rw [this] at he
    exact h evs he
  · refine .inr ⟨h.1, ?_⟩
    intro v hv
    unfold Renv.prepare Renv.refresh Renv.ensureViewer Renv.displayOn at hv
    cases hs : s.viewer with
    | none =>
      simp only [hs] at hv
      split at hv
      · simp only [Option.map_some, Option.some.injEq] at hv
        subst hv
        split <;> exact h.1
      · simp only [Option.some.injEq] at hv
        subst hv
        exact h.1
    | some w =>
      have hw := h.2 w hs
      simp only [hs] at hv
      split at hv
      · simp only [Option.map_some, Option.some.injEq] at hv
        subst hv
        split <;> exact hw
      · simp only [Option.some.injEq] at hv
        subst hv
        exact hw

/-- The object once `prepare` is done: the viewer is there, redrawn if asked for. -/
private theorem prepare_eq (u : UiConfig) (m : RenderMode) (s : Renv) :
    ∃ v, s.prepare u m = { s with mode := m, auto := true, viewer := some v } ∧
      v = (if s.shouldUpdate then Renv.displayOn s.env else id) (s.viewer.getD (Renv.newViewer u s.centering)) := by
  unfold Renv.prepare Renv.refresh Renv.ensureViewer
  cases hs : s.viewer with
  | none =>
    dsimp only
    cases hb : s.shouldUpdate
    · exact ⟨_, rfl, rfl⟩
    · exact ⟨_, rfl, rfl⟩
  | some w =>
    dsimp only
    cases hb : s.shouldUpdate
    · refine ⟨w, ?_, rfl⟩
      simp only [Bool.false_eq_true, if_false]
    · refine ⟨Renv.displayOn s.env w, ?_, rfl⟩
      simp only [if_true, hs, Option.map_some]

/-- `render` when nothing interferes. -/
private theorem render_calm {G : Globals} {c : SimConfig} {u : UiConfig} (m : RenderMode) {s : Renv} (h : Calm u s) :
    ∃ i v b, s.render G c u m = ({ s with mode := m, auto := true, viewer := some v, inbox := i, shouldUpdate := b },
        .ok (if m = .rgb then some (if u.renderAgent && !v.offscreen then v.screen else v.surface) else none)) ∧
      v = (if s.shouldUpdate then Renv.displayOn s.env else id) (s.viewer.getD (Renv.newViewer u s.centering)) ∧
      b = (if m = .rgb then s.shouldUpdate else false) ∧
      Calm u { s with mode := m, auto := true, viewer := some v, inbox := i, shouldUpdate := b } := by
  obtain ⟨v, hv, hveq⟩ := prepare_eq u m s
  obtain ⟨i, hi, hc⟩ := read_calm (G := G) (c := c) (prepare_calm (m := m) h)
  unfold Renv.render
  rw [hi, hv] at *
  cases m with
  | rgb =>
    refine ⟨i, v, s.shouldUpdate, ?_, hveq, rfl, hc⟩
    unfold Renv.deliver Renv.getImage
    rfl
  | human =>
    refine ⟨i, v, false, ?_, hveq, rfl, ?_⟩
    · unfold Renv.deliver; rfl
    · rcases hc with h | h
      · exact .inl h
      · exact .inr h

/-! ## C97: rendering does not disturb the simulation -/

/-- Nothing changed except the rendering attributes. -/
private structure SameGame (u : UiConfig) (s s' : Renv) : Prop where
  env : s'.env = s.env
  calm : Calm u s'

private theorem auto_calm {G : Globals} {c : SimConfig} {u : UiConfig} {s : Renv} (h : Calm u s) :
    ∃ s', s.autoRender G c u = (s', .ok ()) ∧ SameGame u s s' := by
  unfold Renv.autoRender
  split
  · obtain ⟨i, v, b, hr, -, -, hc⟩ := render_calm (G := G) (c := c) (s.callback.getD s.mode) (s := { s with shouldUpdate := true }) h
    rw [hr]
    exact ⟨_, rfl, rfl, hc⟩
  · exact ⟨s, rfl, rfl, h⟩

private theorem loop_calm {G : Globals} {c : SimConfig} {u : UiConfig} {cls : EnvClass} {k : Int} {a : Option AgentAction} (n : ℕ)
    {s : Renv} (h : Calm u s) :
    match Env.simulateLoop G c cls k a n s.env with
    | .error e => (s.simulateLoop G c u cls k a n).2 = .error e
    | .ok e' => ∃ s', s.simulateLoop G c u cls k a n = (s', .ok ()) ∧ s'.env = e' ∧ Calm u s' := by
  induction n generalizing s with
  | zero => exact ⟨s, rfl, rfl, h⟩
  | succ n ih =>
    unfold Env.simulateLoop Renv.simulateLoop
    cases hf : s.env.frame G c k a with
    | error e => rfl
    | ok e1 =>
      dsimp only [bind, Except.bind]
      obtain ⟨s1, h1, h2⟩ := auto_calm (G := G) (c := c) (s := { s with env := e1, lastAction := s.forwardLast c k a }) h
      rw [h1]
      dsimp only
      have he : s1.env = e1 := h2.env
      rw [he]
      cases hs : e1.stops cls with
      | error e => rfl
      | ok b =>
        dsimp only
        cases b with
        | true => exact ⟨s1, rfl, he, h2.calm⟩
        | false =>
          have := ih h2.calm
          rw [he] at this
          exact this

private theorem observe_calm {G : Globals} {c : SimConfig} {u : UiConfig} {s : Renv} (h : Calm u s) :
    ∃ s' o, s.observe G c u = (s', .ok o) ∧ SameGame u s s' := by
  unfold Renv.observe
  split
  · obtain ⟨i, v, b, hr, -, -, hc⟩ := render_calm (G := G) (c := c) .rgb h
    rw [hr]
    exact ⟨_, _, rfl, rfl, hc⟩
  · exact ⟨s, none, rfl, rfl, h⟩

private theorem step_calm {G : Globals} {c : SimConfig} {u : UiConfig} {cls : EnvClass} {a : Option AgentAction}
    {s : Renv} (h : Calm u s) :
    match s.env.step G c cls a with
    | .error e => (s.step G c u cls a).2 = .error e
    | .ok (e', r) => ∃ s' img, s.step G c u cls a = (s', .ok ⟨img, r⟩) ∧ s'.env = e' ∧ Calm u s' := by
  unfold Env.step Renv.step
  by_cases h0 : s.env.controlled = []
  · rw [if_pos h0, if_pos h0]
  · rw [if_neg h0, if_neg h0]
    unfold Env.simulate Renv.simulate
    cases hk : Env.framesPerStep c with
    | error e => rfl
    | ok k =>
      dsimp only [bind, Except.bind]
      have hl := loop_calm (G := G) (c := c) (cls := cls) (k := k) (a := a) k.toNat
        (s := { s with env := { s.env with steps := s.env.steps + 1 } }) h
      cases he : Env.simulateLoop G c cls k a k.toNat { s.env with steps := s.env.steps + 1 } with
      | error e =>
        dsimp only at hl
        rw [he] at hl
        dsimp only at hl ⊢
        generalize Renv.simulateLoop G c u cls k a k.toNat { s with env := { s.env with steps := s.env.steps + 1 } } = p at hl
        obtain ⟨p1, p2⟩ := p
        dsimp only at hl
        subst hl
        rfl
      | ok e1 =>
        dsimp only at hl
        rw [he] at hl
        obtain ⟨s1, h1, h2, h3⟩ := hl
        rw [h1]
        dsimp only
        obtain ⟨s2, o, g1, g2⟩ := observe_calm (G := G) (c := c) (s := { s1 with auto := false }) (u := u) h3
        rw [g1]
        dsimp only
        have hee : s2.env = e1 := g2.env.trans h2
        unfold Renv.conclude
        rw [hee]
        cases hr : cls.reward e1 a with
        | error e => rfl
        | ok x1 =>
          dsimp only [bind, Except.bind]
          cases ht : cls.terminal e1 with
          | error e => rfl
          | ok x2 =>
            dsimp only
            cases hw : e1.vehicle with
            | error e => rfl
            | ok x3 =>
              dsimp only
              cases hct : Env.tryCost cls e1 with
              | error e => rfl
              | ok x4 =>
                dsimp only
                cases haf : cls.after e1 with
                | error e => rfl
                | ok x5 =>
                  refine ⟨_, _, rfl, rfl, ?_⟩
                  exact g2.calm

/-- **C97.** When nothing interferes — nobody touches the keyboard, or everything is rendered off screen — a program that renders in any
modes, at any times, with or without image observations or a rendering callback, gets the same step results, the same exceptions and the same
final simulation as the same program without its `render` calls. -/
theorem rendering_transparent (G : Globals) (c : SimConfig) (u : UiConfig) (cls : EnvClass) (ops : List Op) (s : Renv) (h : Calm u s) :
    (driven G c u cls ops s).map (fun p => (p.1.env, p.2)) = bare G c cls ops s.env := by
  induction ops generalizing s with
  | nil => rfl
  | cons op ops ih =>
    cases op with
    | render m =>
      unfold driven bare
      obtain ⟨i, v, b, hr, -, -, hc⟩ := render_calm (G := G) (c := c) m h
      rw [hr]
      exact ih _ hc
    | step a =>
      unfold driven bare
      have hs := step_calm (G := G) (c := c) (cls := cls) (a := a) h
      cases he : s.env.step G c cls a with
      | error e =>
        rw [he] at hs
        dsimp only at hs ⊢
        generalize s.step G c u cls a = p at hs
        obtain ⟨p1, p2⟩ := p
        dsimp only at hs
        subst hs
        rfl
      | ok p =>
        obtain ⟨e', r⟩ := p
        rw [he] at hs
        obtain ⟨s', img, h1, h2, h3⟩ := hs
        rw [h1]
        dsimp only
        rw [← h2, ← ih s' h3]
        cases driven G c u cls ops s' <;> rfl
    | reset scene =>
      unfold driven bare Renv.reset
      obtain ⟨s', o, g1, g2⟩ := observe_calm (G := G) (c := c) (u := u)
        (s := { s with env := { scene with time := 0, steps := 0, done := false }, lastAction := Renv.initialAction c }) h
      rw [g1]
      dsimp only
      rw [ih s' g2.calm, g2.env]
    | close =>
      unfold driven bare
      refine ih s.close ?_
      rcases h with h | h
      · exact .inl h
      · refine .inr ⟨h.1, ?_⟩
        intro v hv
        cases hv

/-! ## C96: what `render` shows -/

/-- Reading events never draws, and does not change the rendering attributes (it may close the viewer). -/
private structure SameViewer (s s' : Renv) : Prop where
  mode : s'.mode = s.mode
  auto : s'.auto = s.auto
  shouldUpdate : s'.shouldUpdate = s.shouldUpdate
  callback : s'.callback = s.callback
  viewer : ∀ v', s'.viewer = some v' → ∃ v, s.viewer = some v ∧ v'.surface = v.surface ∧ v'.screen = v.screen ∧
    v'.offscreen = v.offscreen ∧ v'.enabled = v.enabled

private theorem SameViewer.refl (s : Renv) : SameViewer s s := ⟨rfl, rfl, rfl, rfl, fun v h => ⟨v, h, rfl, rfl, rfl, rfl⟩⟩

private theorem SameViewer.trans {s t w : Renv} (h : SameViewer s t) (g : SameViewer t w) : SameViewer s w := by
  refine ⟨g.mode.trans h.mode, g.auto.trans h.auto, g.shouldUpdate.trans h.shouldUpdate, g.callback.trans h.callback, ?_⟩
  intro v' hv'
  obtain ⟨v, hv, a1, a2, a3, a4⟩ := g.viewer v' hv'
  obtain ⟨v0, hv0, b1, b2, b3, b4⟩ := h.viewer v hv
  exact ⟨v0, hv0, a1.trans b1, a2.trans b2, a3.trans b3, a4.trans b4⟩

private theorem keyboard_viewer {G : Globals} {c : SimConfig} {s s' : Renv} {ev : UiEvent} (h : s.keyboard G c ev = .ok s') :
    SameViewer s s' := by
  unfold Renv.keyboard at h
  split at h
  · obtain ⟨o, ho, h⟩ := bind_ok h
    cases o with
    | none => cases h; exact .refl _
    | some i =>
      obtain ⟨r, hr, h⟩ := bind_ok h
      cases h
      exact ⟨rfl, rfl, rfl, rfl, fun v h => ⟨v, h, rfl, rfl, rfl, rfl⟩⟩
  · obtain ⟨o, ho, h⟩ := bind_ok h
    obtain ⟨r, hr, h⟩ := bind_ok h
    cases h
    exact ⟨rfl, rfl, rfl, rfl, fun v h => ⟨v, h, rfl, rfl, rfl, rfl⟩⟩
  · cases h; exact .refl _

private theorem handleEvent_viewer (G : Globals) (c : SimConfig) (s : Renv) (ev : UiEvent) : SameViewer s (s.handleEvent G c ev).1 := by
  have h1 : SameViewer s (if ev = .quit then s.close else s) := by
    split
    · exact ⟨rfl, rfl, rfl, rfl, fun v h => by cases h⟩
    · exact .refl _
  have h2 : ∀ t : Renv, SameViewer t (t.moveCamera ev) := by
    intro t
    refine ⟨rfl, rfl, rfl, rfl, ?_⟩
    intro v' hv'
    unfold Renv.moveCamera at hv'
    cases ht : t.viewer with
    | none => rw [ht] at hv'; cases hv'
    | some v =>
      rw [ht] at hv'
      dsimp only [Option.map_some] at hv'
      cases hv'
      exact ⟨v, rfl, rfl, rfl, rfl, rfl⟩
  unfold Renv.handleEvent
  dsimp only
  have h3 := h1.trans (h2 _)
  cases hk : Renv.keyboard G c ((if ev = .quit then s.close else s).moveCamera ev) ev with
  | error e => exact h3
  | ok s' => exact h3.trans (keyboard_viewer hk)

private theorem handleLoop_viewer (G : Globals) (c : SimConfig) (s : Renv) (evs : List UiEvent) :
    SameViewer s (s.handleLoop G c evs).1 := by
  induction evs generalizing s with
  | nil => exact .refl _
  | cons ev evs ih =>
    unfold Renv.handleLoop
    have h := handleEvent_viewer G c s ev
    generalize s.handleEvent G c ev = p at h
    obtain ⟨p1, p2⟩ := p
    cases p2 with
    | error e => exact h
    | ok x => exact h.trans (ih _)

private theorem readEvents_viewer (G : Globals) (c : SimConfig) (s : Renv) : SameViewer s (s.readEvents G c).1 := by
  rcases read_cases G c s with h1 | ⟨v, hv, ho, h1⟩
  · rw [h1]; exact .refl _
  · rw [h1]
    unfold Renv.handleEvents
    have := handleLoop_viewer G c { s with inbox := s.inbox.tail } (s.inbox.head?.getD [])
    exact ⟨this.mode, this.auto, this.shouldUpdate, this.callback, this.viewer⟩

/-- What `render` does in all circumstances. -/
private theorem render_viewer (G : Globals) (c : SimConfig) (u : UiConfig) (m : RenderMode) (s : Renv) :
    (s.render G c u m).1.mode = m ∧ (s.render G c u m).1.callback = s.callback ∧
      ((s.render G c u m).1.shouldUpdate = s.shouldUpdate ∨ m = .human) ∧
      (∀ v', (s.render G c u m).1.viewer = some v' → ∃ v, v = (if s.shouldUpdate then Renv.displayOn s.env else id)
        (s.viewer.getD (Renv.newViewer u s.centering)) ∧ v'.surface = v.surface ∧ v'.screen = v.screen ∧
        v'.offscreen = v.offscreen ∧ v'.enabled = v.enabled) ∧
      (∀ img, (s.render G c u m).2 = .ok (some img) → m = .rgb ∧ ∃ v', (s.render G c u m).1.viewer = some v' ∧
        img = if u.renderAgent && !v'.offscreen then v'.screen else v'.surface) := by
  obtain ⟨v, hv, hveq⟩ := prepare_eq u m s
  have hs := readEvents_viewer G c (s.prepare u m)
  unfold Renv.render
  generalize (s.prepare u m).readEvents G c = p at hs
  obtain ⟨p1, p2⟩ := p
  rw [hv] at hs
  have hvw : ∀ v', p1.viewer = some v' → ∃ v, v = (if s.shouldUpdate then Renv.displayOn s.env else id)
        (s.viewer.getD (Renv.newViewer u s.centering)) ∧ v'.surface = v.surface ∧ v'.screen = v.screen ∧
        v'.offscreen = v.offscreen ∧ v'.enabled = v.enabled := by
    intro v' h'
    obtain ⟨w, hw, h⟩ := hs.viewer v' h'
    cases hw
    exact ⟨v, hveq, h⟩
  cases p2 with
  | error e => exact ⟨hs.mode, hs.callback, .inl hs.shouldUpdate, hvw, by intro img h; cases h⟩
  | ok x =>
    cases m with
    | human => exact ⟨hs.mode, hs.callback, .inr rfl, hvw, by intro img h; cases h⟩
    | rgb =>
      refine ⟨hs.mode, hs.callback, .inl hs.shouldUpdate, hvw, ?_⟩
      intro img h
      refine ⟨rfl, ?_⟩
      unfold Renv.deliver Renv.getImage at h
      dsimp only at h
      cases hp : p1.viewer with
      | none => rw [hp] at h; cases h
      | some v' =>
        rw [hp] at h
        refine ⟨v', by unfold Renv.deliver; exact hp, ?_⟩
        have h2 := Except.ok.inj h
        exact (Option.some.inj h2).symm

private theorem window_looks (e : Env) : Renv.windowPosition e = lookedAt e := by
  unfold Renv.windowPosition lookedAt Env.vehicle Road.vehicle?
  cases e.controlled with
  | nil => rfl
  | cons uid us =>
    dsimp only
    cases e.road.vehicles.find? (fun v => decide (v.uid = uid)) with
    | none => rfl
    | some v => rfl

/-- Drawing makes every surface of the viewer show the scene. -/
private theorem displayOn_depicts {e : Env} {v : Viewer} (h : v.enabled = true) :
    Depicts (Renv.displayOn e v).surface e ∧ ((Renv.displayOn e v).offscreen = false → Depicts (Renv.displayOn e v).screen e) ∧
      (Renv.displayOn e v).offscreen = v.offscreen ∧ (Renv.displayOn e v).enabled = true := by
  have hne : ¬ v.enabled = false := by rw [h]; simp
  unfold Renv.displayOn
  rw [if_neg hne]
  rw [window_looks]
  refine ⟨⟨_, _, rfl, rfl, rfl⟩, ?_, rfl, h⟩
  intro ho
  dsimp only at ho ⊢
  rw [ho]
  exact ⟨_, _, rfl, rfl, rfl⟩

/-- The viewer draws: there is a video driver, for the viewer in use and for the one that may be created. -/
def Draws (u : UiConfig) (s : Renv) : Prop := u.dummyDriver = false ∧ ∀ v, s.viewer = some v → v.enabled = true

private theorem getD_enabled {u : UiConfig} {s : Renv} (h : Draws u s) :
    (s.viewer.getD (Renv.newViewer u s.centering)).enabled = true := by
  cases hv : s.viewer with
  | none => simp [Renv.newViewer, h.1]
  | some v => exact h.2 v hv

/-- **C96.** An image returned while a redraw is due shows the scene at the time of the call. -/
theorem image_current {G : Globals} {c : SimConfig} {u : UiConfig} {s : Renv} (hd : Draws u s) (hu : s.shouldUpdate = true)
    {img : Option Picture} (h : (s.render G c u .rgb).2 = .ok (some img)) : Depicts img s.env := by
  obtain ⟨-, -, -, h4, h5⟩ := render_viewer G c u .rgb s
  obtain ⟨-, v', hv', rfl⟩ := h5 img h
  obtain ⟨v, hv, a1, a2, a3, a4⟩ := h4 v' hv'
  rw [hu] at hv
  have hd2 := displayOn_depicts (e := s.env) (getD_enabled hd)
  simp only [if_true] at hv
  rw [← hv] at hd2
  cases ho : v'.offscreen with
  | true => simp only [Bool.not_true, Bool.and_false, Bool.false_eq_true, if_false, a1]; exact hd2.1
  | false =>
    simp only [Bool.not_false, Bool.and_true]
    split
    · rw [a2]; exact hd2.2.1 (by rw [← a3]; exact ho)
    · rw [a1]; exact hd2.1

/-- **C96, without video.**  With the dummy video driver nothing is ever drawn: rendering, in either mode, leaves the surfaces of the viewer as they were, and the surfaces of a new
viewer are blank, so a first image is blank. -/
theorem dummy_blank (G : Globals) (c : SimConfig) (u : UiConfig) (m : RenderMode) (s : Renv) (hdummy : u.dummyDriver = true)
    (hv : ∀ v, s.viewer = some v → v.enabled = false) (v' : Viewer) (h' : (s.render G c u m).1.viewer = some v') :
    v'.enabled = false ∧ (∀ v, s.viewer = some v → v'.surface = v.surface ∧ v'.screen = v.screen) ∧
      (s.viewer = none → v'.surface = none ∧ v'.screen = none) ∧
      (s.viewer = none → ∀ img, (s.render G c u .rgb).2 = .ok (some img) → img = none) := by
  have hoff : (s.viewer.getD (Renv.newViewer u s.centering)).enabled = false := by
    cases hs : s.viewer with
    | none => simp [Renv.newViewer, hdummy]
    | some v => exact hv v hs
  have hdisp : Renv.displayOn s.env (s.viewer.getD (Renv.newViewer u s.centering)) = s.viewer.getD (Renv.newViewer u s.centering) := by
    unfold Renv.displayOn
    rw [if_pos hoff]
  have hsame : (if s.shouldUpdate then Renv.displayOn s.env else id) (s.viewer.getD (Renv.newViewer u s.centering)) = s.viewer.getD (Renv.newViewer u s.centering) := by
    cases s.shouldUpdate
    · rfl
    · exact hdisp
  obtain ⟨-, -, -, h4, -⟩ := render_viewer G c u m s
  obtain ⟨v, hveq, a1, a2, a3, a4⟩ := h4 v' h'
  rw [hsame] at hveq
  refine ⟨by rw [a4, hveq]; exact hoff, ?_, ?_, ?_⟩
  · intro w hw
    rw [hw] at hveq
    have : v = w := hveq
    rw [a1, a2, this]
    exact ⟨rfl, rfl⟩
  · intro hn
    rw [hn] at hveq
    have : v = Renv.newViewer u s.centering := hveq
    rw [a1, a2, this]
    exact ⟨rfl, rfl⟩
  · intro hn img himg
    obtain ⟨-, -, -, h4, h5⟩ := render_viewer G c u .rgb s
    obtain ⟨-, w', hw', rfl⟩ := h5 img himg
    obtain ⟨w, hweq, b1, b2, b3, b4⟩ := h4 w' hw'
    rw [hsame, hn] at hweq
    have : w = Renv.newViewer u s.centering := hweq
    rw [b1, b2, this]
    split <;> rfl

/-- The window mode was never used. -/
private structure NoWindow (u : UiConfig) (s : Renv) : Prop where
  draws : Draws u s
  due : s.shouldUpdate = true
  mode : s.viewer.isSome → s.mode = .rgb
  callback : s.callback ≠ some .human

private theorem render_enabled {G : Globals} {c : SimConfig} {u : UiConfig} {m : RenderMode} {s : Renv} (h : Draws u s) :
    Draws u (s.render G c u m).1 := by
  refine ⟨h.1, ?_⟩
  intro v' hv'
  obtain ⟨-, -, -, h4, -⟩ := render_viewer G c u m s
  obtain ⟨v, hv, -, -, -, a4⟩ := h4 v' hv'
  rw [a4, hv]
  cases s.shouldUpdate
  · exact getD_enabled h
  · exact (displayOn_depicts (getD_enabled h)).2.2.2

private theorem render_noWindow {G : Globals} {c : SimConfig} {u : UiConfig} {s : Renv} (h : NoWindow u s) :
    NoWindow u (s.render G c u .rgb).1 := by
  obtain ⟨h1, h2, h3, -, -⟩ := render_viewer G c u .rgb s
  refine ⟨render_enabled h.draws, ?_, fun _ => h1, by rw [h2]; exact h.callback⟩
  rcases h3 with h3 | h3
  · rw [h3]; exact h.due
  · cases h3

private theorem auto_noWindow {G : Globals} {c : SimConfig} {u : UiConfig} {s : Renv} (h : NoWindow u s) :
    NoWindow u (s.autoRender G c u).1 := by
  unfold Renv.autoRender
  split
  · rename_i hc
    simp only [Bool.and_eq_true] at hc
    have hm : s.callback.getD s.mode = .rgb := by
      cases hcb : s.callback with
      | none => exact h.mode hc.1
      | some m =>
        cases m with
        | rgb => rfl
        | human => exact absurd hcb h.callback
    rw [hm]
    have := render_noWindow (G := G) (c := c) (s := { s with shouldUpdate := true }) (u := u) ⟨h.draws, rfl, h.mode, h.callback⟩
    generalize Renv.render G c u .rgb { s with shouldUpdate := true } = p at this
    obtain ⟨p1, p2⟩ := p
    cases p2 <;> exact this
  · exact h

private theorem loop_noWindow {G : Globals} {c : SimConfig} {u : UiConfig} {cls : EnvClass} {k : Int} {a : Option AgentAction} (n : ℕ)
    {s : Renv} (h : NoWindow u s) : NoWindow u (s.simulateLoop G c u cls k a n).1 := by
  induction n generalizing s with
  | zero => exact h
  | succ n ih =>
    unfold Renv.simulateLoop
    cases s.env.frame G c k a with
    | error e => exact h
    | ok e1 =>
      dsimp only
      have h1 := auto_noWindow (G := G) (c := c) (u := u) (s := { s with env := e1, lastAction := s.forwardLast c k a })
        ⟨h.draws, h.due, h.mode, h.callback⟩
      generalize Renv.autoRender G c u { s with env := e1, lastAction := s.forwardLast c k a } = p at h1
      obtain ⟨p1, p2⟩ := p
      cases p2 with
      | error e => exact h1
      | ok x =>
        dsimp only
        cases p1.env.stops cls with
        | error e => exact h1
        | ok b => cases b with
          | true => exact h1
          | false => exact ih h1

private theorem observe_noWindow {G : Globals} {c : SimConfig} {u : UiConfig} {s : Renv} (h : NoWindow u s) :
    NoWindow u (s.observe G c u).1 := by
  unfold Renv.observe
  split
  · exact render_noWindow h
  · exact h

private theorem step_noWindow {G : Globals} {c : SimConfig} {u : UiConfig} {cls : EnvClass} {a : Option AgentAction} {s : Renv}
    (h : NoWindow u s) : NoWindow u (s.step G c u cls a).1 := by
  unfold Renv.step
  split
  · exact h
  · have h1 : NoWindow u (Renv.simulate G c u cls a { s with env := { s.env with steps := s.env.steps + 1 } }).1 := by
      unfold Renv.simulate
      cases Env.framesPerStep c with
      | error e => exact ⟨h.draws, h.due, h.mode, h.callback⟩
      | ok k =>
        dsimp only
        have h2 := loop_noWindow (G := G) (c := c) (u := u) (cls := cls) (k := k) (a := a) k.toNat
          (s := { s with env := { s.env with steps := s.env.steps + 1 } }) ⟨h.draws, h.due, h.mode, h.callback⟩
        generalize Renv.simulateLoop G c u cls k a k.toNat { s with env := { s.env with steps := s.env.steps + 1 } } = p at h2
        obtain ⟨p1, p2⟩ := p
        cases p2 with
        | error e => exact h2
        | ok x => exact ⟨h2.draws, h2.due, h2.mode, h2.callback⟩
    generalize Renv.simulate G c u cls a { s with env := { s.env with steps := s.env.steps + 1 } } = p at h1
    obtain ⟨p1, p2⟩ := p
    cases p2 with
    | error e => exact h1
    | ok x =>
      dsimp only
      have h2 := observe_noWindow (G := G) (c := c) h1
      generalize p1.observe G c u = q at h2
      obtain ⟨q1, q2⟩ := q
      cases q2 with
      | error e => exact h2
      | ok o =>
        dsimp only
        unfold Renv.conclude
        split
        · exact h2
        · exact ⟨h2.draws, h2.due, h2.mode, h2.callback⟩

private theorem session_noWindow {G : Globals} {c : SimConfig} {u : UiConfig} {cls : EnvClass} {ops : List Op} (ho : OnlyImages ops)
    {s : Renv} (h : NoWindow u s) : NoWindow u (session G c u cls ops s) := by
  induction ops generalizing s with
  | nil => exact h
  | cons op ops ih =>
    refine ih (fun o hin => ho o (List.mem_cons_of_mem _ hin)) ?_
    cases op with
    | render m =>
      cases m with
      | human => exact absurd rfl (ho _ List.mem_cons_self)
      | rgb => exact render_noWindow h
    | step a => exact step_noWindow h
    | reset scene => exact observe_noWindow ⟨h.draws, h.due, h.mode, h.callback⟩
    | close => exact ⟨⟨h.draws.1, by intro v hv; cases hv⟩, h.due, (by intro hv; cases hv), h.callback⟩

/-- **C96.** As long as the window mode is never used — neither by the caller nor by the rendering callback — every image returned by
`render('rgb_array')` shows the scene at the time of the call, after any sequence of renderings, steps, resets and closings, whatever happens
at the keyboard and whatever exceptions were raised on the way. -/
theorem images_always_current (G : Globals) (c : SimConfig) (u : UiConfig) (cls : EnvClass) (scene : Env) (inbox : List (List UiEvent))
    (cb : Option RenderMode) (hcb : cb ≠ some .human) (hdrv : u.dummyDriver = false) (ops : List Op) (ho : OnlyImages ops)
    {img : Option Picture}
    (h : ((session G c u cls ops { (Renv.create G c u scene inbox).1 with callback := cb }).render G c u .rgb).2 = .ok (some img)) :
    Depicts img (session G c u cls ops { (Renv.create G c u scene inbox).1 with callback := cb }).env := by
  have h0 : NoWindow u (Renv.create G c u scene inbox).1 := by
    unfold Renv.create Renv.reset
    exact observe_noWindow ⟨⟨hdrv, by intro v hv; cases hv⟩, rfl, (by intro hv; cases hv), by simp⟩
  have h1 := session_noWindow (G := G) (c := c) (cls := cls) ho
    (s := { (Renv.create G c u scene inbox).1 with callback := cb }) (u := u) ⟨h0.draws, h0.due, h0.mode, hcb⟩
  exact image_current h1.draws h1.due h

/-- All the surfaces of the viewer show the current scene. -/
private def Fresh (s : Renv) (e : Env) : Prop :=
  ∃ v, s.viewer = some v ∧ v.enabled = true ∧ Depicts v.surface e ∧ (v.offscreen = false → Depicts v.screen e)

private theorem Fresh.shown {s : Renv} {e : Env} (h : Fresh s e) : Depicts (shown s) e := by
  obtain ⟨v, hv, -, h1, h2⟩ := h
  unfold Spec.shown
  rw [hv]
  dsimp only
  cases ho : v.offscreen with
  | true => exact h1
  | false => exact h2 ho

private theorem Fresh.draws {u : UiConfig} {s : Renv} {e : Env} (hd : u.dummyDriver = false) (h : Fresh s e) : Draws u s := by
  obtain ⟨v, hv, h1, -⟩ := h
  exact ⟨hd, fun w hw => by rw [hv] at hw; cases hw; exact h1⟩

private theorem render_due_fresh {G : Globals} {c : SimConfig} {u : UiConfig} (m : RenderMode) {s : Renv} (hc : Calm u s)
    (hd : Draws u s) (hu : s.shouldUpdate = true) : Fresh (s.render G c u m).1 s.env := by
  obtain ⟨i, v, b, hr, hv, -, -⟩ := render_calm (G := G) (c := c) m hc
  rw [hr]
  rw [hu] at hv
  simp only [if_true] at hv
  have := displayOn_depicts (e := s.env) (getD_enabled hd)
  rw [← hv] at this
  exact ⟨v, rfl, this.2.2.2, this.1, this.2.1⟩

private theorem render_keeps_fresh {G : Globals} {c : SimConfig} {u : UiConfig} (m : RenderMode) {s : Renv} (hc : Calm u s)
    (hdrv : u.dummyDriver = false) (hf : Fresh s s.env) : Fresh (s.render G c u m).1 s.env := by
  cases hu : s.shouldUpdate with
  | true => exact render_due_fresh m hc (hf.draws hdrv) hu
  | false =>
    obtain ⟨i, v, b, hr, hv, -, -⟩ := render_calm (G := G) (c := c) m hc
    rw [hr]
    obtain ⟨w, hw, h1⟩ := hf
    rw [hu, hw] at hv
    simp only [Bool.false_eq_true, if_false, id, Option.getD_some] at hv
    subst hv
    exact ⟨v, rfl, h1⟩

/-- The image returned when all the surfaces show the scene. -/
private theorem fresh_image {G : Globals} {c : SimConfig} {u : UiConfig} {s : Renv} (hc : Calm u s)
    (hdrv : u.dummyDriver = false) (hf : Fresh s s.env) :
    ∃ img, (s.render G c u .rgb).2 = .ok (some img) ∧ Depicts img s.env := by
  have h := render_keeps_fresh (G := G) (c := c) .rgb hc hdrv hf
  obtain ⟨i, v, b, hr, -, -, -⟩ := render_calm (G := G) (c := c) .rgb hc
  rw [hr] at h ⊢
  refine ⟨_, rfl, ?_⟩
  obtain ⟨w, hw, h0, h1, h2⟩ := h
  cases hw
  split
  · rename_i hb
    simp only [Bool.and_eq_true, Bool.not_eq_true'] at hb
    exact h2 hb.2
  · exact h1

private theorem auto_fresh {G : Globals} {c : SimConfig} {u : UiConfig} {s : Renv} (hc : Calm u s) (hd : Draws u s)
    (hv : s.viewer.isSome) (ha : s.auto = true) :
    ∃ s', s.autoRender G c u = (s', .ok ()) ∧ s'.env = s.env ∧ Calm u s' ∧ Fresh s' s.env ∧ s'.auto = true ∧
      s'.viewer.isSome ∧ s'.callback = s.callback ∧ (s.callback = none → s'.mode = s.mode) ∧
      (s.callback.getD s.mode = .human → s'.shouldUpdate = false) := by
  unfold Renv.autoRender
  rw [if_pos (by rw [hv, ha]; rfl)]
  have hf := render_due_fresh (G := G) (c := c) (s.callback.getD s.mode) (s := { s with shouldUpdate := true }) hc hd rfl
  obtain ⟨i, v, b, hr, -, hb, hc'⟩ := render_calm (G := G) (c := c) (s.callback.getD s.mode) (s := { s with shouldUpdate := true }) hc
  rw [hr] at hf ⊢
  refine ⟨_, rfl, rfl, hc', hf, rfl, rfl, rfl, fun h => by rw [h]; rfl, ?_⟩
  intro hm
  dsimp only
  rw [hb, hm, if_neg (by simp)]

private theorem frame_counts {G : Globals} {c : SimConfig} {k : Int} {a : Option AgentAction} {e e' : Env} (h : e.frame G c k a = .ok e') :
    e'.time = e.time + 1 ∧ e'.done = e.done := by
  unfold Env.frame at h
  obtain ⟨e1, h1, h⟩ := bind_ok h
  obtain ⟨r, h2, h⟩ := bind_ok h
  obtain ⟨r', h3, h⟩ := bind_ok h
  cases h
  unfold Env.forward at h1
  cases a with
  | none => cases h1; exact ⟨rfl, rfl⟩
  | some x =>
    dsimp only at h1
    split at h1
    · obtain ⟨r2, h4, h1⟩ := bind_ok h1
      cases h1; exact ⟨rfl, rfl⟩
    · cases h1; exact ⟨rfl, rfl⟩

/-- With automatic rendering on, every frame of a step is drawn, the last one included. -/
private theorem loop_fresh {G : Globals} {c : SimConfig} {u : UiConfig} {cls : EnvClass} {k : Int} {a : Option AgentAction} (n : ℕ)
    {s s' : Renv} (hc : Calm u s) (hd : Draws u s) (hv : s.viewer.isSome) (ha : s.auto = true)
    (hn : 0 < n) (h : s.simulateLoop G c u cls k a n = (s', .ok ())) : Fresh s' s'.env ∧ Calm u s' ∧ s.env.time < s'.env.time ∧
      (s.callback.getD s.mode = .human → s'.shouldUpdate = false) := by
  induction n generalizing s with
  | zero => omega
  | succ n ih =>
    unfold Renv.simulateLoop at h
    cases hf : s.env.frame G c k a with
    | error e => rw [hf] at h; cases h
    | ok e1 =>
      rw [hf] at h
      dsimp only at h
      have ht := (frame_counts hf).1
      obtain ⟨t, h1, h2, h3, h4, h5, h6, h7, h8, h9⟩ := auto_fresh (G := G) (c := c) (u := u)
        (s := { s with env := e1, lastAction := s.forwardLast c k a }) hc hd hv ha
      rw [h1] at h
      dsimp only at h
      dsimp only at h2 h4 h7 h8 h9
      have htime : s.env.time < t.env.time := by rw [h2]; omega
      have hff : Fresh t t.env := by rw [h2]; exact h4
      have hmode : s.callback.getD s.mode = .human → t.callback.getD t.mode = .human := by
        intro hh
        cases hcb : s.callback with
        | none => rw [h7, h8 hcb]; rw [hcb]; rw [hcb] at hh; exact hh
        | some m => rw [h7, hcb]; rw [hcb] at hh; exact hh
      cases hs : t.env.stops cls with
      | error e => rw [hs] at h; cases h
      | ok b =>
        rw [hs] at h
        dsimp only at h
        cases b with
        | true => cases h; exact ⟨hff, h3, htime, h9⟩
        | false =>
          simp only [Bool.false_eq_true, if_false] at h
          cases n with
          | zero => unfold Renv.simulateLoop at h; cases h; exact ⟨hff, h3, htime, h9⟩
          | succ n =>
            obtain ⟨a1, a2, a3, a4⟩ := ih h3 (h4.draws hd.1) h6 h5 (by omega) h
            exact ⟨a1, a2, htime.trans a3, fun hh => a4 (hmode hh)⟩

/-- Without automatic rendering a step does not touch the viewer. -/
private theorem loop_idle {G : Globals} {c : SimConfig} {u : UiConfig} {cls : EnvClass} {k : Int} {a : Option AgentAction} (n : ℕ)
    {s s' : Renv} (ha : s.auto = false) (h : s.simulateLoop G c u cls k a n = (s', .ok ())) :
    s'.viewer = s.viewer ∧ s'.shouldUpdate = s.shouldUpdate ∧ s'.auto = false ∧ s'.inbox = s.inbox ∧ (0 < n → s.env.time < s'.env.time) := by
  induction n generalizing s with
  | zero => cases h; exact ⟨rfl, rfl, ha, rfl, by simp⟩
  | succ n ih =>
    unfold Renv.simulateLoop at h
    cases hf : s.env.frame G c k a with
    | error e => rw [hf] at h; cases h
    | ok e1 =>
      rw [hf] at h
      dsimp only at h
      have ht := (frame_counts hf).1
      have h0 : Renv.autoRender G c u { s with env := e1, lastAction := s.forwardLast c k a } =
          ({ s with env := e1, lastAction := s.forwardLast c k a }, .ok ()) := by
        unfold Renv.autoRender
        dsimp only
        rw [ha]
        simp
      rw [h0] at h
      dsimp only at h
      cases hs : e1.stops cls with
      | error e => rw [hs] at h; cases h
      | ok b =>
        rw [hs] at h
        dsimp only at h
        cases b with
        | true => cases h; exact ⟨rfl, rfl, ha, rfl, fun _ => by dsimp only; omega⟩
        | false =>
          simp only [Bool.false_eq_true, if_false] at h
          obtain ⟨a1, a2, a3, a4, a5⟩ := ih (s := { s with env := e1, lastAction := s.forwardLast c k a }) ha h
          refine ⟨a1, a2, a3, a4, fun _ => ?_⟩
          cases n with
          | zero => unfold Renv.simulateLoop at h; cases h; dsimp only; omega
          | succ n => have := a5 (by omega); dsimp only at this; omega

private theorem frames_eq {c : SimConfig} (hp : 0 < c.policyFrequency) (hq : c.policyFrequency ≤ c.simulationFrequency) :
    Env.framesPerStep c = .ok (period c : Int) ∧ 0 < period c :=
  framesPerStep_eq (c := { c with manualControl := false }) ⟨hp, hq, rfl⟩

/-- The parts of a successful `step`. -/
private theorem step_ok_parts {G : Globals} {c : SimConfig} {u : UiConfig} {cls : EnvClass} {a : Option AgentAction} {s s' : Renv}
    {r : Renv.Answer} (hp : 0 < c.policyFrequency) (hq : c.policyFrequency ≤ c.simulationFrequency) (h : s.step G c u cls a = (s', .ok r)) :
    ∃ s1 s2, Renv.simulateLoop G c u cls (period c : Int) a (period c) { s with env := { s.env with steps := s.env.steps + 1 } } =
        (s1, .ok ()) ∧ Renv.observe G c u { s1 with auto := false } = (s2, .ok r.image) ∧
      ∃ e', cls.after s2.env = .ok e' ∧ s' = { s2 with env := e' } := by
  unfold Renv.step at h
  split at h
  · cases h
  · unfold Renv.simulate at h
    rw [(frames_eq hp hq).1] at h
    dsimp only at h
    rw [show ((period c : Int)).toNat = period c from Int.toNat_natCast _] at h
    generalize Renv.simulateLoop G c u cls (period c : Int) a (period c) { s with env := { s.env with steps := s.env.steps + 1 } } = p at h ⊢
    obtain ⟨p1, p2⟩ := p
    cases p2 with
    | error e => cases h
    | ok x =>
      dsimp only at h
      generalize hob : Renv.observe G c u { p1 with auto := false } = q at h
      obtain ⟨q1, q2⟩ := q
      cases q2 with
      | error e => cases h
      | ok o =>
        dsimp only at h
        unfold Renv.conclude at h
        split at h
        · cases h
        · rename_i e' res hres
          have h1 := (Prod.mk.inj h).1
          have h2 := Except.ok.inj (Prod.mk.inj h).2
          subst h2
          obtain ⟨x1, -, hres⟩ := bind_ok hres
          obtain ⟨x2, -, hres⟩ := bind_ok hres
          obtain ⟨x3, -, hres⟩ := bind_ok hres
          obtain ⟨x4, -, hres⟩ := bind_ok hres
          obtain ⟨x5, hx5, hres⟩ := bind_ok hres
          cases hres
          exact ⟨p1, q1, rfl, hob, e', hx5, h1.symm⟩

/-- What a step rendered on the fly leaves behind. -/
private theorem step_fresh {G : Globals} {c : SimConfig} {u : UiConfig} {cls : EnvClass} {a : Option AgentAction} {s s' : Renv}
    {r : Renv.Answer} (hp : 0 < c.policyFrequency) (hq : c.policyFrequency ≤ c.simulationFrequency) (hcls : ∀ e, cls.after e = .ok e)
    (hc : Calm u s) (hd : Draws u s) (hv : s.viewer.isSome) (ha : s.auto = true) (h : s.step G c u cls a = (s', .ok r)) :
    Fresh s' s'.env ∧ Calm u s' ∧ s.env.time < s'.env.time ∧
      (s.callback.getD s.mode = .human → s'.shouldUpdate = false) ∧ (u.imageObs = false → s'.auto = false) ∧
      (∀ img, r.image = some img → Depicts img s'.env) := by
  obtain ⟨s1, s2, h1, h2, e', h3, rfl⟩ := step_ok_parts hp hq h
  rw [hcls] at h3
  cases h3
  obtain ⟨f1, f2, f3, f4⟩ := loop_fresh (period c) (s := { s with env := { s.env with steps := s.env.steps + 1 } }) hc hd hv ha
    (frames_eq hp hq).2 h1
  have f1' : Fresh { s1 with auto := false } s1.env := f1
  have f2' : Calm u { s1 with auto := false } := f2
  unfold Renv.observe at h2
  cases hi : u.imageObs with
  | true =>
    rw [hi, if_pos rfl] at h2
    have g1 := render_keeps_fresh (G := G) (c := c) .rgb f2' hd.1 f1'
    obtain ⟨i, v, b, hr, -, hb, hc'⟩ := render_calm (G := G) (c := c) .rgb f2'
    obtain ⟨img, him, hdep⟩ := fresh_image (G := G) (c := c) f2' hd.1 f1'
    rw [h2] at g1 him hr
    have he : s2.env = s1.env := by rw [(Prod.mk.inj hr).1]
    have hsu : s2.shouldUpdate = b := by rw [(Prod.mk.inj hr).1]
    have hcalm : Calm u s2 := by rw [(Prod.mk.inj hr).1]; exact hc'
    refine ⟨?_, hcalm, ?_, ?_, by simp, ?_⟩
    · dsimp only; rw [he]; exact g1
    · dsimp only; rw [he]; exact f3
    · intro hm
      dsimp only
      rw [hsu, hb, if_pos rfl]
      exact f4 hm
    · intro img' himg'
      dsimp only at him
      have := Except.ok.inj him
      rw [himg'] at this
      cases this
      dsimp only
      rw [he]
      exact hdep
  | false =>
    rw [hi] at h2
    simp only [Bool.false_eq_true, if_false] at h2
    have he := (Prod.mk.inj h2).1
    have ho := Except.ok.inj (Prod.mk.inj h2).2
    subst he
    refine ⟨f1', f2', f3, f4, fun _ => rfl, ?_⟩
    intro img him
    rw [← ho] at him
    cases him

/-- **C96.** A step that follows a rendering is drawn frame by frame: when it returns, the window (or, off screen, the surface) shows the
scene it returned in, and so does an image observation. -/
theorem rendered_step_current (G : Globals) (c : SimConfig) (u : UiConfig) (cls : EnvClass) (a : Option AgentAction) (m : RenderMode)
    (s s1 s2 : Renv) (out : Option (Option Picture)) (r : Renv.Answer) (hp : 0 < c.policyFrequency) (hq : c.policyFrequency ≤ c.simulationFrequency)
    (hcls : ∀ e, cls.after e = .ok e) (hc : Calm u s) (hd : Draws u s) (h1 : s.render G c u m = (s1, .ok out))
    (h2 : s1.step G c u cls a = (s2, .ok r)) :
    Depicts (shown s2) s2.env ∧ (∀ img, r.image = some img → Depicts img s2.env) ∧
      ∃ img, (s2.render G c u .rgb).2 = .ok (some img) ∧ Depicts img s2.env := by
  obtain ⟨i, v, b, hr, -, -, hc'⟩ := render_calm (G := G) (c := c) m hc
  have hd' : Draws u s1 := by have := render_enabled (G := G) (c := c) (m := m) hd; rw [h1] at this; exact this
  rw [h1] at hr
  have he := (Prod.mk.inj hr).1
  obtain ⟨f1, f2, -, -, -, f6⟩ := step_fresh hp hq hcls (by rw [he]; exact hc') hd' (by rw [he]; rfl) (by rw [he]) h2
  exact ⟨f1.shown, f6, fresh_image f2 hd.1 f1⟩

/-- **C96.** In the usual loop — render, then step and render, again and again, in either mode — the window always shows the current scene
when `render` returns. -/
theorem usual_loop_current (G : Globals) (c : SimConfig) (u : UiConfig) (cls : EnvClass) (m : RenderMode) (as : List (Option AgentAction))
    (s s' : Renv) (rs : List StepResult) (hp : 0 < c.policyFrequency) (hq : c.policyFrequency ≤ c.simulationFrequency)
    (hcls : ∀ e, cls.after e = .ok e) (hc : Calm u s) (hd : Draws u s) (hu : s.shouldUpdate = true)
    (h : driven G c u cls (.render m :: stepAndRender m as) s = .ok (s', rs)) : Depicts (shown s') s'.env := by
  unfold driven at h
  have hff := render_due_fresh (G := G) (c := c) m hc hd hu
  obtain ⟨i, v, b, hr, -, -, hc'⟩ := render_calm (G := G) (c := c) m hc
  rw [hr] at h hff
  dsimp only at h hff
  suffices H : ∀ (as : List (Option AgentAction)) (t : Renv) (rs : List StepResult), Fresh t t.env → Calm u t → t.auto = true →
      driven G c u cls (stepAndRender m as) t = .ok (s', rs) → Depicts (shown s') s'.env from H as _ rs hff hc' rfl h
  intro as
  induction as with
  | nil =>
    intro t rs hf _ _ hdr
    unfold stepAndRender driven at hdr
    simp only [List.flatMap_nil] at hdr
    cases hdr
    exact hf.shown
  | cons a as ih =>
    intro t rs hf hct hat hdr
    unfold stepAndRender at hdr
    rw [List.flatMap_cons] at hdr
    change driven G c u cls (.step a :: .render m :: stepAndRender m as) t = _ at hdr
    unfold driven at hdr
    generalize hst : t.step G c u cls a = p at hdr
    obtain ⟨p1, p2⟩ := p
    cases p2 with
    | error e => cases hdr
    | ok r =>
      dsimp only at hdr
      obtain ⟨f1, f2, -, -, -, -⟩ := step_fresh hp hq hcls hct (hf.draws hd.1) (by obtain ⟨v, hv, -⟩ := hf; rw [hv]; rfl) hat hst
      have g1 := render_keeps_fresh (G := G) (c := c) m f2 hd.1 f1
      obtain ⟨i, v, b, hr, -, -, hc''⟩ := render_calm (G := G) (c := c) m f2
      unfold driven at hdr
      rw [hr] at hdr g1
      dsimp only at hdr g1
      generalize hd2 : driven G c u cls (stepAndRender m as) { p1 with mode := m, auto := true, viewer := some v, inbox := i, shouldUpdate := b } = q at hdr
      cases q with
      | error e => cases hdr
      | ok q =>
        have := congrArg Prod.fst (Except.ok.inj hdr)
        dsimp only at this
        refine ih _ q.2 g1 hc'' rfl ?_
        rw [hd2, ← this]

/-- A step taken while neither a redraw nor automatic rendering is pending. -/
private theorem step_idle {G : Globals} {c : SimConfig} {u : UiConfig} {cls : EnvClass} {a : Option AgentAction} {s s' : Renv}
    {r : Renv.Answer} (hp : 0 < c.policyFrequency) (hq : c.policyFrequency ≤ c.simulationFrequency) (hcls : ∀ e, cls.after e = .ok e)
    (hi : u.imageObs = false) (hc : Calm u s) (ha : s.auto = false) (h : s.step G c u cls a = (s', .ok r)) :
    s'.viewer = s.viewer ∧ s'.shouldUpdate = s.shouldUpdate ∧ s'.auto = false ∧ Calm u s' ∧ s.env.time < s'.env.time := by
  obtain ⟨s1, s2, h1, h2, e', h3, rfl⟩ := step_ok_parts hp hq h
  rw [hcls] at h3
  cases h3
  obtain ⟨f1, f2, f3, f4, f5⟩ := loop_idle (period c) (s := { s with env := { s.env with steps := s.env.steps + 1 } }) ha h1
  unfold Renv.observe at h2
  rw [hi] at h2
  simp only [Bool.false_eq_true, if_false] at h2
  have he := (Prod.mk.inj h2).1
  subst he
  refine ⟨f1, f2, rfl, ?_, f5 (frames_eq hp hq).2⟩
  rcases hc with hc | hc
  · refine .inl ?_
    intro evs hin
    dsimp only at hin
    rw [f4] at hin
    exact hc evs hin
  · refine .inr ⟨hc.1, ?_⟩
    intro v hv
    dsimp only at hv
    rw [f1] at hv
    exact hc.2 v hv

/-- **C96, the limit.** In window mode only the first step after a rendering is drawn: after `render(); step(a); step(b)`, the next
`render`, in either mode, shows — and returns as its image — the scene as it was after the *first* step, which is not the current one. -/
theorem two_steps_stale (G : Globals) (c : SimConfig) (u : UiConfig) (cls : EnvClass) (a b : Option AgentAction) (s s1 s2 s3 : Renv)
    (out : Option (Option Picture)) (r1 r2 : Renv.Answer) (hp : 0 < c.policyFrequency) (hq : c.policyFrequency ≤ c.simulationFrequency)
    (hcls : ∀ e, cls.after e = .ok e) (hi : u.imageObs = false) (hcb : s.callback = none) (hc : Calm u s) (hd : Draws u s)
    (h1 : s.render G c u .human = (s1, .ok out)) (h2 : s1.step G c u cls a = (s2, .ok r1)) (h3 : s2.step G c u cls b = (s3, .ok r2)) :
    (∀ m, Depicts (shown (s3.render G c u m).1) s2.env) ∧
      (∃ img, (s3.render G c u .rgb).2 = .ok (some img) ∧ Depicts img s2.env) ∧ s2.env.time < s3.env.time := by
  obtain ⟨i, v, b', hr, -, -, hc'⟩ := render_calm (G := G) (c := c) .human hc
  have hd' : Draws u s1 := by have := render_enabled (G := G) (c := c) (m := .human) hd; rw [h1] at this; exact this
  rw [h1] at hr
  have he := (Prod.mk.inj hr).1
  obtain ⟨f1, f2, -, f4, f5, -⟩ := step_fresh hp hq hcls (by rw [he]; exact hc') hd' (by rw [he]; rfl) (by rw [he]) h2
  have hu := f4 (by rw [he]; dsimp only; rw [hcb]; rfl)
  obtain ⟨g1, g2, -, g4, g5⟩ := step_idle hp hq hcls hi f2 (f5 hi) h3
  obtain ⟨w, hw, w1, w2, w3⟩ := f1
  have key : ∀ m, ∃ i b, s3.render G c u m = ({ s3 with mode := m, auto := true, viewer := some w, inbox := i, shouldUpdate := b },
        .ok (if m = .rgb then some (if u.renderAgent && !w.offscreen then w.screen else w.surface) else none)) := by
    intro m
    obtain ⟨i, v, b, hr, hv, -, -⟩ := render_calm (G := G) (c := c) m g4
    rw [g2, hu, g1, hw] at hv
    simp only [Bool.false_eq_true, if_false, id, Option.getD_some] at hv
    subst hv
    exact ⟨i, b, hr⟩
  refine ⟨?_, ?_, g5⟩
  · intro m
    obtain ⟨i, b, hr⟩ := key m
    rw [hr]
    have : Fresh { s3 with mode := m, auto := true, viewer := some w, inbox := i, shouldUpdate := b } s2.env := ⟨w, rfl, w1, w2, w3⟩
    exact this.shown
  · obtain ⟨i, b, hr⟩ := key .rgb
    rw [hr]
    refine ⟨_, rfl, ?_⟩
    split
    · rename_i hb
      simp only [Bool.and_eq_true, Bool.not_eq_true'] at hb
      exact w3 hb.2
    · exact w2

/-- **C96, the limit.** `reset` does not ask for a redraw: after a rendering in window mode and a reset, the next `render` still shows the
scene of the previous episode, and returns it as its image; an image observation returned by that `reset` is also the old scene. -/
theorem reset_stale (G : Globals) (c : SimConfig) (u : UiConfig) (scene : Env) (s s1 s2 : Renv) (out obs : Option (Option Picture))
    (hc : Calm u s) (hd : Draws u s) (hu : s.shouldUpdate = true) (h1 : s.render G c u .human = (s1, .ok out))
    (h2 : s1.reset G c u scene = (s2, .ok obs)) :
    (∀ m, Depicts (shown (s2.render G c u m).1) s.env) ∧ (∃ img, (s2.render G c u .rgb).2 = .ok (some img) ∧ Depicts img s.env) ∧
      (∀ img, obs = some img → Depicts img s.env) ∧ s2.env = { scene with time := 0, steps := 0, done := false } := by
  have hf := render_due_fresh (G := G) (c := c) .human hc hd hu
  obtain ⟨i, v, b', hr, -, hb, hc'⟩ := render_calm (G := G) (c := c) .human hc
  rw [h1] at hr hf
  have he := (Prod.mk.inj hr).1
  have hsu : s1.shouldUpdate = false := by rw [he]; dsimp only; rw [hb, if_neg (by simp)]
  have hc1 : Calm u s1 := by rw [he]; exact hc'
  obtain ⟨w, hw, w1, w2, w3⟩ := hf
  dsimp only at hw
  have key : ∀ (t : Renv) (m : RenderMode), Calm u t → t.viewer = some w → t.shouldUpdate = false → ∃ i b,
      t.render G c u m = ({ t with mode := m, auto := true, viewer := some w, inbox := i, shouldUpdate := b },
        .ok (if m = .rgb then some (if u.renderAgent && !w.offscreen then w.screen else w.surface) else none)) ∧
      (m = .rgb → b = false) ∧ Calm u { t with mode := m, auto := true, viewer := some w, inbox := i, shouldUpdate := b } := by
    intro t m ht htv htu
    obtain ⟨i, v, b, hr, hv, hb, hcc⟩ := render_calm (G := G) (c := c) m ht
    rw [htu, htv] at hv
    simp only [Bool.false_eq_true, if_false, id, Option.getD_some] at hv
    subst hv
    exact ⟨i, b, hr, fun hm => by rw [hb, if_pos hm, htu], hcc⟩
  have himg : Depicts (if u.renderAgent && !w.offscreen then w.screen else w.surface) s.env := by
    split
    · rename_i hb
      simp only [Bool.and_eq_true, Bool.not_eq_true'] at hb
      exact w3 hb.2
    · exact w2
  have main : Calm u s2 ∧ s2.viewer = some w ∧ s2.shouldUpdate = false ∧ (∀ img, obs = some img → Depicts img s.env) ∧
      s2.env = { scene with time := 0, steps := 0, done := false } := by
    unfold Renv.reset Renv.observe at h2
    cases hio : u.imageObs with
    | true =>
      rw [hio, if_pos rfl] at h2
      obtain ⟨i, b, k1, k2, k3⟩ := key { s1 with env := { scene with time := 0, steps := 0, done := false }, lastAction := Renv.initialAction c }
        .rgb hc1 hw hsu
      rw [h2] at k1
      have e1 := (Prod.mk.inj k1).1
      have e2 := Except.ok.inj (Prod.mk.inj k1).2
      refine ⟨by rw [e1]; exact k3, by rw [e1], by rw [e1]; exact k2 rfl, ?_, by rw [e1]⟩
      intro img him
      rw [him, if_pos rfl] at e2
      rw [Option.some.inj e2]
      exact himg
    | false =>
      rw [hio] at h2
      simp only [Bool.false_eq_true, if_false] at h2
      have e1 := (Prod.mk.inj h2).1
      have e2 := Except.ok.inj (Prod.mk.inj h2).2
      refine ⟨by rw [← e1]; exact hc1, by rw [← e1]; exact hw, by rw [← e1]; exact hsu, ?_, by rw [← e1]⟩
      intro img him
      rw [← e2] at him
      cases him
  obtain ⟨m1, m2, m3, m4, m5⟩ := main
  refine ⟨?_, ?_, m4, m5⟩
  · intro m
    obtain ⟨i, b, hr, -, -⟩ := key s2 m m1 m2 m3
    rw [hr]
    have : Fresh { s2 with mode := m, auto := true, viewer := some w, inbox := i, shouldUpdate := b } s.env := ⟨w, rfl, w1, w2, w3⟩
    exact this.shown
  · obtain ⟨i, b, hr, -, -⟩ := key s2 .rgb m1 m2 m3
    rw [hr]
    exact ⟨_, rfl, himg⟩

/-- **C96, the limit.** After a rendering in window mode, closing and rendering again opens a window on which nothing is drawn. -/
theorem reopened_blank (G : Globals) (c : SimConfig) (u : UiConfig) (m : RenderMode) (s s1 : Renv) (out : Option (Option Picture))
    (hc : Calm u s) (h1 : s.render G c u .human = (s1, .ok out)) :
    shown (s1.close.render G c u m).1 = none ∧ (s1.close.render G c u .rgb).2 = .ok (some none) := by
  obtain ⟨i, v, b', hr, -, hb, hc'⟩ := render_calm (G := G) (c := c) .human hc
  rw [h1] at hr
  have he := (Prod.mk.inj hr).1
  have hsu : s1.shouldUpdate = false := by rw [he]; dsimp only; rw [hb, if_neg (by simp)]
  have hcc : Calm u s1.close := by
    have : Calm u s1 := by rw [he]; exact hc'
    rcases this with h | h
    · exact .inl h
    · exact .inr ⟨h.1, by intro v hv; cases hv⟩
  have key : ∀ m, ∃ i b, s1.close.render G c u m =
      ({ s1.close with mode := m, auto := true, viewer := some (Renv.newViewer u s1.centering), inbox := i, shouldUpdate := b },
        .ok (if m = .rgb then some (if u.renderAgent && !(Renv.newViewer u s1.centering).offscreen
          then (Renv.newViewer u s1.centering).screen else (Renv.newViewer u s1.centering).surface) else none)) := by
    intro m
    obtain ⟨i, v, b, hr, hv, -, -⟩ := render_calm (G := G) (c := c) m hcc
    have h0 : s1.close.shouldUpdate = false := hsu
    rw [h0] at hv
    simp only [Bool.false_eq_true, if_false, id] at hv
    have hv' : v = Renv.newViewer u s1.centering := hv
    subst hv'
    exact ⟨i, b, hr⟩
  refine ⟨?_, ?_⟩
  · obtain ⟨i, b, hr⟩ := key m
    rw [hr]
    unfold shown
    dsimp only [Renv.newViewer]
    split <;> rfl
  · obtain ⟨i, b, hr⟩ := key .rgb
    rw [hr]
    simp [Renv.newViewer]

/-! ## Closing the window -/

/-- **C97.** Once the environment is closed every step simulates exactly one frame — the action is cut short after `1 / simulation_frequency`
seconds instead of `1 / policy_frequency` — until the next reset. -/
theorem closed_steps_short (G : Globals) (c : SimConfig) (cls : EnvClass) (as : List (Option AgentAction)) (e e' : Env) (rs : List StepResult)
    (hp : 0 < c.policyFrequency) (hq : c.policyFrequency ≤ c.simulationFrequency) (hcls : ∀ e, cls.after e = .ok e)
    (h : bare G c cls (.close :: as.map .step) e = .ok (e', rs)) : e'.time = e.time + as.length ∧ e'.done = true := by
  unfold bare at h
  suffices H : ∀ (as : List (Option AgentAction)) (e : Env) (rs : List StepResult), e.done = true →
      bare G c cls (as.map .step) e = .ok (e', rs) → e'.time = e.time + as.length ∧ e'.done = true from
    H as { e with done := true } rs rfl h
  intro as
  induction as with
  | nil => intro e rs hd h; cases h; exact ⟨rfl, hd⟩
  | cons a as ih =>
    intro e rs hd h
    rw [List.map_cons] at h
    unfold bare at h
    cases hs : e.step G c cls a with
    | error err => rw [hs] at h; cases h
    | ok p =>
      obtain ⟨e1, r⟩ := p
      rw [hs] at h
      dsimp only at h
      generalize hb : bare G c cls (as.map .step) e1 = q at h
      cases q with
      | error err => cases h
      | ok q =>
        have hq1 := congrArg Prod.fst (Except.ok.inj h)
        dsimp only at hq1
        have h1 : e1.time = e.time + 1 ∧ e1.done = true := by
          unfold Env.step at hs
          split at hs
          · cases hs
          · obtain ⟨e2, h2, hs⟩ := bind_ok hs
            obtain ⟨x1, -, hs⟩ := bind_ok hs
            obtain ⟨x2, -, hs⟩ := bind_ok hs
            obtain ⟨x3, -, hs⟩ := bind_ok hs
            obtain ⟨x4, -, hs⟩ := bind_ok hs
            obtain ⟨x5, hx5, hs⟩ := bind_ok hs
            rw [hcls] at hx5
            cases hx5
            cases hs
            unfold Env.simulate at h2
            obtain ⟨k, hk, h2⟩ := bind_ok h2
            rw [(frames_eq hp hq).1] at hk
            cases hk
            rw [Int.toNat_natCast] at h2
            obtain ⟨n, hn⟩ : ∃ n, period c = n + 1 := ⟨period c - 1, by have := (frames_eq hp hq).2; omega⟩
            rw [hn] at h2
            unfold Env.simulateLoop at h2
            obtain ⟨e3, h3, h2⟩ := bind_ok h2
            obtain ⟨f1, f2⟩ := frame_counts h3
            dsimp only at f1 f2
            obtain ⟨y, hy, h2⟩ := bind_ok h2
            unfold Env.stops at hy
            rw [f2, hd] at hy
            cases hy
            cases h2
            exact ⟨f1, by rw [f2, hd]⟩
        obtain ⟨i1, i2⟩ := ih e1 q.2 h1.2 (by rw [hb, ← hq1])
        refine ⟨?_, i2⟩
        rw [i1, h1.1, List.length_cons]
        omega

/-- The action types for which closing the window sends nothing to a vehicle. -/
private def Silent (t : ActionType) : Prop := ∀ cc, t ≠ .single (.continuous cc)

private theorem quit_handled {G : Globals} {c : SimConfig} (ht : Silent c.action) {s : Renv} {rest : List (List UiEvent)}
    (hi : s.inbox = [.quit] :: rest) : s.handleEvents G c = ({ s.close with inbox := rest }, .ok ()) := by
  unfold Renv.handleEvents
  rw [hi]
  simp only [List.tail_cons, List.head?_cons, Option.getD_some]
  unfold Renv.handleLoop Renv.handleEvent Renv.moveCamera Renv.keyboard
  rw [if_pos rfl]
  cases hct : c.action with
  | multi t => rfl
  | single t =>
    cases t with
    | discrete lo la => rfl
    | continuous cc => exact absurd hct (ht cc)

private theorem prepare_on_screen {u : UiConfig} {m : RenderMode} {s : Renv} (hu : u.offscreen = false)
    (hv : ∀ v, s.viewer = some v → v.offscreen = false) {v : Viewer}
    (hveq : v = (if s.shouldUpdate then Renv.displayOn s.env else id) (s.viewer.getD (Renv.newViewer u s.centering))) :
    v.offscreen = false := by
  have h0 : (s.viewer.getD (Renv.newViewer u s.centering)).offscreen = false := by
    cases hs : s.viewer with
    | none => exact hu
    | some w => exact hv w hs
  rw [hveq]
  cases s.shouldUpdate with
  | false => exact h0
  | true =>
    simp only [if_true]
    unfold Renv.displayOn
    split <;> exact h0

/-- **C97.** Closing the window while an image is being asked for: the environment is closed and `render` raises `AttributeError`; in window mode
the environment is closed and `render` returns. -/
theorem quit_closes (G : Globals) (c : SimConfig) (u : UiConfig) (s : Renv) (rest : List (List UiEvent)) (ht : ∀ cc, c.action ≠ .single (.continuous cc))
    (hu : u.offscreen = false) (hv : ∀ v, s.viewer = some v → v.offscreen = false) (hi : s.inbox = [.quit] :: rest) :
    (s.render G c u .rgb).2 = .error .attributeError ∧ (s.render G c u .human).2 = .ok none ∧
      ∀ m, (s.render G c u m).1.viewer = none ∧ (s.render G c u m).1.env = { s.env with done := true } := by
  have key : ∀ m, (s.prepare u m).readEvents G c = ({ s.close with mode := m, auto := true, inbox := rest }, .ok ()) := by
    intro m
    obtain ⟨v, hp, hveq⟩ := prepare_eq u m s
    have hoff := prepare_on_screen (m := m) hu hv hveq
    rw [hp]
    unfold Renv.readEvents
    dsimp only
    rw [if_neg (by rw [hoff]; simp), quit_handled ht (rest := rest)
      (s := { s with mode := m, auto := true, viewer := some v }) hi]
    rfl
  refine ⟨?_, ?_, ?_⟩
  · unfold Renv.render; rw [key]; rfl
  · unfold Renv.render; rw [key]; rfl
  · intro m
    unfold Renv.render
    rw [key]
    cases m <;> exact ⟨rfl, rfl⟩

/-- **C97.** Closing the window during a step rendered on the fly in window mode ends the step with the frame being drawn. -/
theorem quit_ends_step (G : Globals) (c : SimConfig) (u : UiConfig) (cls : EnvClass) (a : Option AgentAction) (s s' : Renv) (r : Renv.Answer)
    (v : Viewer) (rest : List (List UiEvent)) (hp : 0 < c.policyFrequency) (hq : c.policyFrequency ≤ c.simulationFrequency)
    (hcls : ∀ e, cls.after e = .ok e) (ht : ∀ cc, c.action ≠ .single (.continuous cc)) (hio : u.imageObs = false)
    (hu : u.offscreen = false) (hv : s.viewer = some v) (hvo : v.offscreen = false) (ha : s.auto = true) (hm : s.mode = .human)
    (hcb : s.callback = none) (hi : s.inbox = [.quit] :: rest) (h : s.step G c u cls a = (s', .ok r)) :
    s'.env.time = s.env.time + 1 ∧ s'.env.done = true ∧ s'.viewer = none := by
  obtain ⟨s1, s2, h1, h2, e', h3, rfl⟩ := step_ok_parts hp hq h
  rw [hcls] at h3
  cases h3
  unfold Renv.observe at h2
  rw [hio] at h2
  simp only [Bool.false_eq_true, if_false] at h2
  have he := (Prod.mk.inj h2).1
  subst he
  obtain ⟨n, hn⟩ : ∃ n, period c = n + 1 := ⟨period c - 1, by have := (frames_eq hp hq).2; omega⟩
  rw [hn] at h1
  unfold Renv.simulateLoop at h1
  dsimp only at h1
  cases hf : Env.frame G c ((n + 1 : ℕ) : Int) a { s.env with steps := s.env.steps + 1 } with
  | error e => rw [hf] at h1; cases h1
  | ok e1 =>
    rw [hf] at h1
    dsimp only at h1
    obtain ⟨t1, t2⟩ := frame_counts hf
    dsimp only at t1 t2
    set t : Renv := { s with env := e1, lastAction := Renv.forwardLast c ((n + 1 : ℕ) : Int) a { s with env := { s.env with steps := s.env.steps + 1 } } } with htd
    have hau : t.autoRender G c u = ((Renv.render G c u .human { t with shouldUpdate := true }).1, .ok ()) := by
      obtain ⟨-, k2, -⟩ := quit_closes G c u { t with shouldUpdate := true } rest ht hu
        (fun w hw => by change s.viewer = some w at hw; rw [hv] at hw; cases hw; exact hvo) hi
      unfold Renv.autoRender
      rw [if_pos (by change (s.viewer.isSome && s.auto) = true; rw [hv, ha]; rfl)]
      have hmode : t.callback.getD t.mode = .human := by change s.callback.getD s.mode = .human; rw [hcb]; exact hm
      rw [hmode]
      generalize Renv.render G c u .human { t with shouldUpdate := true } = p at k2
      obtain ⟨p1, p2⟩ := p
      dsimp only at k2
      subst k2
      rfl
    obtain ⟨-, -, k3⟩ := quit_closes G c u { t with shouldUpdate := true } rest ht hu
        (fun w hw => by change s.viewer = some w at hw; rw [hv] at hw; cases hw; exact hvo) hi
    obtain ⟨k4, k5⟩ := k3 .human
    rw [hau] at h1
    generalize (Renv.render G c u .human { t with shouldUpdate := true }).1 = q at h1 k4 k5
    dsimp only at h1 k5
    have hst : q.env.stops cls = .ok true := by unfold Env.stops; rw [k5]; rfl
    rw [hst] at h1
    dsimp only at h1
    cases h1
    dsimp only
    rw [k5]
    exact ⟨t1, rfl, k4⟩

/-! ### Concrete cases -/

/-- An environment just created, with nobody at the keyboard. -/
private def sampleRenv : Renv := { env := sampleEnv }

private theorem sample_calm (u : UiConfig) : Calm u sampleRenv := .inl (by intro evs h; cases h)

private theorem sample_draws : Draws {} sampleRenv := ⟨rfl, by intro v h; cases h⟩

private theorem sample_step (e : Env) (h : Ready {} e) : ∃ e' r, e.step {} {} sampleClass (some (.index 0)) = .ok (e', r) ∧ Ready {} e' := by
  obtain ⟨e1, e', res, v, h1, -, -, -, -, -, -, -, -, -, -, -, -, -, -, -, h2, -⟩ := step_outcome {} {} sampleClass (fun _ => True)
    (sample_reliable {}) (by norm_num) e h trivial (.index 0) ⟨le_rfl, by norm_num [AgentType.spaceSize, AgentType.actions]⟩
  exact ⟨e', res, h1, h2⟩

/-- The hypotheses of `two_steps_stale` and `rendered_step_current` are met: render, step, step. -/
example : ∃ s1 s2 s3 out r1 r2, sampleRenv.render {} {} {} .human = (s1, .ok out) ∧
    s1.step {} {} {} sampleClass (some (.index 0)) = (s2, .ok r1) ∧ s2.step {} {} {} sampleClass (some (.index 0)) = (s3, .ok r2) := by
  obtain ⟨i, v, b, hr, -, -, hc⟩ := render_calm (G := {}) (c := {}) .human (sample_calm {})
  obtain ⟨e1, r1, h1, hr1⟩ := sample_step sampleEnv sample_ready
  obtain ⟨e2, r2, h2, -⟩ := sample_step e1 hr1
  have k1 := step_calm (G := {}) (c := {}) (cls := sampleClass) (a := some (.index 0)) hc
  dsimp only [sampleRenv] at k1
  rw [h1] at k1
  obtain ⟨s2, img1, g1, g2, g3⟩ := k1
  have k2 := step_calm (G := {}) (c := {}) (cls := sampleClass) (a := some (.index 0)) g3
  rw [g2, h2] at k2
  obtain ⟨s3, img2, f1, f2, f3⟩ := k2
  exact ⟨_, s2, s3, _, _, _, hr, g1, f1⟩

/-- The usual loop runs: a rendering and a step with a rendering. -/
example : ∃ s' rs, driven {} {} {} sampleClass (.render .human :: stepAndRender .human [some (.index 0)]) sampleRenv = .ok (s', rs) := by
  have h := rendering_transparent {} {} {} sampleClass (.render .human :: stepAndRender .human [some (.index 0)]) sampleRenv (sample_calm _)
  obtain ⟨e1, r1, h1, hr1⟩ := sample_step sampleEnv sample_ready
  have : bare {} {} sampleClass (.render .human :: stepAndRender .human [some (.index 0)]) sampleRenv.env = .ok (e1, [r1]) := by
    change bare {} {} sampleClass [.render .human, .step (some (.index 0)), .render .human] sampleEnv = _
    unfold bare; unfold bare
    rw [h1]
    rfl
  rw [this] at h
  cases hd : driven {} {} {} sampleClass (.render .human :: stepAndRender .human [some (.index 0)]) sampleRenv with
  | error e => rw [hd] at h; cases h
  | ok p => exact ⟨p.1, p.2, rfl⟩

/-- Images: the object as created, rendered in image mode, closed, and rendered again. -/
example : OnlyImages [.render .rgb, .close] ∧ ∃ img, ((session {} {} {} sampleClass [.render .rgb, .close]
    { (Renv.create {} {} {} sampleEnv []).1 with callback := none }).render {} {} {} .rgb).2 = .ok (some img) := by
  refine ⟨(by intro op h; simp only [List.mem_cons, List.not_mem_nil, or_false] at h; rcases h with rfl | rfl <;> simp), ?_⟩
  have h0 : Calm {} { (Renv.create {} {} {} sampleEnv []).1 with callback := none } := .inl (by intro evs h; cases h)
  generalize ({ (Renv.create {} {} {} sampleEnv []).1 with callback := none } : Renv) = t at h0
  obtain ⟨i, v, b, hr, -, -, hc⟩ := render_calm (G := {}) (c := {}) .rgb h0
  have h1 : session {} {} {} sampleClass [.render .rgb, .close] t = (t.render {} {} {} .rgb).1.close := rfl
  rw [h1, hr]
  have h2 : Calm {} ({ t with mode := .rgb, auto := true, viewer := some v, inbox := i, shouldUpdate := b } : Renv).close := by
    rcases hc with h | h
    · exact .inl h
    · exact .inr ⟨h.1, by intro v hv; cases hv⟩
  obtain ⟨i, v, b, hr, -, -, hc⟩ := render_calm (G := {}) (c := {}) .rgb h2
  rw [hr]
  exact ⟨_, rfl⟩

/-- A user closes the window. -/
example : (∀ cc, ({} : SimConfig).action ≠ .single (.continuous cc)) ∧ ({ sampleRenv with inbox := [[.quit]] } : Renv).inbox = [.quit] :: [] :=
  ⟨(by intro cc h; cases h), rfl⟩

/-! ## C97: copies have no window -/

private theorem loop_blind {G : Globals} {c : SimConfig} {u : UiConfig} {cls : EnvClass} {k : Int} {a : Option AgentAction} (n : ℕ)
    {s : Renv} (h : s.viewer = none) :
    match Env.simulateLoop G c cls k a n s.env with
    | .error e => (s.simulateLoop G c u cls k a n).2 = .error e
    | .ok e' => ∃ s', s.simulateLoop G c u cls k a n = (s', .ok ()) ∧ s'.env = e' ∧ s'.viewer = none ∧ s'.inbox = s.inbox := by
  induction n generalizing s with
  | zero => exact ⟨s, rfl, rfl, h, rfl⟩
  | succ n ih =>
    unfold Env.simulateLoop Renv.simulateLoop
    cases hf : s.env.frame G c k a with
    | error e => rfl
    | ok e1 =>
      dsimp only [bind, Except.bind]
      have h1 : Renv.autoRender G c u { s with env := e1, lastAction := s.forwardLast c k a } =
          ({ s with env := e1, lastAction := s.forwardLast c k a }, .ok ()) := by
        unfold Renv.autoRender
        rw [if_neg (by simp [h])]
      rw [h1]
      dsimp only
      cases hs : e1.stops cls with
      | error e => rfl
      | ok b =>
        dsimp only
        cases b with
        | true => exact ⟨_, rfl, rfl, h, rfl⟩
        | false => exact ih (s := { s with env := e1, lastAction := s.forwardLast c k a }) h

private theorem step_blind {G : Globals} {c : SimConfig} {u : UiConfig} {cls : EnvClass} {a : Option AgentAction}
    {s : Renv} (h : s.viewer = none) (hi : u.imageObs = false) :
    match s.env.step G c cls a with
    | .error e => (s.step G c u cls a).2 = .error e
    | .ok (e', r) => ∃ s', s.step G c u cls a = (s', .ok ⟨none, r⟩) ∧ s'.env = e' ∧ s'.viewer = none ∧ s'.inbox = s.inbox := by
  unfold Env.step Renv.step
  by_cases h0 : s.env.controlled = []
  · rw [if_pos h0, if_pos h0]
  · rw [if_neg h0, if_neg h0]
    unfold Env.simulate Renv.simulate
    cases hk : Env.framesPerStep c with
    | error e => rfl
    | ok k =>
      dsimp only [bind, Except.bind]
      have hl := loop_blind (G := G) (c := c) (u := u) (cls := cls) (k := k) (a := a) k.toNat
        (s := { s with env := { s.env with steps := s.env.steps + 1 } }) h
      cases he : Env.simulateLoop G c cls k a k.toNat { s.env with steps := s.env.steps + 1 } with
      | error e =>
        dsimp only at hl
        rw [he] at hl
        dsimp only at hl ⊢
        generalize Renv.simulateLoop G c u cls k a k.toNat { s with env := { s.env with steps := s.env.steps + 1 } } = p at hl
        obtain ⟨p1, p2⟩ := p
        dsimp only at hl
        subst hl
        rfl
      | ok e1 =>
        dsimp only at hl
        rw [he] at hl
        obtain ⟨s1, h1, h2, h3, h4⟩ := hl
        rw [h1]
        dsimp only
        have g1 : Renv.observe G c u { s1 with auto := false } = ({ s1 with auto := false }, .ok none) := by
          unfold Renv.observe
          rw [if_neg (by simp [hi])]
        rw [g1]
        dsimp only
        unfold Renv.conclude
        dsimp only
        rw [h2]
        cases hr : cls.reward e1 a with
        | error e => rfl
        | ok x1 =>
          dsimp only [bind, Except.bind]
          cases ht : cls.terminal e1 with
          | error e => rfl
          | ok x2 =>
            dsimp only
            cases hw : e1.vehicle with
            | error e => rfl
            | ok x3 =>
              dsimp only
              cases hct : Env.tryCost cls e1 with
              | error e => rfl
              | ok x4 =>
                dsimp only
                cases haf : cls.after e1 with
                | error e => rfl
                | ok x5 => exact ⟨_, rfl, rfl, h3, h4⟩

/-- **C97.** A copy of an environment — even one taken while a window is open, with key presses waiting — can be played for any number of
steps without ever opening a window or reading an event: the results are those of the bare simulation, whatever the user of the original
window is doing, and the events wait for the original. -/
theorem copy_undisturbed (G : Globals) (c : SimConfig) (u : UiConfig) (cls : EnvClass) (hi : u.imageObs = false) (as : List (Option AgentAction))
    (s : Renv) :
    (driven G c u cls (as.map .step) s.copy).map (fun p => (p.1.env, p.2)) = bare G c cls (as.map .step) s.env ∧
      ∀ s' rs, driven G c u cls (as.map .step) s.copy = .ok (s', rs) → shown s' = none ∧ s'.viewer = none ∧ s'.inbox = s.inbox := by
  have key : ∀ (as : List (Option AgentAction)) (t : Renv), t.viewer = none →
      (driven G c u cls (as.map .step) t).map (fun p => (p.1.env, p.2)) = bare G c cls (as.map .step) t.env ∧
      ∀ s' rs, driven G c u cls (as.map .step) t = .ok (s', rs) → shown s' = none ∧ s'.viewer = none ∧ s'.inbox = t.inbox := by
    intro as
    induction as with
    | nil =>
      intro t ht
      refine ⟨rfl, fun s' rs h => ?_⟩
      cases h
      exact ⟨by unfold shown; rw [ht], ht, rfl⟩
    | cons a as ih =>
      intro t ht
      have hs := step_blind (G := G) (c := c) (cls := cls) (a := a) ht hi
      rw [List.map_cons]
      unfold driven bare
      cases he : t.env.step G c cls a with
      | error e =>
        rw [he] at hs
        dsimp only at hs ⊢
        generalize t.step G c u cls a = p at hs
        obtain ⟨p1, p2⟩ := p
        dsimp only at hs
        subst hs
        exact ⟨rfl, fun s' rs h => by cases h⟩
      | ok p =>
        obtain ⟨e', r⟩ := p
        rw [he] at hs
        obtain ⟨t', h1, h2, h3, h4⟩ := hs
        rw [h1]
        dsimp only
        obtain ⟨i1, i2⟩ := ih t' h3
        rw [h2] at i1
        constructor
        · rw [← i1]
          cases driven G c u cls (as.map .step) t' <;> rfl
        · intro s' rs h
          cases hd : driven G c u cls (as.map .step) t' with
          | error e => rw [hd] at h; cases h
          | ok q =>
            obtain ⟨q1, q2⟩ := q
            rw [hd] at h
            cases h
            obtain ⟨j1, j2, j3⟩ := i2 _ _ hd
            exact ⟨j1, j2, j3.trans h4⟩
  exact key as s.copy rfl

end HighwayEnv.Props
