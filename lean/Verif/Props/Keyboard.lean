import Verif.Spec.Rendering
import Verif.Props.EnvSafe
import Verif.Props.Action

/-!
# C98: driving with the keyboard
-/

noncomputable section
open Classical
namespace HighwayEnv.Props
open HighwayEnv Spec

/-! ## Discrete meta-actions -/

/-- **C98.** For an agent with meta-actions, a key that means an action the agent has does exactly what the agent would do by choosing the index of that
action; every other event — releasing a key, other keys, the mouse, or an arrow of an axis the agent does not control — does
nothing, except the up arrow (next theorem). -/
theorem key_does_action (G : Globals) (c : SimConfig) (s : Renv) (ev : UiEvent) (lo la : Bool) (hc : c.action = .single (.discrete lo la))
    (hon : lo = true ∨ la = true) :
    (∀ a, keyMeaning ev = some a → hasAction lo la a = true → ∃ i : Int, InSpace (.discrete lo la) (.index i) ∧
      AgentType.command (.discrete lo la) (.index i) = .ok a ∧
      s.keyboard G c ev = (s.env.road.envAct G c.action s.env.controlled (.index i)).map
        fun r => { s with env := { s.env with road := r } }) ∧
    ((∀ a, keyMeaning ev = some a → hasAction lo la a = false ∧ ev ≠ .keyDown .up) → s.keyboard G c ev = .ok s) := by
  have hmap : ∀ i : Int, ((do
      let r ← s.env.road.envAct G c.action s.env.controlled (.index i)
      return { s with env := { s.env with road := r } } : Py Renv)) =
      (s.env.road.envAct G c.action s.env.controlled (.index i)).map fun r => { s with env := { s.env with road := r } } := by
    intro i
    cases s.env.road.envAct G c.action s.env.controlled (.index i) <;> rfl
  have hk : s.keyboard G c ev = (match Renv.discreteEvent lo la ev with
      | .error e => .error e
      | .ok none => .ok s
      | .ok (some i) => (s.env.road.envAct G c.action s.env.controlled (.index i)).map fun r => { s with env := { s.env with road := r } }) := by
    unfold Renv.keyboard
    rw [hc]
    dsimp only [bind, Except.bind]
    cases Renv.discreteEvent lo la ev with
    | error e => rfl
    | ok o => cases o with
      | none => rfl
      | some i => dsimp only; rw [← hc]; exact hmap i
  constructor
  · intro a ha hav
    rw [hk]
    have hfin : ∃ i : Int, InSpace (.discrete lo la) (.index i) ∧ AgentType.command (.discrete lo la) (.index i) = .ok a ∧
        Renv.discreteEvent lo la ev = .ok (some i) := by
      unfold keyMeaning at ha
      split at ha <;> cases ha <;> unfold hasAction at hav <;> dsimp only at hav <;> subst hav
      · cases la
        · exact ⟨2, by simp [InSpace, AgentType.spaceSize, AgentType.actions], by rfl, by rfl⟩
        · exact ⟨3, by simp [InSpace, AgentType.spaceSize, AgentType.actions], by rfl, by rfl⟩
      · cases la
        · exact ⟨0, by simp [InSpace, AgentType.spaceSize, AgentType.actions], by rfl, by rfl⟩
        · exact ⟨4, by simp [InSpace, AgentType.spaceSize, AgentType.actions], by rfl, by rfl⟩
      · cases lo
        · exact ⟨0, by simp [InSpace, AgentType.spaceSize, AgentType.actions], by rfl, by rfl⟩
        · exact ⟨0, by simp [InSpace, AgentType.spaceSize, AgentType.actions], by rfl, by rfl⟩
      · cases lo
        · exact ⟨2, by simp [InSpace, AgentType.spaceSize, AgentType.actions], by rfl, by rfl⟩
        · exact ⟨2, by simp [InSpace, AgentType.spaceSize, AgentType.actions], by rfl, by rfl⟩
    obtain ⟨i, h1, h2, h3⟩ := hfin
    exact ⟨i, h1, h2, by rw [h3]⟩
  · intro h
    rw [hk]
    have hnone : Renv.discreteEvent lo la ev = .ok none := by
      unfold keyMeaning at h
      unfold Renv.discreteEvent Renv.keyIndex
      split
      · obtain ⟨h1, -⟩ := h _ rfl; unfold hasAction at h1; dsimp only at h1; rw [h1]; rfl
      · obtain ⟨h1, -⟩ := h _ rfl; unfold hasAction at h1; dsimp only at h1; rw [h1]; rfl
      · obtain ⟨h1, -⟩ := h _ rfl; unfold hasAction at h1; dsimp only at h1; rw [h1]; rfl
      · obtain ⟨-, h1⟩ := h _ rfl; exact absurd rfl h1
      · rfl
    rw [hnone]

/-- **C98, the limit.** With lane changes disabled, pressing the up arrow raises `KeyError` — the only arrow that does. -/
theorem up_key_raises (G : Globals) (c : SimConfig) (s : Renv) (hc : c.action = .single (.discrete true false)) :
    s.keyboard G c (.keyDown .up) = .error .keyError := by
  unfold Renv.keyboard
  rw [hc]
  rfl

/-- **C98.** In manual control the action passed to `step` is ignored. -/
theorem manual_ignores_actions (G : Globals) (c : SimConfig) (u : UiConfig) (cls : EnvClass) (a : Option AgentAction) (s : Renv)
    (hm : c.manualControl = true) : s.simulate G c u cls a = s.simulate G c u cls none := by
  have hf : ∀ (k : Int) (e : Env), e.frame G c k a = e.frame G c k none := by
    intro k e
    unfold Env.frame
    have : e.forward G c k a = e.forward G c k none := by
      unfold Env.forward
      cases a with
      | none => rfl
      | some x => dsimp only; rw [if_neg (by rw [hm]; simp)]
    rw [this]
  have hl0 : ∀ (a : Option AgentAction) (k : Int) (s : Renv), s.forwardLast c k a = s.lastAction := by
    intro a k s
    unfold Renv.forwardLast
    split
    · rw [if_neg (by rw [hm]; simp)]
    · rfl
  have hl : ∀ (k : Int) (s : Renv), s.forwardLast c k a = s.forwardLast c k none := fun k s => by rw [hl0, hl0]
  have hloop : ∀ (k : Int) (n : ℕ) (s : Renv), s.simulateLoop G c u cls k a n = s.simulateLoop G c u cls k none n := by
    intro k n
    induction n with
    | zero => intro s; rfl
    | succ n ih =>
      intro s
      unfold Renv.simulateLoop
      rw [hf, hl]
      simp only [ih]
  unfold Renv.simulate
  simp only [hloop]

/-- **C98.** A multi-agent environment does not react to the keyboard. -/
theorem multi_ignores_keyboard (G : Globals) (c : SimConfig) (s : Renv) (t : AgentType) (hc : c.action = .multi t) (ev : UiEvent) :
    s.keyboard G c ev = .ok s := by
  unfold Renv.keyboard
  rw [hc]

/-! ## Continuous actions -/

private theorem clip_id {x : ℝ} (h : -1 ≤ x ∧ x ≤ 1) : npClip x (-1) 1 = x := by
  unfold npClip; rw [max_eq_left h.1, min_eq_left h.2]

private theorem clip_pedals {cc : ContinuousConfig} {x y : ℝ} (hx : -1 ≤ x ∧ x ≤ 1) (hy : -1 ≤ y ∧ y ≤ 1) :
    AgentType.clipVector cc (pedals cc x y) = pedals cc x y := by
  unfold AgentType.clipVector pedals
  split
  · split
    · simp [clip_id hx, clip_id hy]
    · split
      · simp [clip_id hx]
      · simp [clip_id hy]
  · rfl

private theorem lmap_within (r : ℝ × ℝ) (x : ℝ) : lmap x (-1, 1) r = within r x := by
  unfold lmap within
  norm_num
  ring

private theorem pedals_command {cc : ContinuousConfig} {x y : ℝ} (hx : -1 ≤ x ∧ x ≤ 1) (hy : -1 ≤ y ∧ y ≤ 1)
    (hon : cc.longitudinal = true ∨ cc.lateral = true) :
    AgentType.command (.continuous cc) (.vector (pedals cc x y)) = .ok (.control
      (if cc.lateral then within cc.steeringRange y else 0) (if cc.longitudinal then within cc.accelerationRange x else 0)) := by
  unfold AgentType.command AgentType.continuousCommand
  dsimp only
  rw [clip_pedals hx hy]
  unfold pedals
  cases hlo : cc.longitudinal <;> cases hla : cc.lateral
  · rw [hlo, hla] at hon; simp at hon
  · simp [pyIndex, bind, Except.bind, pure, Except.pure, lmap_within]
  · simp [pyIndex, bind, Except.bind, pure, Except.pure, lmap_within]
  · simp [pyIndex, bind, Except.bind, pure, Except.pure, lmap_within]

private theorem axis_mem {p m : Key} (evs : List UiEvent) {x : ℝ} (h : -1 ≤ x ∧ x ≤ 1) : -1 ≤ axis p m x evs ∧ axis p m x evs ≤ 1 := by
  induction evs generalizing x with
  | nil => exact h
  | cons ev evs ih =>
    cases ev with
    | quit => exact ih h
    | other => exact ih h
    | keyDown k =>
      unfold axis
      refine ih ?_
      split
      · norm_num
      · split
        · norm_num
        · exact h
    | keyUp k =>
      unfold axis
      refine ih ?_
      split
      · norm_num
      · exact h

private theorem axis_cons (p m : Key) (x : ℝ) (ev : UiEvent) (evs : List UiEvent) :
    axis p m x (ev :: evs) = axis p m (axis p m x [ev]) evs := by
  cases ev <;> rfl

private theorem pedals_event {cc : ContinuousConfig} (x y : ℝ) (ev : UiEvent) (hon : cc.longitudinal = true ∨ cc.lateral = true) :
    Renv.continuousEvent cc (pedals cc x y) ev = .ok (pedals cc (axis .up .down x [ev]) (axis .right .left y [ev])) := by
  unfold Renv.continuousEvent Renv.setEntry pedals AgentType.spaceSize
  cases hlo : cc.longitudinal <;> cases hla : cc.lateral
  · rw [hlo, hla] at hon; simp at hon
  all_goals
    cases ev with
    | quit => simp [axis]
    | other => simp [axis]
    | keyDown k => cases k <;> simp [axis, hlo, hla]
    | keyUp k => cases k <;> simp [axis, hlo, hla]

/-- One event, for the ego-vehicle at position `i`. -/
private theorem event_step {G : Globals} {c : SimConfig} {cc : ContinuousConfig} (hc : c.action = .single (.continuous cc))
    (hon : cc.longitudinal = true ∨ cc.lateral = true) {s : Renv} {x y : ℝ} (hx : -1 ≤ x ∧ x ≤ 1) (hy : -1 ≤ y ∧ y ≤ 1)
    (hl : s.lastAction = pedals cc x y) (hd : s.env.road.uids.Nodup) {v : Vehicle} {i : ℕ} (hv : s.env.road.vehicles[i]? = some v)
    (hk : v.kind = .plain ∨ v.kind = .bicycle) (hego : s.env.controlled.head? = some v.uid) (ev : UiEvent) :
    ∃ s', s.handleEvent G c ev = (s', .ok ()) ∧ s'.lastAction = pedals cc (axis .up .down x [ev]) (axis .right .left y [ev]) ∧
      s'.env = { s.env with
        road := { s.env.road with vehicles := s.env.road.vehicles.set i { v with
          steering := if cc.lateral then within cc.steeringRange (axis .right .left y [ev]) else 0
          acceleration := if cc.longitudinal then within cc.accelerationRange (axis .up .down x [ev]) else 0 } }
        done := s.env.done || decide (ev = .quit) } := by
  have hx' := axis_mem (p := .up) (m := .down) [ev] hx
  have hy' := axis_mem (p := .right) (m := .left) [ev] hy
  unfold Renv.handleEvent
  dsimp only
  have key : ∀ t : Renv, t.lastAction = s.lastAction → t.env.road = s.env.road → t.env.controlled = s.env.controlled →
      t.keyboard G c ev = .ok { t with
        env := { t.env with road := { s.env.road with vehicles := s.env.road.vehicles.set i { v with
          steering := if cc.lateral then within cc.steeringRange (axis .right .left y [ev]) else 0
          acceleration := if cc.longitudinal then within cc.accelerationRange (axis .up .down x [ev]) else 0 } } }
        lastAction := pedals cc (axis .up .down x [ev]) (axis .right .left y [ev]) } := by
    intro t h1 h2 h3
    unfold Renv.keyboard
    rw [hc]
    dsimp only
    rw [h1, hl, pedals_event x y ev hon]
    dsimp only [bind, Except.bind]
    rw [h2, h3]
    have : Road.envAct G (.single (.continuous cc)) s.env.controlled s.env.road
        (.vector (pedals cc (axis .up .down x [ev]) (axis .right .left y [ev]))) =
        .ok { s.env.road with vehicles := s.env.road.vehicles.set i { v with
          steering := if cc.lateral then within cc.steeringRange (axis .right .left y [ev]) else 0
          acceleration := if cc.longitudinal then within cc.accelerationRange (axis .up .down x [ev]) else 0 } } := by
      unfold Road.envAct
      cases hctl : s.env.controlled with
      | nil => rw [hctl] at hego; cases hego
      | cons u us =>
        rw [hctl] at hego
        cases hego
        dsimp only
        unfold Road.agentAct
        rw [pedals_command hx' hy' hon, Road.indexOf_at hd ⟨v, hv, rfl⟩]
        dsimp only [bind, Except.bind]
        unfold Road.actAt
        rw [hv]
        dsimp only
        have hact : v.act G s.env.road (.control (if cc.lateral then within cc.steeringRange (axis .right .left y [ev]) else 0)
            (if cc.longitudinal then within cc.accelerationRange (axis .up .down x [ev]) else 0)) = .ok ({ v with
          steering := if cc.lateral then within cc.steeringRange (axis .right .left y [ev]) else 0
          acceleration := if cc.longitudinal then within cc.accelerationRange (axis .up .down x [ev]) else 0 }, s.env.road.rng) := by
          unfold Vehicle.act
          rcases hk with hk | hk <;> rw [hk]
        rw [hact]
        rfl
    rw [this]
    dsimp only
    rw [clip_pedals hx' hy']
    rfl
  by_cases hq : ev = .quit
  · rw [if_pos hq, key (s.close.moveCamera ev) rfl rfl rfl]
    refine ⟨_, rfl, rfl, ?_⟩
    simp [Renv.moveCamera, Renv.close, Env.close, hq]
  · rw [if_neg hq, key (s.moveCamera ev) rfl rfl rfl]
    refine ⟨_, rfl, rfl, ?_⟩
    simp [Renv.moveCamera, hq]

private theorem held_loop {G : Globals} {c : SimConfig} {cc : ContinuousConfig} (hc : c.action = .single (.continuous cc))
    (hon : cc.longitudinal = true ∨ cc.lateral = true) (i : ℕ) (evs : List UiEvent) : ∀ (t : Renv) (x y : ℝ) (v : Vehicle),
    (-1 ≤ x ∧ x ≤ 1) → (-1 ≤ y ∧ y ≤ 1) → t.lastAction = pedals cc x y → t.env.road.uids.Nodup → t.env.road.vehicles[i]? = some v →
    (v.kind = .plain ∨ v.kind = .bicycle) → t.env.controlled.head? = some v.uid → evs ≠ [] →
    ∃ s', t.handleLoop G c evs = (s', .ok ()) ∧ s'.lastAction = pedals cc (axis .up .down x evs) (axis .right .left y evs) ∧
      s'.env = { t.env with
        road := { t.env.road with vehicles := t.env.road.vehicles.set i { v with
          steering := if cc.lateral then within cc.steeringRange (axis .right .left y evs) else 0
          acceleration := if cc.longitudinal then within cc.accelerationRange (axis .up .down x evs) else 0 } }
        done := t.env.done || decide (UiEvent.quit ∈ evs) } := by
  induction evs with
  | nil => intro t x y v _ _ _ _ _ _ _ hne; exact absurd rfl hne
  | cons ev evs ih =>
    intro t x y v hx hy hl hd hv hk hego _
    obtain ⟨t1, h1, h2, h3⟩ := event_step (G := G) hc hon hx hy hl hd hv hk hego ev
    unfold Renv.handleLoop
    rw [h1]
    dsimp only
    rw [axis_cons, axis_cons .right]
    have hmem : decide (UiEvent.quit ∈ ev :: evs) = (decide (ev = .quit) || decide (UiEvent.quit ∈ evs)) := by
      by_cases hq : ev = .quit
      · simp [hq]
      · have : ¬ UiEvent.quit = ev := fun h => hq h.symm
        simp [hq, this]
    rw [hmem]
    cases evs with
    | nil =>
      refine ⟨t1, rfl, h2, ?_⟩
      rw [h3, show decide (UiEvent.quit ∈ ([] : List UiEvent)) = false from rfl, Bool.or_false]
      rfl
    | cons ev2 evs =>
      have hlt : i < t.env.road.vehicles.length := (List.getElem?_eq_some_iff.1 hv).1
      have hu : t1.env.road.uids = t.env.road.uids := by
        rw [h3]
        unfold Road.uids
        dsimp only
        rw [List.map_set]
        dsimp only
        apply List.ext_getElem?
        intro j
        rw [List.getElem?_set]
        split
        · rename_i hij
          subst hij
          rw [List.getElem?_map, hv]
          simp [hlt]
        · rfl
      obtain ⟨t2, g1, g2, g3⟩ := ih t1 (axis .up .down x [ev]) (axis .right .left y [ev])
        { v with
          steering := if cc.lateral then within cc.steeringRange (axis .right .left y [ev]) else 0
          acceleration := if cc.longitudinal then within cc.accelerationRange (axis .up .down x [ev]) else 0 }
        (axis_mem _ hx) (axis_mem _ hy) h2 (by rw [hu]; exact hd)
        (by rw [h3]; dsimp only; rw [List.getElem?_set_self hlt]) hk (by rw [h3]; exact hego) (by simp)
      refine ⟨t2, g1, g2, ?_⟩
      rw [g3, h3]
      dsimp only
      rw [List.set_set, Bool.or_assoc]

/-- **C98.** Driving an ordinary (or dynamical) vehicle with the arrow keys: after any non-empty batch of events — arrow keys, other keys, mouse, even
the closing of the window — no exception is raised, the throttle and steering are those left by the last presses and releases on each
axis the agent controls, the ego-vehicle is told exactly these, and nothing else changes in the scene. -/
theorem held_keys (G : Globals) (c : SimConfig) (cc : ContinuousConfig) (hc : c.action = .single (.continuous cc))
    (hon : cc.longitudinal = true ∨ cc.lateral = true) (s : Renv) (x y : ℝ) (hx : -1 ≤ x ∧ x ≤ 1) (hy : -1 ≤ y ∧ y ≤ 1)
    (hl : s.lastAction = pedals cc x y) (hd : s.env.road.uids.Nodup) (v : Vehicle) (i : ℕ) (hv : s.env.road.vehicles[i]? = some v)
    (hk : v.kind = .plain ∨ v.kind = .bicycle) (hego : s.env.controlled.head? = some v.uid) (evs : List UiEvent) (rest : List (List UiEvent))
    (hne : evs ≠ []) (hi : s.inbox = evs :: rest) :
    ∃ s', s.handleEvents G c = (s', .ok ()) ∧ s'.lastAction = pedals cc (axis .up .down x evs) (axis .right .left y evs) ∧
      s'.env = { s.env with
        road := { s.env.road with vehicles := s.env.road.vehicles.set i { v with
          steering := if cc.lateral then within cc.steeringRange (axis .right .left y evs) else 0
          acceleration := if cc.longitudinal then within cc.accelerationRange (axis .up .down x evs) else 0 } }
        done := s.env.done || decide (UiEvent.quit ∈ evs) } := by
  unfold Renv.handleEvents
  rw [hi]
  exact held_loop hc hon i evs { s with inbox := rest } x y v hx hy hl hd hv hk hego hne

/-! ## Reading the keyboard moves nothing -/

private def Still (e e' : Env) : Prop :=
  Pointwise SameBody e.road.vehicles e'.road.vehicles ∧ e'.road.network = e.road.network ∧ e'.road.objects = e.road.objects ∧
    e'.controlled = e.controlled ∧ e'.time = e.time ∧ e'.steps = e.steps

private theorem Still.refl (e : Env) : Still e e := ⟨.refl' SameBody.refl _, rfl, rfl, rfl, rfl, rfl⟩

private theorem Still.trans {a b c : Env} (h : Still a b) (g : Still b c) : Still a c :=
  ⟨Pointwise.comp (R := SameBody) SameBody.trans h.1 g.1, g.2.1.trans h.2.1, g.2.2.1.trans h.2.2.1, g.2.2.2.1.trans h.2.2.2.1,
    g.2.2.2.2.1.trans h.2.2.2.2.1, g.2.2.2.2.2.trans h.2.2.2.2.2⟩

private theorem single_still {G : Globals} {t : AgentType} {e : Env} {a : AgentAction} {r : Road}
    (h : e.road.envAct G (.single t) e.controlled a = .ok r) : Still e { e with road := r } := by
  unfold Road.envAct at h
  dsimp only at h
  split at h
  · cases h
  · rename_i ctl u us hctl
    unfold Road.agentAct at h
    obtain ⟨cmd, -, h⟩ := bind_ok h
    split at h
    · cases h; exact .refl _
    · obtain ⟨h1, h2⟩ := Road.actAt_frame h
      exact ⟨h1, h2.network, h2.objects, rfl, rfl, rfl⟩

/-- **C98.** Reading the events, whatever they are and whatever is raised, moves no vehicle, changes no speed, advances no clock: it can only change
what vehicles intend to do next, and close the environment. -/
theorem events_move_nothing (G : Globals) (c : SimConfig) (s : Renv) :
    Pointwise SameBody s.env.road.vehicles (s.handleEvents G c).1.env.road.vehicles ∧
      (s.handleEvents G c).1.env.road.network = s.env.road.network ∧ (s.handleEvents G c).1.env.road.objects = s.env.road.objects ∧
      (s.handleEvents G c).1.env.controlled = s.env.controlled ∧ (s.handleEvents G c).1.env.time = s.env.time ∧
      (s.handleEvents G c).1.env.steps = s.env.steps := by
  change Still s.env (s.handleEvents G c).1.env
  unfold Renv.handleEvents
  have hs : s.env = ({ s with inbox := s.inbox.tail } : Renv).env := rfl
  rw [hs]
  generalize ({ s with inbox := s.inbox.tail } : Renv) = t
  generalize s.inbox.head?.getD [] = evs
  induction evs generalizing t with
  | nil => exact .refl _
  | cons ev evs ih =>
    have h1 : Still t.env (t.handleEvent G c ev).1.env := by
      unfold Renv.handleEvent
      dsimp only
      have h2 : Still t.env ((if ev = .quit then t.close else t).moveCamera ev).env := by
        split
        · exact ⟨.refl' SameBody.refl _, rfl, rfl, rfl, rfl, rfl⟩
        · exact .refl _
      generalize (if ev = .quit then t.close else t).moveCamera ev = w at h2
      cases hk : w.keyboard G c ev with
      | error e => exact h2
      | ok w' =>
        refine h2.trans ?_
        dsimp only
        unfold Renv.keyboard at hk
        split at hk
        · rename_i lo la hact
          obtain ⟨o, -, hk⟩ := bind_ok hk
          cases o with
          | none => cases hk; exact .refl _
          | some i =>
            obtain ⟨r, hr, hk⟩ := bind_ok hk
            cases hk
            rw [hact] at hr
            exact single_still hr
        · rename_i cc hact
          obtain ⟨o, -, hk⟩ := bind_ok hk
          obtain ⟨r, hr, hk⟩ := bind_ok hk
          cases hk
          rw [hact] at hr
          exact single_still hr
        · cases hk; exact .refl _
    unfold Renv.handleLoop
    generalize t.handleEvent G c ev = p at h1
    obtain ⟨p1, p2⟩ := p
    cases p2 with
    | error e => exact h1
    | ok x => exact h1.trans (ih p1)

/-! ### Concrete cases -/

/-- The right arrow accelerates an agent with all meta-actions; the down arrow does nothing for an agent without lane changes. -/
example : keyMeaning (.keyDown .right) = some .faster ∧ hasAction true true .faster = true ∧ keyMeaning (.keyUp .right) = none ∧
    hasAction true false .laneRight = false := ⟨rfl, rfl, rfl, rfl⟩

/-- Up pressed, right pressed, right released, left pressed: full throttle 0.7, steering -0.7. -/
example : axis .up .down 0 [.keyDown .up, .keyDown .right, .keyUp .right, .keyDown .left] = 0.7 ∧
    axis .right .left 0 [.keyDown .up, .keyDown .right, .keyUp .right, .keyDown .left] = -0.7 := by
  constructor <;> simp [axis]

/-- A car driven with the keyboard: the hypotheses of `held_keys` hold just after `reset`. -/
example : ∃ (c : SimConfig) (cc : ContinuousConfig) (s : Renv) (v : Vehicle), c.action = .single (.continuous cc) ∧ c.manualControl = true ∧
    (cc.longitudinal = true ∨ cc.lateral = true) ∧ s.lastAction = pedals cc 0 0 ∧ s.lastAction = Renv.initialAction c ∧
    s.env.road.uids.Nodup ∧ s.env.road.vehicles[0]? = some v ∧ v.kind = .plain ∧ s.env.controlled.head? = some v.uid ∧
    s.inbox = [.keyDown .up, .keyDown .left] :: [] :=
  ⟨{ action := .single (.continuous {}), manualControl := true }, {},
    { env := { sampleEnv with road := { sampleEnv.road with vehicles := [Sample.car 0 .plain 10 0 20, Sample.car 1 .idm 40 0 10] } }
      lastAction := [0, 0], inbox := [[.keyDown .up, .keyDown .left]] },
    Sample.car 0 .plain 10 0 20, rfl, rfl, .inl rfl, rfl, rfl, by simp [Road.uids, Sample.car], rfl, rfl, rfl, rfl⟩

end HighwayEnv.Props
