import Verif.Props.Config
import Verif.Props.Highway
import Verif.Spec.Full

/-!
# Properties of stepping and observing together (C102)
-/

noncomputable section
open Classical
namespace HighwayEnv.Props
open HighwayEnv HighwayEnv.Spec

/-! ## Observing does not disturb the game -/

private theorem kin_quiet {G : Globals} {r : Road} {v : Vehicle} {cfg cfg' : KinematicsConfig} {rows : List (List ℝ)} {rng : Rng}
    (hs : cfg.shuffled = false) (h : Kinematics.observe G r v cfg = .ok (rows, cfg', rng)) : rng = r.rng ∧ cfg'.shuffled = false := by
  unfold Kinematics.observe at h
  obtain ⟨d, -, h⟩ := bind_ok h
  obtain ⟨first, -, h⟩ := bind_ok h
  obtain ⟨others, -, h⟩ := bind_ok h
  obtain ⟨⟨rows', cfg1⟩, h1, h⟩ := bind_ok h
  have hs1 : cfg1.shuffled = false := by
    unfold Kinematics.normalizeRows at h1
    split at h1
    · obtain ⟨rs, -, h1⟩ := bind_ok h1
      cases h1; exact hs
    · cases h1; exact hs
  cases h
  exact ⟨by simp [Kinematics.reorder, hs1], hs1⟩

mutual
/-- C102: observing without shuffling changes nothing but the observer. -/
theorem observe_quiet (G : Globals) : ∀ (o : ObsType) (s : Scene) (x : Obs) (o' : ObsType) (s' : Scene),
    Quiet o → o.observe G s = .ok (x, o', s') → s' = s ∧ Quiet o'
  | .ttc h v, s, x, o', s', _, ho => by
    rw [ObsType.observe] at ho
    obtain ⟨y, -, ho⟩ := bind_ok ho
    cases ho; exact ⟨rfl, .ttc _ _⟩
  | .kinematics cfg v, s, x, o', s', hq, ho => by
    cases hq with
    | kinematics _ _ hs =>
    rw [ObsType.observe] at ho
    obtain ⟨⟨y, cfg1, r1⟩, h1, ho⟩ := bind_ok ho
    cases ho
    unfold ObsType.observeKinematics at h1
    cases hr : s.road with
    | none =>
      rw [hr] at h1
      cases h1
      refine ⟨?_, .kinematics _ _ hs⟩
      rw [← hr]
    | some r =>
      rw [hr] at h1
      obtain ⟨w, -, h1⟩ := bind_ok h1
      obtain ⟨⟨rows, cfg2, rng⟩, h2, h1⟩ := bind_ok h1
      cases h1
      obtain ⟨e1, e2⟩ := kin_quiet hs h2
      refine ⟨?_, .kinematics _ _ e2⟩
      rw [e1, ← hr]
  | .occupancy oc v, s, x, o', s', _, ho => by
    rw [ObsType.observe] at ho
    obtain ⟨⟨g, oc'⟩, -, ho⟩ := bind_ok ho
    cases ho; exact ⟨rfl, .occupancy _ _⟩
  | .goal fs sc v, s, x, o', s', _, ho => by
    rw [ObsType.observe] at ho
    obtain ⟨y, -, ho⟩ := bind_ok ho
    cases ho; exact ⟨rfl, .goal _ _ _⟩
  | .image w n m planes, s, x, o', s', _, ho => by
    rw [ObsType.observe] at ho
    obtain ⟨y, -, ho⟩ := bind_ok ho
    cases ho; exact ⟨rfl, .image _ _ _ _⟩
  | .attributes names, s, x, o', s', _, ho => by
    rw [ObsType.observe] at ho
    obtain ⟨y, -, ho⟩ := bind_ok ho
    cases ho; exact ⟨rfl, .attributes _⟩
  | .multi l, s, x, o', s', hq, ho => by
    cases hq with
    | multi _ hl =>
    rw [ObsType.observe] at ho
    obtain ⟨⟨xs, l', s1⟩, h1, ho⟩ := bind_ok ho
    cases ho
    obtain ⟨e1, e2⟩ := observeList_quiet G l _ _ _ _ hl h1
    exact ⟨e1, .multi _ e2⟩
theorem observeList_quiet (G : Globals) : ∀ (l : List ObsType) (s : Scene) (xs : List Obs) (l' : List ObsType) (s' : Scene),
    (∀ o ∈ l, Quiet o) → ObsType.observeList G l s = .ok (xs, l', s') → s' = s ∧ ∀ o ∈ l', Quiet o
  | [], s, xs, l', s', _, ho => by
    rw [ObsType.observeList] at ho
    cases ho; exact ⟨rfl, by simp⟩
  | o :: l, s, xs, l', s', hq, ho => by
    rw [ObsType.observeList] at ho
    obtain ⟨⟨y, o1, s1⟩, h1, ho⟩ := bind_ok ho
    obtain ⟨⟨ys, l1, s2⟩, h2, ho⟩ := bind_ok ho
    cases ho
    obtain ⟨e1, e2⟩ := observe_quiet G o _ _ _ _ (hq o (by simp)) h1
    obtain ⟨e3, e4⟩ := observeList_quiet G l _ _ _ _ (fun o ho => hq o (by simp [ho])) h2
    refine ⟨e3.trans e1, fun o ho => ?_⟩
    rcases List.mem_cons.1 ho with rfl | ho
    · exact e2
    · exact e4 o ho
end

theorem full_observe_ok {G : Globals} {c : SimConfig} {view : View} {f f' : Full} {x : Obs} (h : f.observe G c view = .ok (x, f')) :
    ∃ o s, f.observer.observe (view.classes G) (f.env.scene view c) = .ok (x, o, s) ∧ f' = ⟨f.env.observed s, o⟩ := by
  unfold Full.observe at h
  obtain ⟨⟨y, o, s⟩, h1, h⟩ := bind_ok h
  cases h
  exact ⟨o, s, h1, rfl⟩

private theorem full_quiet {G : Globals} {c : SimConfig} {view : View} {f f' : Full} {x : Obs} (hq : Quiet f.observer)
    (h : f.observe G c view = .ok (x, f')) : f'.env = f.env ∧ Quiet f'.observer ∧
      f.observer.observe (view.classes G) (f.env.scene view c) = .ok (x, f'.observer, f.env.scene view c) := by
  obtain ⟨o, s, h1, rfl⟩ := full_observe_ok h
  obtain ⟨rfl, e2⟩ := observe_quiet _ _ _ _ _ _ hq h1
  exact ⟨rfl, e2, h1⟩

theorem step_split (G : Globals) (c : SimConfig) (cls : EnvClass) (e : Env) (a : Option AgentAction) :
    e.step G c cls a = if e.controlled = [] then .error .notImplementedError else
      (Env.simulate G c cls a { e with steps := e.steps + 1 }).bind fun e => Full.conclude cls e a := rfl

/-- C102: `step` with an observer that does not shuffle does to the environment, and returns, exactly what it does without observing, together
with an observation of the state reached by the simulation; if the observer raises, so does `step`. -/
theorem step_with_observation (G : Globals) (c : SimConfig) (cls : EnvClass) (view : View) (f : Full) (hq : Quiet f.observer)
    (a : Option AgentAction) :
    (∀ x res f', f.step G c cls view a = .ok (x, res, f') → f.env.step G c cls a = .ok (f'.env, res) ∧ Quiet f'.observer ∧
      ∃ e, Env.simulate G c cls a { f.env with steps := f.env.steps + 1 } = .ok e ∧
        f.observer.observe (view.classes G) (e.scene view c) = .ok (x, f'.observer, e.scene view c)) ∧
    (∀ e' res, f.env.step G c cls a = .ok (e', res) → ∃ e, Env.simulate G c cls a { f.env with steps := f.env.steps + 1 } = .ok e ∧
      (∀ x o s, f.observer.observe (view.classes G) (e.scene view c) = .ok (x, o, s) → f.step G c cls view a = .ok (x, res, ⟨e', o⟩)) ∧
      ∀ err, f.observer.observe (view.classes G) (e.scene view c) = .error err → f.step G c cls view a = .error err) := by
  constructor
  · intro x res f' h
    unfold Full.step at h
    by_cases hc : f.env.controlled = []
    · rw [if_pos hc] at h; cases h
    rw [if_neg hc] at h
    obtain ⟨e, h1, h⟩ := bind_ok h
    obtain ⟨⟨y, f1⟩, h2, h⟩ := bind_ok h
    obtain ⟨⟨e1, r1⟩, h3, h⟩ := bind_ok h
    cases h
    obtain ⟨q1, q2, q3⟩ := full_quiet (f := ⟨e, f.observer⟩) hq h2
    dsimp only at q1 h3
    rw [q1] at h3
    refine ⟨?_, q2, e, h1, q3⟩
    rw [step_split, if_neg hc, h1]
    exact h3
  · intro e' res h
    rw [step_split] at h
    by_cases hc : f.env.controlled = []
    · rw [if_pos hc] at h; cases h
    rw [if_neg hc] at h
    obtain ⟨e, h1, h⟩ := bind_ok h
    refine ⟨e, h1, fun x o s ho => ?_, fun err ho => ?_⟩
    · obtain ⟨rfl, -⟩ := observe_quiet _ _ _ _ _ _ hq ho
      unfold Full.step Full.observe
      rw [if_neg hc, h1]
      simp only [bind, Except.bind, ho]
      simp only [pure, Except.pure]
      have : Env.observed e (e.scene view c) = e := rfl
      simp only [this, h]
    · unfold Full.step Full.observe
      rw [if_neg hc, h1]
      simp only [bind, Except.bind, ho]

/-- C102: playing with an observer is playing: whatever is played, the states and the results are those of the episode without observation. -/
theorem play_episode (G : Globals) (c : SimConfig) (cls : EnvClass) (view : View) (f f' : Full) (hq : Quiet f.observer) (as : List AgentAction)
    (rs : List (Obs × StepResult)) (h : Play G c cls view f as rs f') :
    Episode G c cls f.env as (rs.map Prod.snd) f'.env ∧ Quiet f'.observer := by
  induction h with
  | start => exact ⟨.start, hq⟩
  | step _ hs ih =>
    obtain ⟨h1, h2⟩ := ih
    obtain ⟨e1, e2, -⟩ := (step_with_observation G c cls view _ h2 _).1 _ _ _ hs
    rw [List.map_append]
    exact ⟨.step h1 e1, e2⟩

private theorem episode_unique {G : Globals} {c : SimConfig} {cls : EnvClass} {e e1 e2 : Env} {as : List AgentAction} {rs1 rs2 : List StepResult}
    (h1 : Episode G c cls e as rs1 e1) (h2 : Episode G c cls e as rs2 e2) : rs1 = rs2 ∧ e1 = e2 := by
  induction h1 generalizing rs2 e2 with
  | start =>
    generalize hx : ([] : List AgentAction) = l at h2
    cases h2 with
    | start => exact ⟨rfl, rfl⟩
    | step _ _ => simp at hx
  | @step as' rs' ea eb a res hp hs ih =>
    generalize hx : as' ++ [a] = l at h2
    cases h2 with
    | start => simp at hx
    | step hp' hs' =>
      obtain ⟨rfl, hx2⟩ := List.append_inj' hx rfl
      cases hx2
      obtain ⟨rfl, rfl⟩ := ih hp'
      rw [hs] at hs'
      cases hs'
      exact ⟨rfl, rfl⟩

/-- C102: the choice of the observation is only a point of view: two environments in the same state given the same actions, whatever their
observers (that do not shuffle), go through the same states and return the same rewards, terminal flags and infos. -/
theorem observers_irrelevant (G : Globals) (c : SimConfig) (cls : EnvClass) (view view' : View) (f g f' g' : Full) (hq : Quiet f.observer)
    (hq' : Quiet g.observer) (he : f.env = g.env) (as : List AgentAction) (rs rs' : List (Obs × StepResult))
    (h : Play G c cls view f as rs f') (h' : Play G c cls view' g as rs' g') : f'.env = g'.env ∧ rs.map Prod.snd = rs'.map Prod.snd := by
  obtain ⟨e1, -⟩ := play_episode G c cls view f f' hq as rs h
  obtain ⟨e2, -⟩ := play_episode G c cls view' g g' hq' as rs' h'
  rw [← he] at e2
  obtain ⟨h1, h2⟩ := episode_unique e1 e2
  exact ⟨h2, h1⟩

/-- C102: observing, with or without shuffling, changes nothing of the environment but the state of its random generator, so that the reward, the
terminal flag, the speed, the crash flag and the cost of the same step do not depend on it. -/
theorem observing_changes_generator_only (G : Globals) (c : SimConfig) (cls : EnvClass) (hd : Deterministic cls) (view : View) (f f' : Full) (x : Obs)
    (h : f.observe G c view = .ok (x, f')) :
    SameButRandom f.env f'.env ∧ ∀ a e1 r1 e2 r2, Full.conclude cls f.env a = .ok (e1, r1) → Full.conclude cls f'.env a = .ok (e2, r2) → r1 = r2 := by
  obtain ⟨o, s, h1, rfl⟩ := full_observe_ok h
  have hs : ∃ rng, s.road = some { f.env.road with rng := rng } := by
    have hn : NoRandom (fun s => ∃ rng, s.road = some { f.env.road with rng := rng }) := by
      rintro s ⟨g, hg⟩ r rng hr
      rw [hg] at hr
      cases hr
      exact ⟨rng, rfl⟩
    exact observe_scene _ hn _ _ _ _ _ h1 ⟨f.env.road.rng, rfl⟩
  obtain ⟨rng, hr⟩ := hs
  have hsame : SameButRandom f.env (f.env.observed s) := by
    unfold SameButRandom Env.observed
    rw [hr]
  refine ⟨hsame, fun a e1 r1 e2 r2 c1 c2 => ?_⟩
  have hv : (f.env.observed s).vehicle = f.env.vehicle := by
    unfold Env.observed
    rw [hr]
    rfl
  unfold Full.conclude at c1 c2
  dsimp only at c2
  obtain ⟨x1, a1, c1⟩ := bind_ok c1
  obtain ⟨x2, a2, c1⟩ := bind_ok c1
  obtain ⟨x3, a3, c1⟩ := bind_ok c1
  obtain ⟨x4, a4, c1⟩ := bind_ok c1
  obtain ⟨x5, a5, c1⟩ := bind_ok c1
  obtain ⟨y1, b1, c2⟩ := bind_ok c2
  obtain ⟨y2, b2, c2⟩ := bind_ok c2
  obtain ⟨y3, b3, c2⟩ := bind_ok c2
  obtain ⟨y4, b4, c2⟩ := bind_ok c2
  obtain ⟨y5, b5, c2⟩ := bind_ok c2
  rw [hd.reward _ _ _ hsame, a1] at b1
  rw [hd.terminal _ _ hsame, a2] at b2
  rw [hv, a3] at b3
  unfold Env.tryCost at a4 b4
  rw [hd.cost _ _ hsame, a4] at b4
  cases b1; cases b2; cases b3; cases b4; cases c1; cases c2
  rfl

/-! ## Looking again -/

private theorem foldlM_dims {α : Type} {f : Grid3 → α → Py Grid3}
    (hf : ∀ g a g', f g a = .ok g' → g'.s = g.s ∧ g'.l = g.l ∧ g'.t = g.t) : ∀ (l : List α) (g g' : Grid3), l.foldlM f g = .ok g' →
      g'.s = g.s ∧ g'.l = g.l ∧ g'.t = g.t
  | [], g, g', h => by cases h; exact ⟨rfl, rfl, rfl⟩
  | a :: l, g, g', h => by
    rw [List.foldlM_cons] at h
    obtain ⟨g1, h1, h⟩ := bind_ok h
    obtain ⟨a1, a2, a3⟩ := hf g a g1 h1
    obtain ⟨b1, b2, b3⟩ := foldlM_dims hf l g1 g' h
    exact ⟨b1.trans a1, b2.trans a2, b3.trans a3⟩

private theorem fill_dims {o : Occupancy} {rs : Dict String (ℝ × ℝ)} {rows : List (Dict String ℝ)} {g g' : Grid3}
    (h : o.fillLayers rs rows g = .ok g') : g'.s = g.s ∧ g'.l = g.l ∧ g'.t = g.t := by
  unfold Occupancy.fillLayers at h
  refine foldlM_dims ?_ _ _ _ h
  intro g a g' h
  refine foldlM_dims ?_ _ _ _ h
  intro g d g' h
  unfold Occupancy.put at h
  obtain ⟨c, -, h⟩ := bind_ok h
  split at h
  · obtain ⟨x, -, h⟩ := bind_ok h
    unfold Grid3.write at h
    obtain ⟨_, -, h⟩ := bind_ok h
    obtain ⟨_, -, h⟩ := bind_ok h
    obtain ⟨_, -, h⟩ := bind_ok h
    cases h; exact ⟨rfl, rfl, rfl⟩
  · cases h; exact ⟨rfl, rfl, rfl⟩

private theorem occupancy_again {G : Globals} {o o' : Occupancy} {road : Option Road} {w : Option Vehicle} {g : Grid3}
    (h : o.observe G road w = .ok (g, o')) : o'.observe G road w = .ok (g, o') := by
  cases road with
  | none => unfold Occupancy.observe at h; cases h; rfl
  | some r =>
    unfold Occupancy.observe at h
    dsimp only at h
    by_cases ha : o.absolute = true
    · rw [if_pos ha] at h; cases h
    rw [if_neg ha] at h
    obtain ⟨rows, h1, h⟩ := bind_ok h
    obtain ⟨grid, h2, h⟩ := bind_ok h
    cases h
    obtain ⟨d1, d2, d3⟩ := fill_dims h2
    have hr : Occupancy.ranges G { o with grid := grid, featuresRange := some (o.ranges G) } = o.ranges G := by
      unfold Occupancy.ranges
      dsimp only
      cases o.featuresRange with
      | none => rfl
      | some l => cases l <;> rfl
    have hf : Occupancy.fillLayers { o with grid := grid, featuresRange := some (o.ranges G) } = o.fillLayers := rfl
    unfold Occupancy.observe
    dsimp only
    rw [if_neg ha, h1]
    simp only [bind, Except.bind, hr, hf]
    have hz : Grid3.zeros grid.s grid.l grid.t = Grid3.zeros o.grid.s o.grid.l o.grid.t := by rw [d1, d2, d3]; rfl
    rw [hz, h2]
    rfl

private theorem kinematics_again {G : Globals} {r : Road} {v : Vehicle} {cfg cfg' : KinematicsConfig} {rows : List (List ℝ)} {rng : Rng}
    (hs : cfg.shuffled = false) (h : Kinematics.observe G r v cfg = .ok (rows, cfg', rng)) : Kinematics.observe G r v cfg' = .ok (rows, cfg', rng) := by
  unfold Kinematics.observe at h
  obtain ⟨d, h1, h⟩ := bind_ok h
  obtain ⟨first, h2, h⟩ := bind_ok h
  obtain ⟨others, h3, h⟩ := bind_ok h
  obtain ⟨⟨rows', cfg1⟩, h4, h⟩ := bind_ok h
  cases h
  unfold Kinematics.normalizeRows at h4
  by_cases hn : cfg.normalize = true
  · rw [if_pos hn] at h4
    obtain ⟨rs, h5, h4⟩ := bind_ok h4
    cases h4
    have hr : Kinematics.ranges G r.network v { cfg with featuresRange := some rs } = .ok rs := by
      unfold Kinematics.ranges at h5 ⊢
      dsimp only
      cases hx : cfg.featuresRange with
      | none =>
        rw [hx] at h5
        obtain ⟨ls, -, h5⟩ := bind_ok h5
        cases h5; rfl
      | some l =>
        cases l with
        | nil =>
          rw [hx] at h5
          obtain ⟨ls, -, h5⟩ := bind_ok h5
          cases h5; rfl
        | cons a l =>
          rw [hx] at h5
          cases h5; rfl
    have ht : Kinematics.traffic r v { cfg with featuresRange := some rs } = Kinematics.traffic r v cfg := rfl
    unfold Kinematics.observe Kinematics.normalizeRows
    rw [h1]
    simp only [bind, Except.bind, h2, ht, h3, if_pos hn, hr]
    rfl
  · rw [if_neg hn] at h4
    cases h4
    unfold Kinematics.observe Kinematics.normalizeRows
    rw [h1]
    simp only [bind, Except.bind, h2, h3, if_neg hn]
    rfl

mutual
/-- C102: looking twice at the same state gives the same observation (unless the rows are shuffled or pictures are stacked), and the second look
leaves the observer unchanged. -/
theorem look_again (G : Globals) : ∀ (o : ObsType) (s : Scene) (x : Obs) (o' : ObsType) (s' : Scene),
    Quiet o → NoImage o → o.observe G s = .ok (x, o', s') → o'.observe G s' = .ok (x, o', s')
  | .ttc h v, s, x, o', s', _, _, ho => by
    have ho' := ho
    rw [ObsType.observe] at ho
    obtain ⟨y, -, ho⟩ := bind_ok ho
    cases ho; exact ho'
  | .kinematics cfg v, s, x, o', s', hq, _, ho => by
    have hsame := (observe_quiet G _ _ _ _ _ hq ho).1
    cases hq with
    | kinematics _ _ hs =>
    rw [ObsType.observe] at ho
    obtain ⟨⟨y, cfg1, r1⟩, h1, ho⟩ := bind_ok ho
    cases ho
    rw [hsame, ObsType.observe]
    have : ObsType.observeKinematics G s cfg1 v = .ok (x, cfg1, r1) := by
      unfold ObsType.observeKinematics at h1 ⊢
      cases hr : s.road with
      | none =>
        rw [hr] at h1
        cases h1
        rfl
      | some r =>
        rw [hr] at h1
        obtain ⟨w, hw, h1⟩ := bind_ok h1
        obtain ⟨⟨rows, cfg2, rng⟩, h2, h1⟩ := bind_ok h1
        have e := kinematics_again hs h2
        have hfe : cfg2.features = cfg.features := by
          unfold Kinematics.observe at h2
          obtain ⟨d, -, h2⟩ := bind_ok h2
          obtain ⟨first, -, h2⟩ := bind_ok h2
          obtain ⟨others, -, h2⟩ := bind_ok h2
          obtain ⟨⟨rows', cfg3⟩, h4, h2⟩ := bind_ok h2
          cases h2
          unfold Kinematics.normalizeRows at h4
          split at h4
          · obtain ⟨rs, -, h4⟩ := bind_ok h4
            cases h4; rfl
          · cases h4; rfl
        cases h1
        dsimp only
        rw [hw]
        simp only [bind, Except.bind, e, hfe]
        rfl
    rw [this]
    rw [← hsame]
    rfl
  | .occupancy oc v, s, x, o', s', _, _, ho => by
    rw [ObsType.observe] at ho
    obtain ⟨⟨g, oc'⟩, h1, ho⟩ := bind_ok ho
    cases ho
    rw [ObsType.observe, occupancy_again h1]
    rfl
  | .goal fs sc v, s, x, o', s', _, _, ho => by
    have ho' := ho
    rw [ObsType.observe] at ho
    obtain ⟨y, -, ho⟩ := bind_ok ho
    cases ho; exact ho'
  | .image w n m planes, s, x, o', s', _, hi, ho => by cases hi
  | .attributes names, s, x, o', s', _, _, ho => by
    have ho' := ho
    rw [ObsType.observe] at ho
    obtain ⟨y, -, ho⟩ := bind_ok ho
    cases ho; exact ho'
  | .multi l, s, x, o', s', hq, hi, ho => by
    cases hq with
    | multi _ hl =>
    cases hi with
    | multi _ hl' =>
    rw [ObsType.observe] at ho
    obtain ⟨⟨xs, l', s1⟩, h1, ho⟩ := bind_ok ho
    cases ho
    rw [ObsType.observe, lookList_again G l _ _ _ _ hl hl' h1]
    rfl
theorem lookList_again (G : Globals) : ∀ (l : List ObsType) (s : Scene) (xs : List Obs) (l' : List ObsType) (s' : Scene),
    (∀ o ∈ l, Quiet o) → (∀ o ∈ l, NoImage o) → ObsType.observeList G l s = .ok (xs, l', s') → ObsType.observeList G l' s' = .ok (xs, l', s')
  | [], s, xs, l', s', _, _, ho => by
    have ho' := ho
    rw [ObsType.observeList] at ho
    cases ho; exact ho'
  | o :: l, s, xs, l', s', hq, hi, ho => by
    rw [ObsType.observeList] at ho
    obtain ⟨⟨y, o1, s1⟩, h1, ho⟩ := bind_ok ho
    obtain ⟨⟨ys, l1, s2⟩, h2, ho⟩ := bind_ok ho
    cases ho
    have e1 := look_again G o _ _ _ _ (hq o (by simp)) (hi o (by simp)) h1
    have e2 := lookList_again G l _ _ _ _ (fun o ho => hq o (by simp [ho])) (fun o ho => hi o (by simp [ho])) h2
    have s1 := (observeList_quiet G l _ _ _ _ (fun o ho => hq o (by simp [ho])) h2).1
    subst s1
    rw [ObsType.observeList, e1]
    simp only [bind, Except.bind, e2]
    rfl
end

/-! ## Default ranges -/

/-- C102, the default ranges are frozen at the first look: an observer configured without feature ranges behaves, for ever after, as one
configured with the default ranges for the number of lanes of the road where its vehicle was when it first looked — whatever the number of
lanes of the roads it drives on later. -/
theorem default_ranges_frozen (G : Globals) (cfg : KinematicsConfig) (hd : cfg.featuresRange = none ∨ cfg.featuresRange = some [])
    (hn : cfg.normalize = true) (v : Option ℕ) (s : Scene) (r : Road) (hr : s.road = some r) (ego : Vehicle)
    (hego : ObsType.watched s r v = some ego) (scenes : List Scene) (xs : List Obs) :
    Watch G (.kinematics cfg v) (s :: scenes) xs ↔
      ∃ lanes, r.network.allSideLanes ego.laneIndex = .ok lanes ∧
        Watch G (.kinematics { cfg with featuresRange := some (defaultRanges G lanes.length) } v) (s :: scenes) xs := by
  have key : ∀ lanes, r.network.allSideLanes ego.laneIndex = .ok lanes →
      (ObsType.kinematics cfg v).observe G s =
      (ObsType.kinematics { cfg with featuresRange := some (defaultRanges G lanes.length) } v).observe G s := by
    intro lanes hl
    rw [ObsType.observe, ObsType.observe]
    unfold ObsType.observeKinematics
    rw [hr]
    dsimp only
    rw [hego]
    have : Kinematics.observe G r ego cfg = Kinematics.observe G r ego { cfg with featuresRange := some (defaultRanges G lanes.length) } := by
      have h1 : Kinematics.ranges G r.network ego cfg = .ok (defaultRanges G lanes.length) := by
        unfold Kinematics.ranges
        rcases hd with hd | hd <;> · rw [hd]; simp only [hl, bind, Except.bind]; rfl
      have h2 : Kinematics.ranges G r.network ego { cfg with featuresRange := some (defaultRanges G lanes.length) } =
          .ok (defaultRanges G lanes.length) := rfl
      unfold Kinematics.observe Kinematics.normalizeRows
      simp only [hn, if_true, h1, h2]
      rfl
    simp only [ObsType.need, bind, Except.bind, this]
  constructor
  · intro h
    cases h with
    | cons h ht =>
      have h0 := h
      rw [ObsType.observe] at h
      obtain ⟨⟨y, cfg1, r1⟩, h1, -⟩ := bind_ok h
      unfold ObsType.observeKinematics at h1
      rw [hr] at h1
      dsimp only at h1
      rw [hego] at h1
      obtain ⟨w, hw, h1⟩ := bind_ok h1
      cases hw
      obtain ⟨⟨rows, cfg2, rng⟩, h2, -⟩ := bind_ok h1
      unfold Kinematics.observe at h2
      obtain ⟨d, -, h2⟩ := bind_ok h2
      obtain ⟨first, -, h2⟩ := bind_ok h2
      obtain ⟨others, -, h2⟩ := bind_ok h2
      obtain ⟨⟨rows', cfg3⟩, h4, -⟩ := bind_ok h2
      unfold Kinematics.normalizeRows at h4
      rw [if_pos hn] at h4
      obtain ⟨rs, h5, -⟩ := bind_ok h4
      have : ∃ lanes, r.network.allSideLanes ego.laneIndex = .ok lanes := by
        unfold Kinematics.ranges at h5
        rcases hd with hd | hd <;>
        · rw [hd] at h5
          obtain ⟨ls, hls, -⟩ := bind_ok h5
          exact ⟨ls, hls⟩
      obtain ⟨lanes, hl⟩ := this
      exact ⟨lanes, hl, .cons ((key lanes hl).symm.trans h0) ht⟩
  · rintro ⟨lanes, hl, h⟩
    cases h with
    | cons h ht => exact .cons ((key lanes hl).trans h) ht

/-! ## The contract of gym environments -/

theorem serves_step {G : Globals} {Ok : Scene → Prop} {o : ObsType} {sp : Space} (h : Serves G Ok o sp) {s : Scene} (hs : Ok s) :
    ∃ x o' s', o.observe G s = .ok (x, o', s') ∧ Member sp x ∧ Serves G Ok o' sp := by
  obtain ⟨S, h1, h2⟩ := h
  obtain ⟨x, o', s', h3, h4, h5⟩ := h2 o s h1 hs
  exact ⟨x, o', s', h3, h4, S, h5, h2⟩

private theorem servesList_step {G : Globals} {Ok : Scene → Prop} (hn : NoRandom Ok) {l : List ObsType} {ss : List Space}
    (h : List.Forall₂ (Serves G Ok) l ss) : ∀ s, Ok s → ∃ xs l' s', ObsType.observeList G l s = .ok (xs, l', s') ∧ List.Forall₂ Member ss xs ∧
      List.Forall₂ (Serves G Ok) l' ss := by
  induction h with
  | nil => intro s _; exact ⟨[], [], s, by rw [ObsType.observeList], .nil, .nil⟩
  | @cons o sp l ss h1 _ ih =>
    intro s hs
    obtain ⟨x, o', s1, e1, e2, e3⟩ := serves_step h1 hs
    obtain ⟨xs, l', s2, f1, f2, f3⟩ := ih s1 (observe_scene G hn _ _ _ _ _ e1 hs)
    refine ⟨x :: xs, o' :: l', s2, ?_, .cons e2 f2, .cons e3 f3⟩
    rw [ObsType.observeList, e1]
    simp only [bind, Except.bind, f1]
    rfl

/-- C102: the observers of several agents can be relied upon together if each of them can. -/
theorem serves_multi (G : Globals) (Ok : Scene → Prop) (hn : NoRandom Ok) (l : List ObsType) (ss : List Space)
    (h : List.Forall₂ (Serves G Ok) l ss) : Serves G Ok (.multi l) (.tuple ss) := by
  refine ⟨fun o => ∃ l, o = .multi l ∧ List.Forall₂ (Serves G Ok) l ss, ⟨l, rfl, h⟩, ?_⟩
  rintro _ s ⟨l, rfl, hl⟩ hs
  obtain ⟨xs, l', s', e1, e2, e3⟩ := servesList_step hn hl s hs
  refine ⟨.tuple xs, .multi l', s', ?_, .tuple e2, l', rfl, e3⟩
  rw [ObsType.observe, e1]
  rfl

theorem seen_random (us : List ℕ) : NoRandom (Seen us) := by
  rintro s ⟨h1, h2, r, h3, h4, h5⟩ r' rng hr
  rw [h3] at hr
  cases hr
  exact ⟨h1, h2, _, rfl, h4, h5⟩

private theorem seen_watched {us : List ℕ} {s : Scene} (h : Seen us s) {v : Option ℕ} (hv : ∀ uid, v = some uid → uid ∈ us) :
    ∃ r w, s.road = some r ∧ Observable r ∧ ObsType.watched s r v = some w ∧ w ∈ r.vehicles := by
  obtain ⟨h1, h2, r, h3, h4, h5⟩ := h
  cases v with
  | some uid =>
    obtain ⟨w, hw⟩ := vehicle?_some (h5 uid (hv uid rfl))
    exact ⟨r, w, h3, h4, hw, vehicle?_mem hw⟩
  | none =>
    cases us with
    | nil => exact absurd rfl h1
    | cons u us =>
      obtain ⟨w, hw⟩ := vehicle?_some (h5 u (by simp))
      exact ⟨r, w, h3, h4, by simp [ObsType.watched, h2, hw], vehicle?_mem hw⟩

/-- C102: kinematics observers. -/
theorem kinematics_serves (G : Globals) (us : List ℕ) (cfg : KinematicsConfig) (hc : Normalised cfg) (v : Option ℕ)
    (hv : ∀ uid, v = some uid → uid ∈ us) :
    Serves G (Seen us) (.kinematics cfg v) (.box (-1) 1 [cfg.vehiclesCount.toNat, cfg.features.length]) := by
  refine ⟨fun o => ∃ cfg', o = .kinematics cfg' v ∧ Normalised cfg' ∧ cfg'.vehiclesCount = cfg.vehiclesCount ∧ cfg'.features = cfg.features,
    ⟨cfg, rfl, hc, rfl, rfl⟩, ?_⟩
  rintro _ s ⟨cfg', rfl, h1, h2, h3⟩ hs
  obtain ⟨r, w, a1, a2, a3, a4⟩ := seen_watched hs hv
  obtain ⟨x, o', rng, h⟩ := kin_observes (G := G) a1 a2 h1.ok a3 a4
  obtain ⟨m, cfg2, rfl, b1, b2, b3⟩ := kin_step h1 h
  rw [h2, h3] at m
  exact ⟨x, _, _, h, m, cfg2, rfl, b1, b2.trans h2, b3.trans h3⟩

/-- C102: occupancy grids. -/
theorem occupancy_serves (G : Globals) (us : List ℕ) (o : Occupancy) (ho : OccupancyOk G o) (ha : o.absolute = false)
    (hf : ∀ f ∈ o.features, f ∈ featureNames) (v : Option ℕ) (hv : ∀ uid, v = some uid → uid ∈ us) :
    Serves G (Seen us) (.occupancy o v) (.box (-1) 1 [o.grid.s, o.grid.l, o.grid.t]) := by
  refine ⟨fun x => ∃ o', x = .occupancy o' v ∧ OccupancyOk G o' ∧ o'.absolute = false ∧ o'.features = o.features ∧ o'.grid.s = o.grid.s ∧
    o'.grid.l = o.grid.l ∧ o'.grid.t = o.grid.t, ⟨o, rfl, ho, ha, rfl, rfl, rfl, rfl⟩, ?_⟩
  rintro _ s ⟨o1, rfl, h1, h2, h3, h4, h5, h6⟩ hs
  obtain ⟨r, w, a1, a2, a3, a4⟩ := seen_watched hs hv
  have hw : (s.road.bind fun r => ObsType.watched s r v) = some w := by rw [a1]; exact a3
  obtain ⟨g, o2, hobs⟩ := occupancy_never_raises G o1 h1 h2 (by rw [h3]; exact hf) s.road (some w) (by
    intro r' hr'
    rw [a1] at hr'
    cases hr'
    exact ⟨fun v hv => (a2.2 v hv).2, fun ego he => by cases he; exact (a2.2 _ a4).2⟩)
  obtain ⟨f1, f2, f3, f4, f5, f6, f7⟩ := occ_step h1 hobs
  have hkeep : o2.absolute = o1.absolute ∧ o2.features = o1.features := by
    rw [a1] at hobs
    unfold Occupancy.observe at hobs
    dsimp only at hobs
    split at hobs
    · cases hobs
    · obtain ⟨rows, -, hobs⟩ := bind_ok hobs
      obtain ⟨grid, -, hobs⟩ := bind_ok hobs
      cases hobs
      exact ⟨rfl, rfl⟩
  refine ⟨.array (ObsType.ofGrid g), .occupancy o2 v, s, ?_, ?_, o2, rfl, f4, hkeep.1.trans h2, hkeep.2.trans h3, f5.trans h4, f6.trans h5, f7.trans h6⟩
  · rw [ObsType.observe, hw, hobs]
    rfl
  · refine .box (by simp [ObsType.ofGrid, f1, f2, f3, h4, h5, h6]) fun idx hidx => ?_
    obtain ⟨i, j, k, rfl, -⟩ := inside3 hidx
    exact occupancy_bounded G o1 o2 _ _ g hobs i j k

theorem ready_random {c : SimConfig} {e e' : Env} (h : SameButRandom e e') (hr : Ready c e) : Ready c e' := by
  rw [h]
  exact ⟨⟨hr.healthy.wf, hr.healthy.attached, hr.healthy.linear, hr.healthy.regulated⟩, ⟨hr.manned.distinct, hr.manned.onRoad, hr.manned.someone⟩,
    hr.fitted, hr.constructed, hr.dt⟩

/-- C102: an environment whose methods are reliable, with an observer that can be relied upon, honours the contract of `step`: from a ready
state, whatever actions of the action space are played, and however many, every call returns; what it returns as observation belongs to the
observation space.  (`I` is any property that is kept and that does not depend on the state of the generator.) -/
theorem play_contract (G : Globals) (c : SimConfig) (cls : EnvClass) (view : View) (I : Env → Prop) (hcls : Reliable G c cls I)
    (hrand : ∀ e e', SameButRandom e e' → I e → I e') (Ok : Scene → Prop) (hok : ∀ e, Ready c e → I e → Ok (e.scene view c))
    (hc : c.policyFrequency ≠ 0) (f : Full) (sp : Space) (hs : Serves (view.classes G) Ok f.observer sp) (h : Ready c f.env) (hI : I f.env)
    (as : List AgentAction) (ha : ∀ a ∈ as, InEnvSpace c.action a) :
    ∃ rs f', Play G c cls view f as rs f' ∧ rs.length = as.length ∧ (∀ r ∈ rs, Member sp r.1 ∧ Judged c cls I as r.2) ∧
      Serves (view.classes G) Ok f'.observer sp ∧ Ready c f'.env ∧ I f'.env := by
  induction as using List.reverseRecOn with
  | nil => exact ⟨[], f, .start, rfl, by simp, hs, h, hI⟩
  | append_singleton as a ih =>
    obtain ⟨rs, f1, h1, h2, h3, h4, h5, h6⟩ := ih fun x hx => ha x (by simp [hx])
    have r0 : Ready c { f1.env with steps := f1.env.steps + 1 } := ready_run f1.env.time _ h5 (.refl (G := G) _)
    have i0 : I { f1.env with steps := f1.env.steps + 1 } := hcls.lasting f1.env f1.env.road f1.env.time _ h6 (.refl _)
    obtain ⟨r, t, hsim, hrun, hr1, hi1⟩ := simulate_outcome G c cls I hcls hc _ r0 i0 a (ha a (by simp))
    obtain ⟨x, o', s', e1, e2, e3⟩ := serves_step h4 (hok _ hr1 hi1)
    have hobs : Full.observe G c view ⟨{ f1.env with steps := f1.env.steps + 1, road := r, time := t }, f1.observer⟩ =
        .ok (x, ⟨({ f1.env with steps := f1.env.steps + 1, road := r, time := t } : Env).observed s', o'⟩) := by
      unfold Full.observe
      rw [e1]
      rfl
    have hsame : SameButRandom { f1.env with steps := f1.env.steps + 1, road := r, time := t }
        (({ f1.env with steps := f1.env.steps + 1, road := r, time := t } : Env).observed s') := by
      have hs : ∃ rng, s'.road = some { r with rng := rng } := by
        have hn : NoRandom (fun s => ∃ rng, s.road = some { r with rng := rng }) := by
          rintro s ⟨g, hg⟩ r' rng hr
          rw [hg] at hr
          cases hr
          exact ⟨rng, rfl⟩
        exact observe_scene _ hn _ _ _ _ _ e1 ⟨r.rng, rfl⟩
      obtain ⟨rng, hr⟩ := hs
      unfold SameButRandom Env.observed
      rw [hr]
    generalize hE : ({ f1.env with steps := f1.env.steps + 1, road := r, time := t } : Env).observed s' = E at hobs hsame
    have hr2 := ready_random hsame hr1
    have hi2 := hrand _ _ hsame hi1
    obtain ⟨x1, hx1⟩ := hcls.reward E a hr2 hi2 (ha a (by simp))
    obtain ⟨x2, hx2⟩ := hcls.terminal E hr2 hi2
    obtain ⟨x3, hx3, -⟩ := vehicle_total hr2
    have hcost : ∃ y, Env.tryCost cls E = .ok y := by
      unfold Env.tryCost
      rcases hcls.cost E hr2 hi2 with ⟨y, hy⟩ | hy
      · rw [hy]; exact ⟨_, rfl⟩
      · rw [hy]; exact ⟨_, rfl⟩
    obtain ⟨x4, hx4⟩ := hcost
    obtain ⟨e2', hx5, hr3, hi3⟩ := hcls.after E hr2 hi2
    have hcon : Full.conclude cls E (some a) = .ok (e2', ⟨x1, x2, x3.speed, x3.crashed, x4⟩) := by
      unfold Full.conclude
      simp only [hx1, hx2, hx3, hx4, hx5, bind, Except.bind]
      rfl
    refine ⟨rs ++ [(x, ⟨x1, x2, x3.speed, x3.crashed, x4⟩)], ⟨e2', o'⟩, .step h1 ?_, by simp [h2], ?_, e3, hr3, hi3⟩
    · unfold Full.step
      rw [if_neg h5.manned.someone, hsim]
      simp only [bind, Except.bind, hobs, hcon]
      rfl
    · intro y hy
      rcases List.mem_append.1 hy with hy | hy
      · obtain ⟨m, E', a', j1, j2, j3, j4, j5⟩ := h3 y hy
        exact ⟨m, E', a', j1, j2, by simp [j3], j4, j5⟩
      · simp only [List.mem_singleton] at hy
        subst hy
        exact ⟨e2, E, a, hr2, hi2, by simp, hx1, hx2, x3, hx3, rfl, rfl⟩

/-- C102: resetting and then playing.  If the spaces can be defined before and after the reset, the new state is ready and the observer built for
it can be relied upon, then `reset` returns an observation of the declared observation space, and whatever actions of the declared action space
are played afterwards, every `step` returns, with an observation of the declared observation space. -/
theorem reset_contract (G : Globals) (c : SimConfig) (cls : EnvClass) (view : View) (I : Env → Prop) (hcls : Reliable G c cls I)
    (hrand : ∀ e e', SameButRandom e e' → I e → I e') (Ok : Scene → Prop) (hok : ∀ e, Ready c e → I e → Ok (e.scene view c))
    (hc : c.policyFrequency ≠ 0) (od : ObsDict) (ad : ActDict) (make : Factory.Built → Py Env) (old : Scene) (first : Factory.Spaces)
    (hold : Factory.defineSpaces (view.classes G) od ad old = .ok first) (e : Env) (hmake : make first.action = .ok e) (h : Ready c e) (hI : I e)
    (sp : Factory.Spaces) (hsp : Factory.defineSpaces (view.classes G) od ad (e.scene view c) = .ok sp) (hact : SameType sp.action c.action)
    (hs : Serves (view.classes G) Ok sp.observer sp.observationSpace) :
    ∃ x sp' f, Full.reset G od ad c view make old = .ok (x, sp', f) ∧ sp'.observationSpace = sp.observationSpace ∧ sp'.actionSpace = sp.actionSpace ∧
      Member sp'.observationSpace x ∧ SameButRandom e f.env ∧
      ∀ as, (∀ a ∈ as, Playable sp'.actionSpace a) → ∃ rs f', Play G c cls view f as rs f' ∧ rs.length = as.length ∧
        (∀ r ∈ rs, Member sp'.observationSpace r.1 ∧ Judged c cls I as r.2) ∧ Ready c f'.env ∧ I f'.env := by
  obtain ⟨x, o', s', e1, e2, e3⟩ := serves_step hs (hok e h hI)
  have hobs : Full.observe G c view ⟨e, sp.observer⟩ = .ok (x, ⟨e.observed s', o'⟩) := by
    unfold Full.observe
    rw [e1]
    rfl
  have hsame : SameButRandom e (e.observed s') := by
    have hs : ∃ rng, s'.road = some { e.road with rng := rng } := by
      have hn : NoRandom (fun s => ∃ rng, s.road = some { e.road with rng := rng }) := by
        rintro s ⟨g, hg⟩ r' rng hr
        rw [hg] at hr
        cases hr
        exact ⟨rng, rfl⟩
      exact observe_scene _ hn _ _ _ _ _ e1 ⟨e.road.rng, rfl⟩
    obtain ⟨rng, hr⟩ := hs
    unfold SameButRandom Env.observed
    rw [hr]
  refine ⟨x, { sp with observer := o' }, ⟨e.observed s', o'⟩, ?_, rfl, rfl, e2, hsame, fun as ha => ?_⟩
  · unfold Full.reset
    rw [hold]
    simp only [bind, Except.bind, hmake, hsp, hobs]
    rfl
  · obtain ⟨rs, f', a1, a2, a3, -, a4, a5⟩ := play_contract G c cls view I hcls hrand Ok hok hc ⟨e.observed s', o'⟩ sp.observationSpace e3
      (ready_random hsame h) (hrand _ _ hsame hI) as (fun a hmem => by
        have := ha a hmem
        dsimp only at this
        rw [(define_ok hsp).2.2.2] at this
        exact (declared_actions_accepted sp.action c.action hact a this).1)
    exact ⟨rs, f', a1, a2, a3, a4, a5⟩

private theorem kinematics_defined (G : Globals) (q : ObsParams) (hq : q.type = some "Kinematics") (hn : Normalised (Factory.kinematics q)) (od : ObsDict)
    (hod : od = .flat q ∨ ∃ p, p.type = some "MultiAgentObservation" ∧ od = .nested p (.flat q)) (ad : ActDict) (s : Scene) (b : Factory.Built)
    (hb : Factory.action s.controlled ad = .ok b) :
    ∃ sp, Factory.defineSpaces G od ad s = .ok sp ∧ sp.action = b ∧ ∀ us, us = s.controlled → Serves G (Seen us) sp.observer sp.observationSpace := by
  have hflat : ∀ c, Factory.observer c (.flat q) = .ok (.kinematics (Factory.kinematics q) none) := by
    intro c
    rw [Factory.observer, hq]; rfl
  unfold Factory.defineSpaces
  rw [hb]
  rcases hod with rfl | ⟨p, hp, rfl⟩
  · rw [hflat]
    simp only [bind, Except.bind]
    rw [ObsType.space]
    exact ⟨_, rfl, rfl, fun us _ => kinematics_serves G us _ hn none (by simp)⟩
  · have hm : Factory.observer s.controlled (.nested p (.flat q)) =
        .ok (.multi (s.controlled.map fun uid => .kinematics (Factory.kinematics q) (some uid))) := by
      rw [Factory.observer, hp]
      simp only [Factory.keyed, bind, Except.bind, if_true]
      have : ∀ l : List ℕ, l.mapM (fun uid => (Factory.observer s.controlled (.flat q)).map (Factory.bind uid)) =
          .ok (l.map fun uid => .kinematics (Factory.kinematics q) (some uid)) := by
        intro l
        induction l with
        | nil => rfl
        | cons a l ih => rw [List.mapM_cons, ih, hflat]; rfl
      rw [this]
      rfl
    rw [hm]
    simp only [bind, Except.bind]
    rw [ObsType.space]
    have hl : ∀ l : List ℕ, ∃ ss, ObsType.spaceList G s (l.map fun uid => .kinematics (Factory.kinematics q) (some uid)) = .ok ss ∧
        ∀ us, (∀ uid ∈ l, uid ∈ us) → List.Forall₂ (Serves G (Seen us)) (l.map fun uid => .kinematics (Factory.kinematics q) (some uid)) ss := by
      intro l
      induction l with
      | nil => exact ⟨[], by rw [List.map_nil, ObsType.spaceList], fun _ _ => .nil⟩
      | cons a l ih =>
        obtain ⟨ss, h1, h2⟩ := ih
        refine ⟨.box (-1) 1 [(Factory.kinematics q).vehiclesCount.toNat, (Factory.kinematics q).features.length] :: ss, ?_, fun us hus => ?_⟩
        · rw [List.map_cons, ObsType.spaceList, ObsType.space, h1]
          rfl
        · rw [List.map_cons]
          exact .cons (kinematics_serves G us _ hn (some a) (fun u hu => by cases hu; exact hus a (by simp))) (h2 us fun u hu => hus u (by simp [hu]))
    obtain ⟨ss, h1, h2⟩ := hl s.controlled
    rw [h1]
    exact ⟨_, rfl, rfl, fun us hus => serves_multi G _ (seen_random us) _ _ (h2 us (by rw [hus]; exact fun _ h => h))⟩

/-- C102: **the highway environment is a gym environment.**  With normalised kinematics observations — of one agent or of all the controlled
vehicles — and any action type of the configuration, for any seed and whatever was there before: `reset` returns an observation of the declared
observation space; then any sequence of actions of the declared action space, of any length, can be played; every `step` returns an observation of
the declared space and a reward in `[0, 1]`. -/
theorem highway_contract (G : Globals) (cfg : HighwayConfig) (hc : HighwayOk cfg) (hcol : cfg.collisionReward ≤ 0) (hp : cfg.sim.policyFrequency ≠ 0)
    (view : View) (q : ObsParams) (hq : q.type = some "Kinematics") (hn : Normalised (Factory.kinematics q)) (od : ObsDict)
    (hod : od = .flat q ∨ ∃ p, p.type = some "MultiAgentObservation" ∧ od = .nested p (.flat q)) (ad : ActDict)
    (had : ∀ us, ∃ b, Factory.action us ad = .ok b ∧ SameType b cfg.sim.action) (rng : Rng) (old : Scene) :
    ∃ x sp f, Full.reset G od ad cfg.sim view (fun _ => Highway.reset G cfg rng) old = .ok (x, sp, f) ∧ Member sp.observationSpace x ∧
      ∀ as, (∀ a ∈ as, Playable sp.actionSpace a) → ∃ rs f', Play G cfg.sim (Highway.cls cfg) view f as rs f' ∧ rs.length = as.length ∧
        ∀ r ∈ rs, Member sp.observationSpace r.1 ∧ 0 ≤ r.2.reward ∧ r.2.reward ≤ 1 := by
  obtain ⟨e, h1, h2, h3, h4, h5, h6, h7, h8, h9, h10, h11⟩ := highway_reset G cfg hc rng
  have hrel := highway_reliable G cfg cfg.lanesCount hc.lanes 10000
  let I : Env → Prop := fun f => f.road.network = straightNet cfg.lanesCount 10000 ∧ Observable f.road ∧ f.controlled = e.controlled
  have hreli : Reliable G cfg.sim (Highway.cls cfg) I := {
    lasting := fun f r t s h hr => ⟨hrel.lasting f r t s h.1 hr, ⟨by
      show WellFormed r.network
      rw [run_network hr]; exact h.2.1.1, by
      show ∀ v ∈ r.vehicles, Attached r.network v ∧ RouteEnd r.network v.route
      rw [run_network hr]; exact routeEnd_forever G _ _ h.2.1.1 h.2.1.2 hr⟩, h.2.2⟩
    terminal := fun f h hI => hrel.terminal f h hI.1
    reward := fun f a h hI ha => hrel.reward f a h hI.1 ha
    cost := fun f h hI => hrel.cost f h hI.1
    after := fun f h hI => ⟨f, rfl, h, hI⟩ }
  have hIe : I e := ⟨h3, ⟨h2.healthy.wf, fun v hv => ⟨(h2.healthy.attached v hv).1, by
    obtain ⟨i, hi⟩ := List.mem_iff_getElem?.1 hv
    rw [(h10 i v hi).2.1.route]
    intro s hs
    cases hs⟩⟩, rfl⟩
  have hrand : ∀ f f', SameButRandom f f' → I f → I f' := by
    intro f f' hs hI
    rw [hs]
    exact hI
  have hok : ∀ f, Ready cfg.sim f → I f → Seen e.controlled (f.scene view cfg.sim) := by
    intro f hr hI
    refine ⟨h2.manned.someone, hI.2.2, f.road, rfl, hI.2.1, ?_⟩
    rw [← hI.2.2]
    exact hr.manned.onRoad
  obtain ⟨b0, hb0, -⟩ := had old.controlled
  obtain ⟨first, hfirst, -⟩ := kinematics_defined (view.classes G) q hq hn od hod ad old b0 hb0
  obtain ⟨b, hb, hbs⟩ := had e.controlled
  obtain ⟨sp, hsp, hspb, hserve⟩ := kinematics_defined (view.classes G) q hq hn od hod ad (e.scene view cfg.sim) b hb
  obtain ⟨x, sp', f, r1, r2, r3, r4, r5, r6⟩ := reset_contract G cfg.sim (Highway.cls cfg) view I hreli hrand (Seen e.controlled) hok hp od ad
    (fun _ => Highway.reset G cfg rng) old first hfirst e h1 h2 hIe sp hsp (by rw [hspb]; exact hbs) (hserve _ rfl)
  refine ⟨x, sp', f, r1, r4, fun as ha => ?_⟩
  obtain ⟨rs, f', p1, p2, p3, -, -⟩ := r6 as ha
  refine ⟨rs, f', p1, p2, fun r hr => ⟨(p3 r hr).1, ?_⟩⟩
  obtain ⟨E, a, j1, j2, -, j4, -⟩ := (p3 r hr).2
  obtain ⟨v, w1, w2, w3, w4⟩ := highway_reward cfg cfg.lanesCount hc.lanes 10000 E j1 j2.1 (some a)
  rw [j4] at w4
  injection w4 with w4
  have hb := score_bounds cfg.collisionReward hcol cfg.rewardSpeedRange cfg.lanesCount (creditedLane v) w2 w3 v.speed v.crashed
  rw [w4]
  split
  · exact ⟨hb.1, hb.2.1⟩
  · norm_num

/-! ### The hypotheses are met -/

theorem default_normalised : Normalised (Factory.kinematics { type := some "Kinematics" }) where
  ok := ⟨by simp [Factory.kinematics, Kinematics.init, featureNames], by simp [Factory.kinematics, Kinematics.init]⟩
  count := by simp [Factory.kinematics, Kinematics.init]
  normalize := by simp [Factory.kinematics, Kinematics.init]
  clip := by simp [Factory.kinematics, Kinematics.init]
  given := by simp [Factory.kinematics, Kinematics.init]
  default := by simp [Factory.kinematics, Kinematics.init]

/-- The default highway environment: reset, then a hundred accelerations. -/
example (rng : Rng) : ∃ x sp f, Full.reset {} (.flat { type := some "Kinematics" }) { outer := { type := some "DiscreteMetaAction" } } {} {}
      (fun _ => Highway.reset {} {} rng) { road := none, controlled := [] } = .ok (x, sp, f) ∧ Member sp.observationSpace x ∧
    ∃ rs f', Play {} {} (Highway.cls {}) {} f (List.replicate 100 (.index 3)) rs f' ∧ rs.length = 100 ∧
      ∀ r ∈ rs, Member sp.observationSpace r.1 ∧ 0 ≤ r.2.reward ∧ r.2.reward ≤ 1 := by
  obtain ⟨x, sp, f, h1, h2, h3⟩ := highway_contract {} {} highway_default_ok.1 (by norm_num) (by norm_num) {} { type := some "Kinematics" } rfl
    default_normalised (.flat { type := some "Kinematics" }) (.inl rfl) { outer := { type := some "DiscreteMetaAction" } }
    (fun us => ⟨.single (.discrete true true), rfl, rfl⟩) rng { road := none, controlled := [] }
  have hsp : sp.actionSpace = .discrete 5 := by
    have h := h1
    unfold Full.reset at h
    obtain ⟨first, -, h⟩ := bind_ok h
    obtain ⟨e, -, h⟩ := bind_ok h
    obtain ⟨sp', hd, h⟩ := bind_ok h
    obtain ⟨⟨y, f1⟩, -, h⟩ := bind_ok h
    cases h
    have hd' := define_ok hd
    dsimp only
    rw [hd'.2.2.2]
    have : sp'.action = .single (.discrete true true) := by
      have := hd'.2.1
      exact (Except.ok.inj this).symm
    rw [this]
    rfl
  obtain ⟨rs, f', p1, p2, p3⟩ := h3 (List.replicate 100 (.index 3)) (by
    intro a ha
    obtain ⟨_, rfl⟩ := List.mem_replicate.1 ha
    rw [hsp]
    exact .discrete (by norm_num))
  exact ⟨x, sp, f, h1, h2, rs, f', p1, by simpa using p2, p3⟩

/-- A class whose results do not depend on the generator. -/
theorem sample_deterministic : Deterministic sampleClass where
  reward := by intro e e' a h; rw [h]; rfl
  terminal := by intro e e' h; rw [h]; rfl
  cost := by intro e e' h; rfl

private theorem sample_observable {r : Road} (hn : r.network = Sample.net) (hv : ∀ v ∈ r.vehicles, Attached Sample.net v ∧ RouteEnd Sample.net v.route) :
    Observable r := ⟨by rw [hn]; exact Sample.net_wf, by rw [hn]; exact hv⟩

private theorem sample_seen_start : Observable sampleEnv.road := by
  refine sample_observable rfl fun v hv => ?_
  have : ∀ u k x s, Attached Sample.net (Sample.car u k x 0 s) ∧ RouteEnd Sample.net (Sample.car u k x 0 s).route := fun u k x s =>
    ⟨⟨⟨0, _, rfl, Sample.net_has0⟩, Graph.getLane_of_hasLane (k := 0) Sample.net_py rfl Sample.net_has0, ⟨0, _, rfl, Sample.net_has0⟩⟩,
      fun s hs => by cases hs⟩
  simp only [sampleEnv, List.mem_cons, List.not_mem_nil, or_false] at hv
  rcases hv with rfl | rfl <;> exact this _ _ _ _

/-- Two players of the sample environment, one seeing the default kinematics and the other nothing (an observer of no attributes): both can play
ten lane changes, and they see the same game. -/
example : ∃ rs f rs' g,
    Play {} {} sampleClass {} ⟨sampleEnv, .kinematics (Factory.kinematics { type := some "Kinematics" }) none⟩ (List.replicate 10 (.index 0)) rs f ∧
    Play {} {} sampleClass {} ⟨sampleEnv, .multi []⟩ (List.replicate 10 (.index 0)) rs' g ∧ rs.length = 10 ∧ f.env = g.env ∧
    rs.map Prod.snd = rs'.map Prod.snd := by
  let I : Env → Prop := fun e => Observable e.road ∧ e.controlled = [0]
  have hrel : Reliable {} {} sampleClass I := {
    lasting := fun f r t s h hr => ⟨⟨by
      show WellFormed r.network
      rw [run_network hr]; exact h.1.1, by
      show ∀ v ∈ r.vehicles, Attached r.network v ∧ RouteEnd r.network v.route
      rw [run_network hr]; exact routeEnd_forever {} _ _ h.1.1 h.1.2 hr⟩, h.2⟩
    terminal := fun e h _ => (sample_reliable {}).terminal e h trivial
    reward := fun e a h _ ha => (sample_reliable {}).reward e a h trivial ha
    cost := fun e h _ => (sample_reliable {}).cost e h trivial
    after := fun e h hI => ⟨e, rfl, h, hI⟩ }
  have hrand : ∀ e e', SameButRandom e e' → I e → I e' := by
    intro e e' h hI; rw [h]; exact hI
  have hok : ∀ e, Ready {} e → I e → Seen [0] (e.scene {} {}) := by
    intro e hr hI
    refine ⟨by simp, hI.2, e.road, rfl, hI.1, ?_⟩
    rw [← hI.2]
    exact hr.manned.onRoad
  have has : ∀ a ∈ List.replicate 10 (AgentAction.index 0), InEnvSpace ({} : SimConfig).action a := by
    intro a ha
    obtain ⟨_, rfl⟩ := List.mem_replicate.1 ha
    exact ⟨le_rfl, by norm_num [AgentType.spaceSize, AgentType.actions]⟩
  obtain ⟨rs, f, p1, p2, -⟩ := play_contract {} {} sampleClass {} I hrel hrand (Seen [0]) hok (by norm_num)
    ⟨sampleEnv, .kinematics (Factory.kinematics { type := some "Kinematics" }) none⟩ _ (kinematics_serves {} [0] _ default_normalised none (by simp))
    sample_ready ⟨sample_seen_start, rfl⟩ _ has
  obtain ⟨rs', g, q1, -⟩ := play_contract {} {} sampleClass {} I hrel hrand (Seen [0]) hok (by norm_num)
    ⟨sampleEnv, .multi []⟩ (.tuple []) (serves_multi {} _ (seen_random [0]) _ _ .nil) sample_ready ⟨sample_seen_start, rfl⟩ _ has
  obtain ⟨e1, e2⟩ := observers_irrelevant {} {} sampleClass {} {}
    ⟨sampleEnv, .kinematics (Factory.kinematics { type := some "Kinematics" }) none⟩ ⟨sampleEnv, .multi []⟩ f g (.kinematics _ _ rfl) (.multi [] (by simp)) rfl _ rs rs' p1 q1
  exact ⟨rs, f, rs', g, p1, q1, by simpa using p2, e1, e2⟩

/-- The default ranges are those of a road with two lanes in the scene of `duoScene`. -/
example : ∃ lanes, Sample.net.allSideLanes (Sample.car 0 .mdp 10 0 20).laneIndex = .ok lanes ∧ lanes.length = 2 ∧
    defaultRanges {} lanes.length = [("x", (-150, 150)), ("y", (-8, 8)), ("vx", (-60, 60)), ("vy", (-60, 60))] := by
  refine ⟨[⟨"0", "1", 0⟩, ⟨"0", "1", 1⟩], ?_, rfl, ?_⟩
  · simp [Sample.net, Sample.car, Graph.allSideLanes, Graph.lanesOf, Dict.getItem, Dict.get?, bind, Except.bind]
    rfl
  · norm_num [defaultRanges]

end HighwayEnv.Props
