import Verif.Spec.Spaces
import Verif.Props.Occupancy
import Verif.Props.FiniteMdp
import Verif.Props.Action

/-!
# C100 — observations and the declared observation space; C101 — configuration and factories
-/

noncomputable section
open Classical
namespace HighwayEnv.Props
open HighwayEnv HighwayEnv.Spec

theorem inside2 {idx : List ℕ} {a b : ℕ} (h : Inside idx [a, b]) : ∃ i j, idx = [i, j] ∧ i < a ∧ j < b := by
  unfold Inside at h
  cases h with | cons h1 h => cases h with | cons h2 h => cases h; exact ⟨_, _, rfl, h1, h2⟩

theorem inside3 {idx : List ℕ} {a b c : ℕ} (h : Inside idx [a, b, c]) : ∃ i j k, idx = [i, j, k] ∧ i < a ∧ j < b ∧ k < c := by
  unfold Inside at h
  cases h with | cons h1 h => cases h with | cons h2 h => cases h with | cons h3 h => cases h; exact ⟨_, _, _, rfl, h1, h2, h3⟩

/-! ## Kinematics -/

private theorem rows_member (rows : List (List ℝ)) (n m : ℕ) (hn : rows.length = n) (hm : ∀ row ∈ rows, row.length = m)
    (hb : ∀ row ∈ rows, ∀ x ∈ row, -1 ≤ x ∧ x ≤ 1) : Member (.box (-1) 1 [n, m]) (.array (ObsType.ofRows rows m)) := by
  refine .box (by simp [ObsType.ofRows, hn]) fun idx hidx => ?_
  obtain ⟨i, j, rfl, hi, hj⟩ := inside2 hidx
  have h1 : i < rows.length := by omega
  have hmem : rows[i] ∈ rows := List.getElem_mem h1
  have h2 : j < rows[i].length := by rw [hm _ hmem]; exact hj
  have e : (ObsType.ofRows rows m).entry [i, j] = rows[i][j] := by
    simp [ObsType.ofRows, List.getElem?_eq_getElem h1, List.getElem?_eq_getElem h2]
  rw [e]
  exact hb _ hmem _ (List.getElem_mem h2)

private theorem kin_cfg {G : Globals} {r : Road} {v : Vehicle} {cfg cfg' : KinematicsConfig} {rows : List (List ℝ)} {rng : Rng}
    (hc : Normalised cfg) (h : Kinematics.observe G r v cfg = .ok (rows, cfg', rng)) :
    Normalised cfg' ∧ cfg'.vehiclesCount = cfg.vehiclesCount ∧ cfg'.features = cfg.features := by
  unfold Kinematics.observe at h
  obtain ⟨d, -, h⟩ := bind_ok h
  obtain ⟨first, -, h⟩ := bind_ok h
  obtain ⟨others, -, h⟩ := bind_ok h
  obtain ⟨⟨rows', cfg1⟩, h1, h⟩ := bind_ok h
  cases h
  unfold Kinematics.normalizeRows at h1
  rw [if_pos hc.normalize] at h1
  obtain ⟨rs, hrs, h1⟩ := bind_ok h1
  cases h1
  refine ⟨?_, rfl, rfl⟩
  unfold Kinematics.ranges at hrs
  have key : (rs.map Prod.fst).Nodup ∧ rs ≠ [] ∧ ∀ f ∈ cfg.features, f ∈ ["x", "y", "vx", "vy", "heading"] → f ∈ rs.map Prod.fst := by
    split at hrs
    · rename_i r0 rs0 hfr
      cases hrs
      exact ⟨hc.ok.ranges _ hfr, by simp, hc.given _ hfr (by simp)⟩
    · rename_i hno
      have hno' : cfg.featuresRange = none ∨ cfg.featuresRange = some [] := by
        cases hfr : cfg.featuresRange with
        | none => exact .inl rfl
        | some l => cases l with
          | nil => exact .inr rfl
          | cons a l => exact absurd hfr (hno a l)
      obtain ⟨ls, -, hrs⟩ := bind_ok hrs
      cases hrs
      refine ⟨by simp [Kinematics.defaultRange], by simp [Kinematics.defaultRange], fun f hf hx => ?_⟩
      have hh := hc.default hno'
      simp only [List.mem_cons, List.not_mem_nil, or_false] at hx
      rcases hx with rfl | rfl | rfl | rfl | rfl
      · simp [Kinematics.defaultRange]
      · simp [Kinematics.defaultRange]
      · simp [Kinematics.defaultRange]
      · simp [Kinematics.defaultRange]
      · exact absurd hf hh
  obtain ⟨k1, k2, k3⟩ := key
  exact {
    ok := ⟨hc.ok.features, fun rs' h' => by cases h'; exact k1⟩
    count := hc.count
    normalize := hc.normalize
    clip := hc.clip
    given := fun rs' h' _ => by cases h'; exact k3
    default := fun h' => by rcases h' with h' | h' <;> cases h'; exact absurd rfl k2 }

theorem kin_step {G : Globals} {s s' : Scene} {cfg : KinematicsConfig} {v : Option ℕ} {x : Obs} {o' : ObsType} (hc : Normalised cfg)
    (h : (ObsType.kinematics cfg v).observe G s = .ok (x, o', s')) :
    Member (.box (-1) 1 [cfg.vehiclesCount.toNat, cfg.features.length]) x ∧
    ∃ cfg', o' = .kinematics cfg' v ∧ Normalised cfg' ∧ cfg'.vehiclesCount = cfg.vehiclesCount ∧ cfg'.features = cfg.features := by
  rw [ObsType.observe] at h
  obtain ⟨⟨ob, cfg1, r1⟩, h1, h⟩ := bind_ok h
  cases h
  unfold ObsType.observeKinematics at h1
  cases hr : s.road with
  | none =>
    rw [hr] at h1
    cases h1
    refine ⟨rows_member _ _ _ (by simp [Kinematics.initial]) ?_ ?_, _, rfl, hc, rfl, rfl⟩
    · intro row hrow
      simp only [Kinematics.initial, List.mem_replicate] at hrow
      rw [hrow.2]; simp
    · intro row hrow y hy
      simp only [Kinematics.initial, List.mem_replicate] at hrow
      rw [hrow.2, List.mem_replicate] at hy
      rw [hy.2]; norm_num
  | some r =>
    rw [hr] at h1
    obtain ⟨w, -, h1⟩ := bind_ok h1
    obtain ⟨⟨rows, cfg2, rng⟩, h2, h1⟩ := bind_ok h1
    cases h1
    obtain ⟨n, hn⟩ := Int.eq_ofNat_of_zero_le (show 0 ≤ cfg.vehiclesCount by have := hc.count; omega)
    have h2n : 2 ≤ n := by have := hc.count; omega
    have hk := kin_cfg hc h2
    obtain ⟨e1, e2, -⟩ := kinematics_rows G r w cfg cfg1 hc.ok n hn h2n rows rng h2
    have e3 := kinematics_bounded G r w cfg cfg1 hc.ok n hn h2n hc.normalize hc.clip hc.given hc.default rows rng h2
    refine ⟨?_, _, rfl, hk⟩
    rw [hn]
    exact rows_member rows _ _ (by simpa using e1) e2 e3

/-- C100: a normalised, clipped kinematics observer of at least two vehicles only ever returns members of the space it declares, whatever the
scenes it is shown (before the first reset too). -/
theorem kinematics_in_space (G : Globals) (cfg : KinematicsConfig) (hc : Normalised cfg) (v : Option ℕ) (s₀ : Scene) :
    ∃ sp, (ObsType.kinematics cfg v).space G s₀ = .ok sp ∧ Keeps G (fun _ => True) (.kinematics cfg v) sp := by
  refine ⟨_, by rw [ObsType.space], ?_⟩
  intro scenes xs h0 hw
  clear h0
  have key : ∀ (scenes : List Scene) (xs : List Obs) (o : ObsType), Watch G o scenes xs → ∀ cfg', o = .kinematics cfg' v → Normalised cfg' → cfg'.vehiclesCount = cfg.vehiclesCount →
      cfg'.features = cfg.features → ∀ x ∈ xs, Member (.box (-1) 1 [cfg.vehiclesCount.toNat, cfg.features.length]) x := by
    clear hw
    intro scenes xs o hw
    induction hw with
    | nil => intro _ _ _ _ _ x hx; cases hx
    | cons h _ ih =>
      rintro cfg' rfl hn e1 e2 x hx
      obtain ⟨m, cfg2, rfl, hn2, f1, f2⟩ := kin_step hn h
      rcases List.mem_cons.1 hx with rfl | hx
      · rw [← e1, ← e2]; exact m
      · exact ih cfg2 rfl hn2 (f1.trans e1) (f2.trans e2) x hx
  exact key _ _ _ hw cfg rfl hc rfl rfl

/-- The default options satisfy the hypotheses. -/
example : Normalised (Factory.kinematics {}) where
  ok := ⟨by simp [Factory.kinematics, Kinematics.init, featureNames], by simp [Factory.kinematics, Kinematics.init]⟩
  count := by simp [Factory.kinematics, Kinematics.init]
  normalize := by simp [Factory.kinematics, Kinematics.init]
  clip := by simp [Factory.kinematics, Kinematics.init]
  given := by simp [Factory.kinematics, Kinematics.init]
  default := by simp [Factory.kinematics, Kinematics.init]

/-! ## Occupancy grids -/

theorem occ_step {G : Globals} {o o' : Occupancy} (ho : OccupancyOk G o) {road : Option Road} {w : Option Vehicle} {g : Grid3}
    (h : o.observe G road w = .ok (g, o')) :
    g.s = o.grid.s ∧ g.l = o.grid.l ∧ g.t = o.grid.t ∧ OccupancyOk G o' ∧ o'.grid.s = o.grid.s ∧ o'.grid.l = o.grid.l ∧ o'.grid.t = o.grid.t := by
  cases road with
  | none => unfold Occupancy.observe at h; cases h; exact ⟨rfl, rfl, rfl, ho, rfl, rfl, rfl⟩
  | some r =>
    obtain ⟨e1, e2, e3, rs, hrs, e4, -⟩ := occupancy_cells G o o' ho r w g h
    have hx : o'.features = o.features ∧ o'.gridStep = o.gridStep ∧ o'.grid.s = g.s ∧ o'.grid.l = g.l ∧ o'.grid.t = g.t := by
      unfold Occupancy.observe at h
      dsimp only at h
      split at h
      · cases h
      · obtain ⟨rows, -, h⟩ := bind_ok h
        obtain ⟨grid, -, h⟩ := bind_ok h
        cases h
        exact ⟨rfl, rfl, rfl, rfl, rfl⟩
    obtain ⟨x1, x2, x3, x4, x5⟩ := hx
    refine ⟨e1.trans ho.layers.symm, e2, e3, ⟨?_, ?_, ?_, ho.speed, ?_⟩, ?_, x4.trans e2, x5.trans e3⟩
    · rw [x3, e1, x1]
    · rw [x2]; exact ho.stepX
    · rw [x2]; exact ho.stepY
    · intro rs' hrs'
      rw [e4] at hrs'
      cases hrs'
      rcases hrs with ⟨a, -⟩ | ⟨-, rfl⟩
      · exact ho.ranges _ a
      · have := ho.speed
        refine ⟨by simp, ?_⟩
        intro fr hfr
        simp only [List.mem_cons, List.not_mem_nil, or_false] at hfr
        rcases hfr with rfl | rfl <;> dsimp only <;> linarith
    · rw [x3, e1, ho.layers]

/-- C100: an occupancy grid observer only ever returns members of the space it declares. -/
theorem occupancy_in_space (G : Globals) (o : Occupancy) (ho : OccupancyOk G o) (v : Option ℕ) (s₀ : Scene) :
    ∃ sp, (ObsType.occupancy o v).space G s₀ = .ok sp ∧ Keeps G (fun _ => True) (.occupancy o v) sp := by
  refine ⟨_, by rw [ObsType.space], ?_⟩
  intro scenes xs h0 hw
  clear h0
  have key : ∀ (scenes : List Scene) (xs : List Obs) (ob : ObsType), Watch G ob scenes xs → ∀ o1, ob = .occupancy o1 v → OccupancyOk G o1 → o1.grid.s = o.grid.s →
      o1.grid.l = o.grid.l → o1.grid.t = o.grid.t → ∀ x ∈ xs, Member (.box (-1) 1 [o.grid.s, o.grid.l, o.grid.t]) x := by
    clear hw
    intro scenes xs ob hw
    induction hw with
    | nil => intro _ _ _ _ _ _ x hx; cases hx
    | cons h _ ih =>
      rintro o1 rfl h1 e1 e2 e3 x hx
      rw [ObsType.observe] at h
      obtain ⟨⟨g, o2⟩, h2, h⟩ := bind_ok h
      cases h
      obtain ⟨f1, f2, f3, f4, f5, f6, f7⟩ := occ_step h1 h2
      rcases List.mem_cons.1 hx with rfl | hx
      · refine .box (by simp [ObsType.ofGrid, f1, f2, f3, e1, e2, e3]) fun idx hidx => ?_
        obtain ⟨i, j, k, rfl, -⟩ := inside3 hidx
        exact occupancy_bounded G o1 o2 _ _ g h2 i j k
      · exact ih o2 rfl f4 (f5.trans e1) (f6.trans e2) (f7.trans e3) x hx
  exact key _ _ _ hw o rfl ho rfl rfl rfl

/-! ## Time to collision -/

theorem ttc_step {G : Globals} {f : ℝ} {v : Option ℕ} {s : Scene} {horizon : ℝ} {x : Obs} (hS : 2 ≤ G.speedCount) (hf : 0 < f)
    (hs : TtcScene G f v s) (h : ObsType.observeTtc G s horizon v = .ok x) :
    Member (.box 0 1 [3, 3, (pyInt (horizon * f)).toNat]) x ∧ ObsType.shapeOf x = [3, 3, (pyInt (horizon * f)).toNat] := by
  obtain ⟨hp, hn | ⟨r, ego, w, ls, h1, h2, h3, h4, h5, h6, h7, h8⟩⟩ := hs
  · unfold ObsType.observeTtc at h
    rw [hn, hp] at h
    cases h
    refine ⟨.box rfl fun idx hidx => ?_, rfl⟩
    obtain ⟨i, j, k, rfl, -⟩ := inside3 hidx
    simp [ObsType.ofGrid, Grid3.zeros]
  unfold ObsType.observeTtc at h
  rw [h1] at h
  dsimp only at h
  rw [h2, h3, hp] at h
  obtain ⟨e, he, h⟩ := bind_ok h
  obtain ⟨w', hw', h⟩ := bind_ok h
  cases he; cases hw'
  obtain ⟨g, hg, h⟩ := bind_ok h
  cases h
  obtain ⟨a1, a2, grid, hgrid, a3, a4⟩ := ttc_observation G r ego.laneIndex w horizon f g hg hS h4 hf ls.length ⟨ls, h7, rfl⟩ h8 h5 h6
  obtain ⟨g1, ⟨ls', g2, g3⟩, g4, -⟩ := ttc_grid G r ego.laneIndex w (1 / f) horizon h4 (by positivity) grid hgrid
  have := roadLanes_unique h4.net g2 h7
  subst this
  have ht : g.t = (pyInt (horizon * f)).toNat := by
    rw [a3]
    have : horizon / (1 / f) = horizon * f := by field_simp
    rw [this] at g4
    omega
  have hshape : (ObsType.ofGrid g).shape = [3, 3, (pyInt (horizon * f)).toNat] := by simp [ObsType.ofGrid, a1, a2, ht]
  refine ⟨.box hshape fun idx hidx => ?_, hshape⟩
  obtain ⟨i, j, k, rfl, hi, hj, hk⟩ := inside3 hidx
  show 0 ≤ g.at' i j k ∧ g.at' i j k ≤ 1
  obtain ⟨k1, k2⟩ := a4 i j k hi hj (by omega)
  by_cases ho : w.laneIndex.id - 1 + j < 0 ∨ (ls'.length : Int) ≤ w.laneIndex.id - 1 + j
  · rw [k1 ho]; norm_num
  · push Not at ho
    rw [k2 (w.laneIndex.id - 1 + j).toNat (by omega) (by omega) (max 0 (min (w.speedIndex - 1 + i) (G.speedCount - 1))).toNat (by omega)]
    rcases ttc_values G r ego.laneIndex w (1 / f) horizon h4 (by positivity) grid hgrid
      (max 0 (min (w.speedIndex - 1 + i) (G.speedCount - 1))).toNat (w.laneIndex.id - 1 + j).toNat k
      (by omega) (by omega) (by omega) with e | e | e <;> rw [e] <;> norm_num

/-- C100: a time-to-collision observer only ever returns members of the space it declared, on roads where the time to collision is defined. -/
theorem ttc_in_space (G : Globals) (f horizon : ℝ) (v : Option ℕ) (hS : 2 ≤ G.speedCount) (hf : 0 < f) (s₀ : Scene) (h₀ : TtcScene G f v s₀)
    (sp : Space) (hsp : (ObsType.ttc horizon v).space G s₀ = .ok sp) (hb : sp ≠ .bare) :
    Keeps G (TtcScene G f v) (.ttc horizon v) sp := by
  have esp : sp = .box 0 1 [3, 3, (pyInt (horizon * f)).toNat] := by
    rw [ObsType.space] at hsp
    cases hx : ObsType.observeTtc G s₀ horizon v with
    | error e =>
      rw [hx] at hsp
      cases e <;> first | (cases hsp; exact absurd rfl hb) | cases hsp
    | ok x =>
      rw [hx] at hsp
      cases hsp
      rw [(ttc_step hS hf h₀ hx).2]
  subst esp
  intro scenes xs hok0 hw
  revert hok0
  have key : ∀ (scenes : List Scene) (xs : List Obs) (ob : ObsType), Watch G ob scenes xs → ob = .ttc horizon v → (∀ s ∈ scenes, TtcScene G f v s) →
      ∀ x ∈ xs, Member (.box 0 1 [3, 3, (pyInt (horizon * f)).toNat]) x := by
    clear hw
    intro scenes xs ob hw
    induction hw with
    | nil => intro _ _ x hx; cases hx
    | cons h _ ih =>
      rintro rfl hok x hx
      rw [ObsType.observe] at h
      obtain ⟨y, h2, h⟩ := bind_ok h
      cases h
      rcases List.mem_cons.1 hx with rfl | hx
      · exact (ttc_step hS hf (hok _ (by simp)) h2).1
      · exact ih rfl (fun s hs => hok s (by simp [hs])) x hx
  exact fun hok => key _ _ _ hw rfl hok

/-! ## Goals, attributes, several agents -/

theorem goal_shape {s : Scene} {fs : List String} {sc : List ℝ} {v : Option ℕ} {x : Obs} (h : ObsType.observeGoal s fs sc v = .ok x) :
    ∃ a b c : List ℝ, a.length = fs.length ∧ b.length = fs.length ∧ c.length = fs.length ∧
      x = .dict [("observation", .array (ObsType.ofList a)), ("achieved_goal", .array (ObsType.ofList b)),
        ("desired_goal", .array (ObsType.ofList c))] := by
  unfold ObsType.observeGoal at h
  split at h
  · cases h
    exact ⟨_, _, _, by simp, by simp, by simp, rfl⟩
  · split at h
    · cases h
    · obtain ⟨⟨a, b, c⟩, h1, h⟩ := bind_ok h
      cases h
      obtain ⟨e1, e2, e3, -⟩ := goalObservation_spec _ _ _ _ _ _ _ _ h1
      exact ⟨a, b, c, e2, by rw [e1]; exact e2, e3, rfl⟩

/-- C100: a goal observer only ever returns members of the space it declared. -/
theorem goal_in_space (G : Globals) (fs : List String) (sc : List ℝ) (v : Option ℕ) (s₀ : Scene) (sp : Space)
    (hsp : (ObsType.goal fs sc v).space G s₀ = .ok sp) (hb : sp ≠ .bare) : Keeps G (fun _ => True) (.goal fs sc v) sp := by
  have esp : sp = .dict [("observation", .free [fs.length]), ("achieved_goal", .free [fs.length]), ("desired_goal", .free [fs.length])] := by
    rw [ObsType.space] at hsp
    cases hx : ObsType.observeGoal s₀ fs sc v with
    | error e =>
      rw [hx] at hsp
      cases e <;> first | (cases hsp; exact absurd rfl hb) | cases hsp
    | ok x =>
      obtain ⟨a, b, c, h1, h2, h3, rfl⟩ := goal_shape hx
      rw [hx] at hsp
      cases hsp
      simp [ObsType.shapeOf, ObsType.ofList, h1, h2, h3]
  subst esp
  intro scenes xs h0 hw
  clear h0
  have key : ∀ (scenes : List Scene) (xs : List Obs) (ob : ObsType), Watch G ob scenes xs → ob = .goal fs sc v → ∀ x ∈ xs,
      Member (.dict [("observation", .free [fs.length]), ("achieved_goal", .free [fs.length]), ("desired_goal", .free [fs.length])]) x := by
    clear hw
    intro scenes xs ob hw
    induction hw with
    | nil => intro _ x hx; cases hx
    | cons h _ ih =>
      rintro rfl x hx
      rw [ObsType.observe] at h
      obtain ⟨y, h2, h⟩ := bind_ok h
      cases h
      rcases List.mem_cons.1 hx with rfl | hx
      · obtain ⟨a, b, c, h1, h2', h3, rfl⟩ := goal_shape h2
        refine .dict rfl (.cons (.free ?_) (.cons (.free ?_) (.cons (.free ?_) .nil))) <;> simp [ObsType.ofList, h1, h2', h3]
      · exact ih rfl x hx
  exact key _ _ _ hw rfl

private theorem attr_get {α : Type} {f : String → NdArray → α} {s : Scene} {names : List String} {vs : List α}
    (h : names.mapM (fun n => (ObsType.getattr s n).map (f n)) = .ok vs) :
    List.Forall₂ (fun n x => ∃ a, Dict.get? s.attributes n = some a ∧ x = f n a) names vs := by
  induction names generalizing vs with
  | nil => cases h; exact .nil
  | cons n ns ih =>
    rw [List.mapM_cons] at h
    obtain ⟨x, h1, h⟩ := bind_ok h
    obtain ⟨xs, h2, h⟩ := bind_ok h
    cases h
    refine .cons ?_ (ih h2)
    unfold ObsType.getattr at h1
    cases hg : Dict.get? s.attributes n with
    | none => rw [hg] at h1; cases h1
    | some a => rw [hg] at h1; cases h1; exact ⟨a, rfl, rfl⟩

/-- C100: an observer of attributes only ever returns members of the space it declared, as long as the attributes keep their shapes. -/
theorem attributes_in_space (G : Globals) (names : List String) (s₀ : Scene) (sp : Space)
    (hsp : (ObsType.attributes names).space G s₀ = .ok sp) (hb : sp ≠ .bare) :
    Keeps G (fun s => ∀ n ∈ names, ∀ a a₀, Dict.get? s.attributes n = some a → Dict.get? s₀.attributes n = some a₀ → a.shape = a₀.shape)
      (.attributes names) sp := by
  rw [ObsType.space] at hsp
  generalize hx : names.mapM (fun n => (ObsType.getattr s₀ n).map fun a => (n, Space.free a.shape)) = p at hsp
  cases p with
  | error e => cases e <;> first | (cases hsp; exact absurd rfl hb) | cases hsp
  | ok ss =>
    cases hsp
    have hss := attr_get (f := fun n a => (n, Space.free a.shape)) hx
    intro scenes xs hok hw
    revert hok
    have key : ∀ (scenes : List Scene) (xs : List Obs) (ob : ObsType), Watch G ob scenes xs → ob = .attributes names →
        (∀ s ∈ scenes, ∀ n ∈ names, ∀ a a₀, Dict.get? s.attributes n = some a → Dict.get? s₀.attributes n = some a₀ → a.shape = a₀.shape) →
        ∀ x ∈ xs, Member (.dict ss) x := by
      clear hw
      intro scenes xs ob hw
      induction hw with
      | nil => intro _ _ x hx; cases hx
      | @cons o o' s s' y rest ys h _ ih =>
        rintro rfl hok x hx
        rw [ObsType.observe] at h
        obtain ⟨vs, h2, h⟩ := bind_ok h
        cases h
        rcases List.mem_cons.1 hx with rfl | hx
        · have hvs := attr_get (f := fun n a => (n, Obs.array a)) h2
          have hok' := hok s (by simp)
          have fin : ∀ (ns : List String) (ss : List (String × Space)) (vs : List (String × Obs)), (∀ n ∈ ns, n ∈ names) →
              List.Forall₂ (fun n x => ∃ a, Dict.get? s₀.attributes n = some a ∧ x = (n, Space.free a.shape)) ns ss →
              List.Forall₂ (fun n x => ∃ a, Dict.get? s.attributes n = some a ∧ x = (n, Obs.array a)) ns vs →
              ss.map Prod.fst = vs.map Prod.fst ∧ List.Forall₂ Member (ss.map Prod.snd) (vs.map Prod.snd) := by
            intro ns
            induction ns with
            | nil => intro ss vs _ h1 h2; cases h1; cases h2; exact ⟨rfl, .nil⟩
            | cons n ns ih2 =>
              intro ss vs hmem h1 h2
              cases h1 with | cons p1 q1 =>
              cases h2 with | cons p2 q2 =>
              obtain ⟨a0, g0, rfl⟩ := p1
              obtain ⟨a, g, rfl⟩ := p2
              obtain ⟨r1, r2⟩ := ih2 _ _ (fun m hm => hmem m (by simp [hm])) q1 q2
              refine ⟨by simp [r1], .cons (.free (hok' n (hmem n (by simp)) a a0 g g0)) r2⟩
          obtain ⟨r1, r2⟩ := fin names ss vs (fun _ h => h) hss hvs
          exact .dict r1 r2
        · exact ih rfl (fun s hs => hok s (by simp [hs])) x hx
    exact fun hok => key _ _ _ hw rfl hok

mutual
/-- Observing a scene changes at most the state of its random generator. -/
theorem observe_scene (G : Globals) {Ok : Scene → Prop} (hn : NoRandom Ok) : ∀ (o : ObsType) (s : Scene) (x : Obs) (o' : ObsType) (s' : Scene),
    o.observe G s = .ok (x, o', s') → Ok s → Ok s'
  | .ttc h v, s, x, o', s', ho, hs => by
    rw [ObsType.observe] at ho
    obtain ⟨y, -, ho⟩ := bind_ok ho
    cases ho; exact hs
  | .kinematics cfg v, s, x, o', s', ho, hs => by
    rw [ObsType.observe] at ho
    obtain ⟨⟨y, c, r⟩, h1, ho⟩ := bind_ok ho
    cases ho
    unfold ObsType.observeKinematics at h1
    cases hr : s.road with
    | none =>
      rw [hr] at h1; cases h1
      have : ({ s with road := none } : Scene) = s := by cases s; cases hr; rfl
      rw [this]; exact hs
    | some r0 =>
      rw [hr] at h1
      obtain ⟨w, -, h1⟩ := bind_ok h1
      obtain ⟨⟨rows, c2, rng⟩, -, h1⟩ := bind_ok h1
      cases h1
      exact hn s hs r0 rng hr
  | .occupancy oc v, s, x, o', s', ho, hs => by
    rw [ObsType.observe] at ho
    obtain ⟨⟨y, c⟩, -, ho⟩ := bind_ok ho
    cases ho; exact hs
  | .goal fs sc v, s, x, o', s', ho, hs => by
    rw [ObsType.observe] at ho
    obtain ⟨y, -, ho⟩ := bind_ok ho
    cases ho; exact hs
  | .image w n m planes, s, x, o', s', ho, hs => by
    rw [ObsType.observe] at ho
    obtain ⟨y, -, ho⟩ := bind_ok ho
    cases ho; exact hs
  | .attributes names, s, x, o', s', ho, hs => by
    rw [ObsType.observe] at ho
    obtain ⟨y, -, ho⟩ := bind_ok ho
    cases ho; exact hs
  | .multi l, s, x, o', s', ho, hs => by
    rw [ObsType.observe] at ho
    obtain ⟨⟨ys, l', s1⟩, h1, ho⟩ := bind_ok ho
    cases ho
    exact observeList_scene G hn l s ys l' s' h1 hs

theorem observeList_scene (G : Globals) {Ok : Scene → Prop} (hn : NoRandom Ok) : ∀ (l : List ObsType) (s : Scene) (xs : List Obs)
    (l' : List ObsType) (s' : Scene), ObsType.observeList G l s = .ok (xs, l', s') → Ok s → Ok s'
  | [], s, xs, l', s', ho, hs => by
    rw [ObsType.observeList] at ho
    cases ho; exact hs
  | o :: l, s, xs, l', s', ho, hs => by
    rw [ObsType.observeList] at ho
    obtain ⟨⟨y, o1, s1⟩, h1, ho⟩ := bind_ok ho
    obtain ⟨⟨ys, l1, s2⟩, h2, ho⟩ := bind_ok ho
    cases ho
    exact observeList_scene G hn l s1 ys l1 s' h2 (observe_scene G hn o s y o1 s1 h1 hs)
end

/-- Successive observations by several observers. -/
private inductive WatchL (G : Globals) : List ObsType → List Scene → List (List Obs) → Prop where
  | nil (l : List ObsType) : WatchL G l [] []
  | cons {l l' : List ObsType} {s s' : Scene} {x : List Obs} {rest : List Scene} {xs : List (List Obs)}
      (h : ObsType.observeList G l s = .ok (x, l', s')) (ht : WatchL G l' rest xs) : WatchL G l (s :: rest) (x :: xs)

private theorem watch_multi {G : Globals} {scenes : List Scene} {xs : List Obs} : ∀ (o : ObsType), Watch G o scenes xs → ∀ l, o = .multi l →
    ∃ xss, WatchL G l scenes xss ∧ xs = xss.map .tuple := by
  intro o hw
  induction hw with
  | nil => intro l _; exact ⟨[], .nil _, rfl⟩
  | cons h _ ih =>
    rintro l rfl
    rw [ObsType.observe] at h
    obtain ⟨⟨ys, l1, s1⟩, h1, h⟩ := bind_ok h
    cases h
    obtain ⟨xss, w1, rfl⟩ := ih l1 rfl
    exact ⟨ys :: xss, .cons h1 w1, rfl⟩

private theorem watch_split {G : Globals} {Ok : Scene → Prop} (hn : NoRandom Ok) {scenes : List Scene} {xss : List (List Obs)} :
    ∀ (l : List ObsType), WatchL G l scenes xss → (∀ s ∈ scenes, Ok s) → ∀ o l', l = o :: l' →
      ∃ heads scenes' tails, Watch G o scenes heads ∧ (∀ s ∈ scenes', Ok s) ∧ WatchL G l' scenes' tails ∧
        List.Forall₂ (fun xs ht => xs = ht.1 :: ht.2) xss (heads.zip tails) ∧ heads.length = tails.length := by
  intro l hw
  induction hw with
  | nil => rintro _ o l' rfl; exact ⟨[], [], [], .nil _, by simp, .nil _, .nil, rfl⟩
  | cons h _ ih =>
    rintro hok o l' rfl
    rw [ObsType.observeList] at h
    obtain ⟨⟨y, o1, s1⟩, h1, h⟩ := bind_ok h
    obtain ⟨⟨ys, l1, s2⟩, h2, h⟩ := bind_ok h
    cases h
    obtain ⟨heads, scenes', tails, w1, w2, w3, w4, w5⟩ := ih (fun s hs => hok s (by simp [hs])) o1 l1 rfl
    refine ⟨y :: heads, s1 :: scenes', ys :: tails, .cons h1 w1, ?_, .cons h2 w3, .cons rfl w4, by simp [w5]⟩
    intro s hs
    rcases List.mem_cons.1 hs with rfl | hs
    · exact observe_scene G hn _ _ _ _ _ h1 (hok _ (by simp))
    · exact w2 s hs

private theorem watchL_nil {G : Globals} {scenes : List Scene} {xss : List (List Obs)} : ∀ (l : List ObsType), WatchL G l scenes xss →
    l = [] → ∀ xs ∈ xss, xs = [] := by
  intro l hw
  induction hw with
  | nil => intro _ xs h; cases h
  | cons h _ ih =>
    rintro rfl xs hxs
    rw [ObsType.observeList] at h
    cases h
    rcases List.mem_cons.1 hxs with rfl | hxs
    · rfl
    · exact ih rfl xs hxs

/-- C100: several agents: if each agent's observations stay in its space, the joint observations stay in the tuple of the spaces — the observers
run one after the other and share the random generator. -/
theorem agents_in_space (G : Globals) (Ok : Scene → Prop) (hn : NoRandom Ok) (l : List ObsType) (ss : List Space)
    (h : List.Forall₂ (Keeps G Ok) l ss) : Keeps G Ok (.multi l) (.tuple ss) := by
  have key : ∀ scenes xss, (∀ s ∈ scenes, Ok s) → WatchL G l scenes xss → ∀ xs ∈ xss, List.Forall₂ Member ss xs := by
    induction h with
    | nil =>
      intro scenes xss _ hw xs hxs
      rw [watchL_nil _ hw rfl xs hxs]; exact .nil
    | @cons o sp l ss h1 _ ih =>
      intro scenes xss hok hw xs hxs
      obtain ⟨heads, scenes', tails, w1, w2, w3, w4, w5⟩ := watch_split hn _ hw hok o l rfl
      have : ∃ p ∈ heads.zip tails, xs = p.1 :: p.2 := by
        clear hw w1 w3
        generalize heads.zip tails = ps at w4
        induction w4 with
        | nil => cases hxs
        | @cons a b la lb p _ ih2 =>
          rcases List.mem_cons.1 hxs with rfl | hxs
          · exact ⟨b, by simp, p⟩
          · obtain ⟨q, hq, e⟩ := ih2 hxs
            exact ⟨q, by simp [hq], e⟩
      obtain ⟨⟨hd, tl⟩, hp, rfl⟩ := this
      exact .cons (h1 scenes heads hok w1 hd (List.of_mem_zip hp).1) (ih scenes' tails w2 w3 tl (List.of_mem_zip hp).2)
  intro scenes xs hok hw x hx
  obtain ⟨xss, w1, rfl⟩ := watch_multi _ hw l rfl
  obtain ⟨y, hy, rfl⟩ := List.mem_map.1 hx
  exact .tuple (key scenes xss hok w1 y hy)

/-! ## Images -/

/-- The grey levels of a picture. -/
private def greys (w : ℝ × ℝ × ℝ) (s : Scene) : List ℝ := s.picture.map (ObsType.gray w)

private theorem image_planes {G : Globals} {w : ℝ × ℝ × ℝ} {rows cols : ℕ} : ∀ (scenes : List Scene) (xs : List Obs) (o : ObsType), Watch G o scenes xs →
    ∀ planes, o = .image (some w) rows cols planes → xs.length = scenes.length ∧ (∀ s ∈ scenes, s.picture.length = rows * cols) ∧
      ∀ (t : ℕ) x, xs[t]? = some x →
        x = .array (ObsType.ofPlanes rows cols (((scenes.take (t + 1)).map (greys w)).foldl stackFrame planes)) := by
  intro scenes xs o hw
  induction hw with
  | nil => intro planes _; exact ⟨rfl, by simp, by simp⟩
  | @cons o o' s s' y rest ys h _ ih =>
    rintro planes rfl
    rw [ObsType.observe] at h
    obtain ⟨pl, h1, h⟩ := bind_ok h
    cases h
    unfold ObsType.observeImage at h1
    dsimp only at h1
    split at h1
    · rename_i hlen
      cases h1
      obtain ⟨i1, i2, i3⟩ := ih _ rfl
      refine ⟨by simp [i1], ?_, ?_⟩
      · intro s' hs'
        rcases List.mem_cons.1 hs' with rfl | hs'
        · exact hlen
        · exact i2 s' hs'
      · intro t x hx
        cases t with
        | zero =>
          simp only [List.getElem?_cons_zero, Option.some.injEq] at hx
          subst hx
          simp [greys]
        | succ t =>
          simp only [List.getElem?_cons_succ] at hx
          rw [i3 t x hx]
          simp [greys]
    · cases h1

/-- C100: an image observer with a stack of `n` images always returns an array of its declared shape — height, width, number of images — whose
last layer is the current picture in grey levels, the one before it the previous picture, and so on; the layers from before the first
observation are black. -/
theorem image_content (G : Globals) (w : ℝ × ℝ × ℝ) (rows cols n : ℕ) (hn : 0 < n) (scenes : List Scene) (xs : List Obs)
    (hw : Watch G (.image (some w) rows cols (List.replicate n (List.replicate (rows * cols) 0))) scenes xs) :
    xs.length = scenes.length ∧ ∀ (t : ℕ) x, xs[t]? = some x → ∃ a, x = .array a ∧ a.shape = [rows, cols, n] ∧
      ∀ i j k, i < rows → j < cols → k < n →
        (t + 1 + k < n → a.entry [i, j, k] = 0) ∧
        ∀ u, u + n = t + 1 + k → ∃ s px, scenes[u]? = some s ∧ s.picture[i * cols + j]? = some px ∧ a.entry [i, j, k] = ObsType.gray w px := by
  obtain ⟨h1, h2, h3⟩ := image_planes scenes xs _ hw _ rfl
  refine ⟨h1, fun t x hx => ⟨_, h3 t x hx, ?_, ?_⟩⟩
  · show [rows, cols, _] = _
    rw [(stack_spec (List.replicate n (List.replicate (rows * cols) (0 : ℝ))) ((scenes.take (t + 1)).map (greys w)) (by simp; omega)).2,
      List.length_replicate]
  · intro i j k hi hj hk
    have ht : t < scenes.length := by
      rw [← h1]
      by_contra hc
      rw [List.getElem?_eq_none (by omega)] at hx
      cases hx
    have hF : ((scenes.take (t + 1)).map (greys w)).length = t + 1 := by simp; omega
    have hidx : i * cols + j < rows * cols := by nlinarith
    have hpl : (((scenes.take (t + 1)).map (greys w)).foldl stackFrame (List.replicate n (List.replicate (rows * cols) (0 : ℝ))))[k]? =
        (List.replicate n (List.replicate (rows * cols) (0 : ℝ)) ++ (scenes.take (t + 1)).map (greys w))[t + 1 + k]? := by
      rw [(stack_spec _ _ (by simp; omega)).1, List.getElem?_drop, hF]
    refine ⟨fun hlt => ?_, fun u hu => ?_⟩
    · simp only [ObsType.ofPlanes]
      rw [hpl, List.getElem?_append_left (by simpa using hlt), List.getElem?_replicate, if_pos hlt]
      simp [List.getElem?_replicate, hidx]
    · have hul : u < scenes.length := by omega
      have hs := h2 scenes[u] (List.getElem_mem hul)
      have hpx : i * cols + j < scenes[u].picture.length := by rw [hs]; exact hidx
      refine ⟨scenes[u], scenes[u].picture[i * cols + j], List.getElem?_eq_getElem hul, List.getElem?_eq_getElem hpx, ?_⟩
      simp only [ObsType.ofPlanes]
      rw [hpl, List.getElem?_append_right (by simp; omega)]
      have : t + 1 + k - (List.replicate n (List.replicate (rows * cols) (0 : ℝ))).length = u := by simp; omega
      rw [this, List.getElem?_map, List.getElem?_take, if_pos (by omega), List.getElem?_eq_getElem hul]
      simp [greys, List.getElem?_eq_getElem hpx]

/-! ## Observations outside the declared space -/

/-- C100 fails for images: the declared space is `[0, 1]`, while a picture with a pixel of grey level above 1 (on a scale to 255) is returned as
it is. -/
theorem image_leaves_space (G : Globals) (w : ℝ × ℝ × ℝ) (rows cols : ℕ) (planes : List (List ℝ)) (hp : planes ≠ []) (s : Scene) (i j : ℕ)
    (hi : i < rows) (hj : j < cols) (px : ℝ × ℝ × ℝ) (hpx : s.picture[i * cols + j]? = some px) (hg : 1 < ObsType.gray w px)
    (sp : Space) (hsp : (ObsType.image (some w) rows cols planes).space G s = .ok sp)
    (x : Obs) (o' : ObsType) (s' : Scene) (h : (ObsType.image (some w) rows cols planes).observe G s = .ok (x, o', s')) : ¬ Member sp x := by
  rw [ObsType.space] at hsp
  cases hsp
  rw [ObsType.observe] at h
  obtain ⟨pl, h1, h⟩ := bind_ok h
  cases h
  unfold ObsType.observeImage at h1
  dsimp only at h1
  split at h1
  · cases h1
    intro hm
    cases planes with
    | nil => exact hp rfl
    | cons p0 ps =>
      cases hm with
      | box hs hb =>
        have := (hb [i, j, ps.length] (.cons hi (.cons hj (.cons (by simp) .nil)))).2
        simp only [ObsType.ofPlanes, stackFrame, List.getElem?_append_right (le_refl _), Nat.sub_self, List.getElem?_cons_zero,
          Option.bind_some, List.getElem?_map, hpx, Option.map_some, Option.getD_some] at this
        linarith
  · cases h1

/-- With the documented weights, a white pixel has grey level 254.97. -/
example : 1 < ObsType.gray (0.2989, 0.5870, 0.1140) (255, 255, 255) := by norm_num [ObsType.gray]

/-- C100 fails for kinematics observers of a single vehicle: as soon as another vehicle is close, there are more rows than declared. -/
theorem single_leaves_space (G : Globals) (cfg : KinematicsConfig) (hc : ObserverOk cfg) (h1 : cfg.vehiclesCount = 1) (v : Option ℕ) (s s' : Scene)
    (r : Road) (hr : s.road = some r) (ego w : Vehicle) (hego : ObsType.watched s r v = some ego) (hw : w ∈ r.vehicles)
    (hclose : Close ego 180 cfg.seeBehind w) (sp : Space) (hsp : (ObsType.kinematics cfg v).space G s = .ok sp)
    (x : Obs) (o' : ObsType) (h : (ObsType.kinematics cfg v).observe G s = .ok (x, o', s')) : ¬ Member sp x := by
  rw [ObsType.space] at hsp
  cases hsp
  rw [ObsType.observe] at h
  obtain ⟨⟨ob, c1, r1⟩, h2, h⟩ := bind_ok h
  cases h
  unfold ObsType.observeKinematics at h2
  rw [hr] at h2
  dsimp only at h2
  rw [hego] at h2
  obtain ⟨e, he, h2⟩ := bind_ok h2
  cases he
  obtain ⟨⟨rows, c2, rng⟩, h3, h2⟩ := bind_ok h2
  cases h2
  have hl := kinematics_single G r ego cfg _ hc h1 rows rng h3
  intro hm
  cases hm with
  | box hs _ =>
    simp only [ObsType.ofRows, List.cons.injEq] at hs
    have : 0 < (r.vehicles.filter fun w => decide (Close ego 180 cfg.seeBehind w)).length :=
      List.length_pos_of_mem (List.mem_filter.2 ⟨hw, by simpa using hclose⟩)
    rw [h1] at hs
    have := hs.1
    simp at this
    omega

/-- C100 fails without normalisation: positions beyond 1 m are outside the declared `[-1, 1]`. -/
theorem raw_leaves_space (G : Globals) (cfg : KinematicsConfig) (hc : ObserverOk cfg) (h2 : 2 ≤ cfg.vehiclesCount) (hn : cfg.normalize = false)
    (j : ℕ) (hj : cfg.features[j]? = some "x") (v : Option ℕ) (s s' : Scene) (r : Road) (hr : s.road = some r) (ego : Vehicle)
    (hego : ObsType.watched s r v = some ego) (hx : 1 < ego.pos.x) (sp : Space) (hsp : (ObsType.kinematics cfg v).space G s = .ok sp)
    (x : Obs) (o' : ObsType) (h : (ObsType.kinematics cfg v).observe G s = .ok (x, o', s')) : ¬ Member sp x := by
  rw [ObsType.space] at hsp
  cases hsp
  rw [ObsType.observe] at h
  obtain ⟨⟨ob, c1, r1⟩, h3, h⟩ := bind_ok h
  cases h
  unfold ObsType.observeKinematics at h3
  rw [hr] at h3
  dsimp only at h3
  rw [hego] at h3
  obtain ⟨e, he, h3⟩ := bind_ok h3
  cases he
  obtain ⟨⟨rows, c2, rng⟩, h4, h3⟩ := bind_ok h3
  cases h3
  obtain ⟨n, hnn⟩ := Int.eq_ofNat_of_zero_le (show 0 ≤ cfg.vehiclesCount by omega)
  obtain ⟨e1, e2, lanes, rs, row0, rows', rest, a1, a2, ⟨dir, _, a3⟩, a4, a5, rfl, a7, _⟩ :=
    kinematics_rows G r ego cfg _ hc n hnn (by omega) rows rng h4
  obtain ⟨y, hy, z, hz, he⟩ := get_right a3 hj
  have hrs : rs = [] := by
    rcases a2 with ⟨_, e⟩ | ⟨e, _⟩ | ⟨e, _⟩
    · exact e
    · rw [hn] at e; cases e
    · rw [hn] at e; cases e
  subst hrs
  cases hz
  intro hm
  have hjl : j < cfg.features.length := by
    by_contra hc'
    rw [List.getElem?_eq_none (by omega)] at hj
    cases hj
  cases hm with
  | box _ hb =>
    have := (hb [0, j] (.cons (by omega) (.cons hjl .nil))).2
    simp only [ObsType.ofRows, List.getElem?_cons_zero, Option.bind_some, hy, Option.getD_some] at this
    rw [he] at this
    have e0 : entry cfg.clip [] "x" ego.pos.x = ego.pos.x := rfl
    linarith

/-- The three observers that look at the scene in order to declare their space. -/
def Probing : ObsType → Prop
  | .ttc _ _ | .goal _ _ _ | .attributes _ => True
  | _ => False

/-- C100, the undefined space.  An observer that looks at the scene to declare its space declares a proper one exactly if it can observe the scene; it declares an empty
`Space()` exactly if observing raises `AttributeError`; any other exception of the observation is an exception of the declaration. -/
theorem undefined_space (G : Globals) (o : ObsType) (ho : Probing o) (s : Scene) :
    (∀ p, o.observe G s = .ok p → ∃ sp, o.space G s = .ok sp ∧ sp ≠ .bare) ∧ (o.observe G s = .error .attributeError → o.space G s = .ok .bare) ∧
      ∀ err, err ≠ .attributeError → o.observe G s = .error err → o.space G s = .error err := by
  cases o with
  | ttc h v =>
    simp only [ObsType.observe, ObsType.space]
    cases ObsType.observeTtc G s h v with
    | ok x => exact ⟨fun _ _ => ⟨_, rfl, fun e => by cases e⟩, fun e => (by cases e), fun _ _ e => (by cases e)⟩
    | error e =>
      refine ⟨fun _ h => (by cases h), fun h => (by cases h; rfl), fun err he h => ?_⟩
      cases h
      cases e <;> first | rfl | exact absurd rfl he
  | goal fs sc v =>
    simp only [ObsType.observe, ObsType.space]
    cases hx : ObsType.observeGoal s fs sc v with
    | ok x =>
      obtain ⟨a, b, c, -, -, -, rfl⟩ := goal_shape hx
      exact ⟨fun _ _ => ⟨_, rfl, fun e => by cases e⟩, fun e => (by cases e), fun _ _ e => (by cases e)⟩
    | error e =>
      refine ⟨fun _ h => (by cases h), fun h => (by cases h; rfl), fun err he h => ?_⟩
      cases h
      cases e <;> first | rfl | exact absurd rfl he
  | attributes names =>
    have key : ∀ ns : List String,
        (∃ xs ys, ns.mapM (fun n => (ObsType.getattr s n).map fun a => (n, Obs.array a)) = .ok xs ∧
          ns.mapM (fun n => (ObsType.getattr s n).map fun a => (n, Space.free a.shape)) = .ok ys) ∨
        (ns.mapM (fun n => (ObsType.getattr s n).map fun a => (n, Obs.array a)) = .error .attributeError ∧
          ns.mapM (fun n => (ObsType.getattr s n).map fun a => (n, Space.free a.shape)) = .error .attributeError) := by
      intro ns
      induction ns with
      | nil => exact .inl ⟨_, _, rfl, rfl⟩
      | cons n ns ih =>
        simp only [List.mapM_cons]
        unfold ObsType.getattr at ih ⊢
        cases Dict.get? s.attributes n with
        | none => exact .inr ⟨rfl, rfl⟩
        | some a =>
          rcases ih with ⟨xs, ys, h1, h2⟩ | ⟨h1, h2⟩
          · simp only [Except.map, bind, Except.bind] at h1 h2 ⊢
            rw [h1, h2]
            exact .inl ⟨_, _, rfl, rfl⟩
          · simp only [Except.map, bind, Except.bind] at h1 h2 ⊢
            rw [h1, h2]
            exact .inr ⟨rfl, rfl⟩
    simp only [ObsType.observe, ObsType.space]
    rcases key names with ⟨xs, ys, h1, h2⟩ | ⟨h1, h2⟩
    · rw [h1, h2]
      exact ⟨fun _ _ => ⟨_, rfl, fun e => by cases e⟩, fun e => (by cases e), fun _ _ e => (by cases e)⟩
    · rw [h1, h2]
      exact ⟨fun _ h => (by cases h), fun _ => rfl, fun err he h => (by cases h; exact absurd rfl he)⟩
  | kinematics _ _ => exact ho.elim
  | occupancy _ _ => exact ho.elim
  | image _ _ _ _ => exact ho.elim
  | multi _ => exact ho.elim

/-- Non-vacuity: each of the three cases.  An attribute that does not exist; the time to collision with an empty road; a goal observer asked for a feature that no
vehicle has. -/
example (G : Globals) (r : Road) (hr : r.vehicles = []) :
    (ObsType.attributes ["goal"]).observe G ⟨some r, [], none, 1, [], []⟩ = .error .attributeError ∧
      (ObsType.attributes ["goal"]).space G ⟨some r, [], none, 1, [], []⟩ = .ok .bare ∧
      ∃ sp, (ObsType.ttc 10 none).space G ⟨none, [], none, 1, [], []⟩ = .ok sp ∧ sp ≠ .bare :=
  ⟨rfl, rfl, _, rfl, fun e => by cases e⟩

example (G : Globals) (r : Road) (v : Vehicle) (hv : r.vehicle? 0 = some v) (d : Vec2) (hd : v.destinationDirection r.network = .ok d) (o : RoadObject) :
    (ObsType.goal ["speed"] [1] none).space G ⟨some r, [0], some o, 1, [], []⟩ = .error .keyError := by
  refine (undefined_space G (ObsType.goal ["speed"] [1] none) trivial _).2.2 _ (fun e => by cases e) ?_
  simp [ObsType.observe, ObsType.observeGoal, ObsType.watched, hv, goalObservation, Vehicle.toDict, Vehicle.absDict, hd, selectFeatures, Dict.getItem, bind,
    Except.bind, pure, Except.pure, Dict.get?]

end HighwayEnv.Props
