import Verif.Spec.Observation
import Verif.Props.Queries
import Verif.Lemmas.Road

/-!
# C48, C49, C69: kinematics observations, several agents, goals, image stacks
-/

noncomputable section
open Classical
namespace HighwayEnv.Props
open HighwayEnv Spec Graph

/-! ## Lemmas -/

theorem destDir_bound {g : Graph} {v : Vehicle} {d : Vec2} (h : v.destinationDirection g = .ok d) : |d.x| ≤ 1 ∧ |d.y| ≤ 1 := by
  unfold Vehicle.destinationDirection at h
  obtain ⟨p, hp, h⟩ := bind_ok h
  split at h
  · cases h
    dsimp only
    have key : ∀ a b : ℝ, |a / √(a ^ 2 + b ^ 2)| ≤ 1 := by
      intro a b
      rw [abs_div, abs_of_nonneg (Real.sqrt_nonneg _)]
      apply div_le_one_of_le₀ _ (Real.sqrt_nonneg _)
      apply Real.abs_le_sqrt
      nlinarith [sq_nonneg b]
    refine ⟨key _ _, ?_⟩
    have := key (p.y - v.pos.y) (p.x - v.pos.x)
    unfold Vec2.norm
    simp only [Vec2.sub_x, Vec2.sub_y]
    rw [add_comm] at this
    exact this
  · cases h; norm_num

theorem absDict_get {g : Graph} {v : Vehicle} {b : Bool} {d : Dict String ℝ} (h : v.absDict g b = .ok d) :
    ∃ dir, v.destinationDirection g = .ok dir ∧ ∀ f, Dict.get? d f = ownFeature (if b then dir else ⟨0, 0⟩) v f := by
  unfold Vehicle.absDict at h
  obtain ⟨dir, hdir, h⟩ := bind_ok h
  cases h
  refine ⟨dir, hdir, fun f => ?_⟩
  have hv : v.velocity.x = v.speed * Real.cos v.heading ∧ v.velocity.y = v.speed * Real.sin v.heading ∧
      v.direction.x = Real.cos v.heading ∧ v.direction.y = Real.sin v.heading := by
    simp [Vehicle.velocity, Vehicle.direction, Vec2.dir]
  rw [hv.1, hv.2.1, hv.2.2.1, hv.2.2.2]
  generalize (if b = true then dir else (⟨0, 0⟩ : Vec2)) = dd
  symm
  unfold ownFeature
  split <;> simp [Dict.get?]
  rename_i h1 h2 h3 h4 h5 h6 h7 h8 h9 h10
  rw [if_neg (Ne.symm h1), if_neg (Ne.symm h2), if_neg (Ne.symm h3), if_neg (Ne.symm h4), if_neg (Ne.symm h5), if_neg (Ne.symm h6),
    if_neg (Ne.symm h7), if_neg (Ne.symm h8), if_neg (Ne.symm h9), if_neg (Ne.symm h10)]

private theorem relative_get (dir dir' : Vec2) (v o : Vehicle) {d od : Dict String ℝ} (h1 : ∀ f, Dict.get? d f = ownFeature dir v f)
    (h2 : ∀ f, Dict.get? od f = ownFeature dir' o f) (f : String) : Dict.get? (relativeTo d od) f = relFeature dir v o f := by
  unfold relativeTo
  simp only [List.foldl_cons, List.foldl_nil, Dict.get?_setItem, h1, h2]
  symm
  unfold relFeature
  split
  · simp [ownFeature]
  · simp [ownFeature]
  · simp [ownFeature]
  · simp [ownFeature]
  rename_i h1 h2 h3 h4
  rw [if_neg (fun h => h4 h.symm), if_neg (fun h => h3 h.symm), if_neg (fun h => h2 h.symm), if_neg (fun h => h1 h.symm)]

private theorem mapM_forall₂ {α β : Type} {f : α → Py β} {l : List α} {m : List β} (h : l.mapM f = .ok m) :
    List.Forall₂ (fun a b => f a = .ok b) l m := by
  induction l generalizing m with
  | nil => cases h; exact .nil
  | cons a l ih =>
    rw [List.mapM_cons] at h
    obtain ⟨b, hb, h⟩ := bind_ok h
    obtain ⟨bs, hbs, h⟩ := bind_ok h
    cases h
    exact .cons hb (ih hbs)

private theorem select_spec {features : List String} {d : Dict String ℝ} {val : String → Option ℝ} (hd : ∀ f, Dict.get? d f = val f)
    {row : List ℝ} (h : selectFeatures features d = .ok row) : List.Forall₂ (fun f x => val f = some x) features row := by
  refine (mapM_forall₂ h).imp fun f x hx => ?_
  rw [← hd f]
  unfold Dict.getItem at hx
  split at hx
  · cases hx; assumption
  · cases hx

private theorem scale_eq (clip : Bool) (r : ℝ × ℝ) (x : ℝ) : Kinematics.normalizeValue clip r x = scaleTo clip r x := by
  have : lmap x r (-1, 1) = 2 * (x - r.1) / (r.2 - r.1) - 1 := by
    unfold lmap; dsimp only; ring
  unfold Kinematics.normalizeValue scaleTo npClip
  rw [this]
  dsimp only
  split
  · rw [max_comm, min_comm]
    generalize 2 * (x - r.1) / (r.2 - r.1) - 1 = y
    rcases le_total y (-1) with h | h
    · rw [max_eq_left h, min_eq_right (by norm_num), min_eq_right (by linarith), max_eq_left h]
    · rw [max_eq_right h]
      rcases le_total y 1 with h' | h'
      · rw [min_eq_right h', max_eq_right h]
      · rw [min_eq_left h', max_eq_right (by norm_num)]
  · rfl

private theorem normalizeRow_eq (features : List String) (clip : Bool) (rs : Dict String (ℝ × ℝ)) (hn : (rs.map Prod.fst).Nodup)
    (row : List ℝ) (hl : row.length = features.length) :
    Kinematics.normalizeRow features clip rs row = (features.zip row).map fun fx => entry clip rs fx.1 fx.2 := by
  induction rs generalizing row with
  | nil =>
    simp only [Kinematics.normalizeRow, List.foldl_nil, entry, Dict.get?]
    rw [← List.unzip_snd, List.unzip_zip (by omega)]
  | cons r rs ih =>
    obtain ⟨k, r⟩ := r
    simp only [List.map_cons, List.nodup_cons] at hn
    unfold Kinematics.normalizeRow
    rw [List.foldl_cons]
    have := ih hn.2 ((features.zip row).map fun fx => if fx.1 = k then Kinematics.normalizeValue clip r fx.2 else fx.2)
      (by simp [hl])
    unfold Kinematics.normalizeRow at this
    rw [this]
    have hz : features.zip ((features.zip row).map fun fx => if fx.1 = k then Kinematics.normalizeValue clip r fx.2 else fx.2) =
        (features.zip row).map fun fx => (fx.1, if fx.1 = k then Kinematics.normalizeValue clip r fx.2 else fx.2) := by
      clear this ih
      induction features generalizing row with
      | nil => rfl
      | cons f fs ih =>
        cases row with
        | nil => rfl
        | cons x xs => simpa using ih xs (by simpa using hl)
    rw [hz, List.map_map]
    apply List.map_congr_left
    intro fx _
    simp only [Function.comp_apply]
    by_cases hk : fx.1 = k
    · have h0 : Dict.get? rs fx.1 = none := by rw [hk]; exact Dict.get?_eq_none_iff.2 hn.1
      simp only [entry, h0, Dict.get?, hk, if_true, scale_eq]
      rw [hk] at h0
      rw [h0]
    · simp only [entry, Dict.get?, if_neg hk, if_neg (Ne.symm hk)]

private theorem row_spec {features : List String} {clip : Bool} {rs : Dict String (ℝ × ℝ)} (hn : (rs.map Prod.fst).Nodup)
    {val : String → Option ℝ} {row : List ℝ} (h : List.Forall₂ (fun f x => val f = some x) features row) :
    IsRow clip rs features val (Kinematics.normalizeRow features clip rs row) := by
  rw [normalizeRow_eq features clip rs hn row h.length_eq.symm]
  unfold IsRow
  clear hn
  induction h with
  | nil => exact .nil
  | cons h1 _ ih => exact .cons ⟨_, h1, rfl⟩ ih

private theorem row_plain {features : List String} {clip : Bool}
    {val : String → Option ℝ} {row : List ℝ} (h : List.Forall₂ (fun f x => val f = some x) features row) :
    IsRow clip [] features val row := h.imp fun _ x hx => ⟨x, hx, rfl⟩

private theorem shuffle_perm {α : Type} (r : Rng) (l : List α) : (r.shuffle l).1.Perm l := by
  induction l with
  | nil => exact .refl _
  | cons a l ih =>
    unfold Rng.shuffle
    dsimp only
    refine List.perm_middle.trans ?_
    rw [List.take_append_drop]
    exact ih.cons a

private theorem shuffle_length {α : Type} (r : Rng) (l : List α) : (r.shuffle l).1.length = l.length := (shuffle_perm r l).length_eq

private theorem slice_close {r : Road} {v : Vehicle} {d : ℝ} {sb : Bool} {n : ℕ} (hn : 2 ≤ n) :
    sliceFrom (r.closeVehiclesTo v d (some ((n : Int) - 1)) sb) (-(n : Int) + 1) = r.closeVehiclesTo v d (some ((n - 1 : ℕ) : Int)) sb := by
  have e : ((n : Int) - 1) = ((n - 1 : ℕ) : Int) := by omega
  rw [e]
  have hl := (close_count r v d sb (n - 1) (by omega)).2.1
  generalize r.closeVehiclesTo v d (some ((n - 1 : ℕ) : Int)) sb = l at hl ⊢
  unfold sliceFrom
  rw [if_neg (by omega)]
  have : ((l.length : Int) + (-(n : Int) + 1)).toNat = 0 := by
    have : l.length ≤ n - 1 := by rw [hl]; exact min_le_left _ _
    omega
  rw [this, List.drop_zero]

/-- The direction of the destination as observed: hidden (zero) if intentions are not observed. -/
def ObservedDirection (g : Graph) (v : Vehicle) (intentions : Bool) (dir : Vec2) : Prop :=
  ∃ d, v.destinationDirection g = .ok d ∧ dir = if intentions then d else ⟨0, 0⟩

theorem toDict_own {g : Graph} {v : Vehicle} {b : Bool} {d : Dict String ℝ} (h : v.toDict g none b = .ok d) :
    ∃ dir, ObservedDirection g v b dir ∧ ∀ f, Dict.get? d f = ownFeature dir v f := by
  unfold Vehicle.toDict at h
  obtain ⟨d', h1, h⟩ := bind_ok h
  cases h
  obtain ⟨dir, e1, e2⟩ := absDict_get h1
  exact ⟨_, ⟨dir, e1, rfl⟩, e2⟩

theorem toDict_rel {g : Graph} {v o : Vehicle} {b : Bool} {d : Dict String ℝ} (h : v.toDict g (some o) b = .ok d) :
    ∃ dir, ObservedDirection g v b dir ∧ ∀ f, Dict.get? d f = relFeature dir v o f := by
  unfold Vehicle.toDict at h
  obtain ⟨d', h1, h⟩ := bind_ok h
  obtain ⟨od, h2, h⟩ := bind_ok h
  cases h
  obtain ⟨dir, e1, e2⟩ := absDict_get h1
  obtain ⟨dir', e3, e4⟩ := absDict_get h2
  exact ⟨_, ⟨dir, e1, rfl⟩, relative_get _ _ _ _ e2 e4⟩

/-- The row of a traffic vehicle: absolute or relative values. -/
def TrafficRow (g : Graph) (cfg : KinematicsConfig) (rs : Dict String (ℝ × ℝ)) (ego v : Vehicle) (row : List ℝ) : Prop :=
  ∃ dir, ObservedDirection g v cfg.observeIntentions dir ∧
    IsRow cfg.clip rs cfg.features (fun f => if cfg.absolute then ownFeature dir v f else relFeature dir v ego f) row

/-- The row of the observer itself: always absolute, with its destination. -/
def EgoRow (g : Graph) (cfg : KinematicsConfig) (rs : Dict String (ℝ × ℝ)) (ego : Vehicle) (row : List ℝ) : Prop :=
  ∃ dir, ObservedDirection g ego true dir ∧ IsRow cfg.clip rs cfg.features (ownFeature dir ego) row

private theorem traffic_spec {r : Road} {ego : Vehicle} {cfg : KinematicsConfig} {rows : List (List ℝ)}
    (h : Kinematics.traffic r ego cfg = .ok rows) :
    List.Forall₂ (fun v row => ∃ dir, ObservedDirection r.network v cfg.observeIntentions dir ∧
      List.Forall₂ (fun f x => (if cfg.absolute then ownFeature dir v f else relFeature dir v ego f) = some x) cfg.features row)
      (sliceFrom (r.closeVehiclesTo ego 180 (some (cfg.vehiclesCount - 1)) cfg.seeBehind) (-cfg.vehiclesCount + 1)) rows := by
  refine (mapM_forall₂ h).imp fun v row hv => ?_
  obtain ⟨d, hd, hs⟩ := bind_ok hv
  by_cases ha : cfg.absolute = true
  · simp only [ha, if_true] at hd ⊢
    obtain ⟨dir, e1, e2⟩ := toDict_own hd
    exact ⟨dir, e1, select_spec e2 hs⟩
  · simp only [ha] at hd ⊢
    obtain ⟨dir, e1, e2⟩ := toDict_rel hd
    exact ⟨dir, e1, select_spec e2 hs⟩

/-- All the rows, before filling and shuffling. -/
private theorem observe_shape {G : Globals} {r : Road} {ego : Vehicle} {cfg cfg' : KinematicsConfig} (hc : ObserverOk cfg)
    {obs : List (List ℝ)} {rng' : Rng} (h : Kinematics.observe G r ego cfg = .ok (obs, cfg', rng')) :
    ∃ lanes rs row0 rows, (cfg.normalize = true → r.network.allSideLanes ego.laneIndex = .ok lanes ∨ cfg.featuresRange = some rs) ∧
      RangesFor G lanes.length cfg rs ∧ EgoRow r.network cfg rs ego row0 ∧
      List.Forall₂ (TrafficRow r.network cfg rs ego)
        (sliceFrom (r.closeVehiclesTo ego 180 (some (cfg.vehiclesCount - 1)) cfg.seeBehind) (-cfg.vehiclesCount + 1)) rows ∧
      (cfg' = { cfg with featuresRange := cfg'.featuresRange }) ∧
      (cfg.normalize = true → cfg'.featuresRange = some rs) ∧ (cfg.normalize = false → cfg'.featuresRange = cfg.featuresRange) ∧
      (obs, rng') = Kinematics.reorder cfg r.rng (Kinematics.fill cfg (row0 :: rows)) := by
  unfold Kinematics.observe at h
  obtain ⟨d, hd, h⟩ := bind_ok h
  obtain ⟨first, hf, h⟩ := bind_ok h
  obtain ⟨others, ho, h⟩ := bind_ok h
  obtain ⟨⟨rows, cfg1⟩, hn, h⟩ := bind_ok h
  cases h
  obtain ⟨dir, e1, e2⟩ := toDict_own hd
  have hrow := select_spec e2 hf
  have htr := traffic_spec ho
  unfold Kinematics.normalizeRows at hn
  split at hn
  · rename_i hnorm
    obtain ⟨rs, hrs, hn⟩ := bind_ok hn
    cases hn
    have hcase : ∃ lanes, (r.network.allSideLanes ego.laneIndex = .ok lanes ∨ cfg.featuresRange = some rs) ∧
        RangesFor G lanes.length cfg rs ∧ (rs.map Prod.fst).Nodup := by
      unfold Kinematics.ranges at hrs
      split at hrs
      · rename_i x xs hx
        cases hrs
        exact ⟨[], .inr hx, .inr (.inl ⟨hnorm, hx, by simp⟩), hc.ranges _ hx⟩
      · rename_i hx
        obtain ⟨lanes, hl, hrs⟩ := bind_ok hrs
        cases hrs
        refine ⟨lanes, .inl hl, .inr (.inr ⟨hnorm, ?_, rfl⟩), by simp [Kinematics.defaultRange]⟩
        rcases hr : cfg.featuresRange with _ | _ | ⟨x, xs⟩
        · exact .inl rfl
        · exact .inr rfl
        · exact absurd hr (hx x xs)
    obtain ⟨lanes, hl, hr, hnd⟩ := hcase
    refine ⟨lanes, rs, _, _, fun _ => hl, hr, ⟨dir, e1, row_spec hnd hrow⟩, ?_, rfl, fun _ => rfl, fun h => absurd hnorm (by simp [h]), rfl⟩
    rw [List.forall₂_map_right_iff]
    exact htr.imp fun v row ⟨dir, h1, h2⟩ => ⟨dir, h1, row_spec hnd h2⟩
  · rename_i hnorm
    simp only [Bool.not_eq_true] at hnorm
    cases hn
    refine ⟨[], [], first, others, fun h => absurd h (by simp [hnorm]), .inl ⟨hnorm, rfl⟩, ⟨dir, e1, row_plain hrow⟩, ?_, rfl,
      fun h => absurd h (by simp [hnorm]), fun _ => rfl, rfl⟩
    exact htr.imp fun v row ⟨dir, h1, h2⟩ => ⟨dir, h1, row_plain h2⟩

private theorem mem_right {α β : Type} {R : α → β → Prop} {l : List α} {m : List β} (h : List.Forall₂ R l m) {b : β} (hb : b ∈ m) :
    ∃ a ∈ l, R a b := by
  induction h with
  | nil => cases hb
  | cons h1 _ ih =>
    rcases List.mem_cons.1 hb with rfl | hb
    · exact ⟨_, by simp, h1⟩
    · obtain ⟨a, ha, h⟩ := ih hb
      exact ⟨a, by simp [ha], h⟩

theorem get_right {α β : Type} {R : α → β → Prop} {l : List α} {m : List β} (h : List.Forall₂ R l m) {i : ℕ} {a : α}
    (ha : l[i]? = some a) : ∃ b, m[i]? = some b ∧ R a b := by
  induction h generalizing i with
  | nil => simp at ha
  | cons h1 _ ih =>
    cases i with
    | zero => simp only [List.getElem?_cons_zero, Option.some.injEq] at ha; subst ha; exact ⟨_, rfl, h1⟩
    | succ i => simpa using ih (by simpa using ha)

/-! ## C48 — shape and content -/

/-- **C48.**  A kinematics observation of at least two vehicles has exactly the configured number of rows.  The first row is the observer.
The other rows are, in order of distance along its lane (in any order if shuffled): one row per nearest vehicle in sight, relative to the
observer unless absolute, as many as there are and fit, and zero rows. -/
theorem kinematics_rows (G : Globals) (r : Road) (ego : Vehicle) (cfg cfg' : KinematicsConfig) (hc : ObserverOk cfg) (n : ℕ)
    (hn : cfg.vehiclesCount = n) (h2 : 2 ≤ n) (obs : List (List ℝ)) (rng' : Rng)
    (h : Kinematics.observe G r ego cfg = .ok (obs, cfg', rng')) :
    obs.length = n ∧ (∀ row ∈ obs, row.length = cfg.features.length) ∧
    ∃ lanes rs row0 rows rest, (cfg.normalize = true → r.network.allSideLanes ego.laneIndex = .ok lanes ∨ cfg.featuresRange = some rs) ∧
      RangesFor G lanes.length cfg rs ∧ EgoRow r.network cfg rs ego row0 ∧
      List.Forall₂ (TrafficRow r.network cfg rs ego) (r.closeVehiclesTo ego 180 (some ((n - 1 : ℕ) : Int)) cfg.seeBehind) rows ∧
      rows.length = min (n - 1) (r.vehicles.filter fun w => decide (Close ego 180 cfg.seeBehind w)).length ∧
      obs = row0 :: rest ∧
      rest.Perm (rows ++ List.replicate (n - 1 - rows.length) (List.replicate cfg.features.length 0)) ∧
      (cfg.shuffled = false → rest = rows ++ List.replicate (n - 1 - rows.length) (List.replicate cfg.features.length 0)) := by
  obtain ⟨lanes, rs, row0, rows, a1, a2, a3, a4, a5, a6, a6', a7⟩ := observe_shape hc h
  rw [hn, slice_close h2] at a4
  obtain ⟨_, hlen, _⟩ := close_count r ego 180 cfg.seeBehind (n - 1) (by omega)
  have hrl : rows.length = min (n - 1) (r.vehicles.filter fun w => decide (Close ego 180 cfg.seeBehind w)).length := by
    rw [← a4.length_eq, hlen]
  have hle : rows.length ≤ n - 1 := by rw [hrl]; exact min_le_left _ _
  have hfill : Kinematics.fill cfg (row0 :: rows) =
      row0 :: (rows ++ List.replicate (n - 1 - rows.length) (List.replicate cfg.features.length 0)) := by
    unfold Kinematics.fill
    rw [hn]
    have : ((n : Int) - (row0 :: rows).length).toNat = n - 1 - rows.length := by simp only [List.length_cons]; omega
    rw [this]; rfl
  rw [hfill] at a7
  unfold Kinematics.reorder at a7
  have key : ∃ rest, obs = row0 :: rest ∧
      rest.Perm (rows ++ List.replicate (n - 1 - rows.length) (List.replicate cfg.features.length 0)) ∧
      (cfg.shuffled = false → rest = rows ++ List.replicate (n - 1 - rows.length) (List.replicate cfg.features.length 0)) := by
    by_cases hs : cfg.shuffled = true
    · rw [if_pos hs] at a7
      injection a7 with b1 b2
      exact ⟨_, b1, shuffle_perm _ _, fun h => absurd hs (by simp [h])⟩
    · rw [if_neg hs] at a7
      injection a7 with b1 b2
      exact ⟨_, b1, .refl _, fun _ => rfl⟩
  obtain ⟨rest, k1, k2, k3⟩ := key
  refine ⟨?_, ?_, lanes, rs, row0, rows, rest, a1, a2, a3, a4, hrl, k1, k2, k3⟩
  · rw [k1, List.length_cons, k2.length_eq, List.length_append, List.length_replicate]
    omega
  · intro row hrow
    rw [k1, List.mem_cons, k2.mem_iff, List.mem_append] at hrow
    rcases hrow with rfl | hrow | hrow
    · obtain ⟨_, _, h⟩ := a3; exact h.length_eq.symm
    · obtain ⟨v, _, _, _, h⟩ := mem_right a4 hrow
      exact h.length_eq.symm
    · rw [(List.mem_replicate.1 hrow).2, List.length_replicate]

private theorem isRow_presence {clip : Bool} {rs : Dict String (ℝ × ℝ)} {features : List String} {val : String → Option ℝ} {row : List ℝ}
    (h : IsRow clip rs features val row) (hp : val "presence" = some 1) (hr : Dict.get? rs "presence" = none) {j : ℕ}
    (hj : features[j]? = some "presence") : row[j]? = some 1 := by
  obtain ⟨x, hx, y, hy, he⟩ := get_right h hj
  rw [hp] at hy
  cases hy
  rw [hx, he, entry, hr]

/-- **C48, presence.**  The number of rows whose presence flag is 1 is one plus the number of vehicles in sight, limited by the number of
rows; the other flags are 0. -/
theorem kinematics_presence (G : Globals) (r : Road) (ego : Vehicle) (cfg cfg' : KinematicsConfig) (hc : ObserverOk cfg) (n : ℕ)
    (hn : cfg.vehiclesCount = n) (h2 : 2 ≤ n) (hp : ∀ rs, cfg.featuresRange = some rs → "presence" ∉ rs.map Prod.fst)
    (j : ℕ) (hj : cfg.features[j]? = some "presence") (obs : List (List ℝ)) (rng' : Rng)
    (h : Kinematics.observe G r ego cfg = .ok (obs, cfg', rng')) :
    (obs.filter fun row => decide (row[j]? = some 1)).length =
      1 + min (n - 1) (r.vehicles.filter fun w => decide (Close ego 180 cfg.seeBehind w)).length ∧
    ∀ row ∈ obs, row[j]? = some 1 ∨ row[j]? = some 0 := by
  obtain ⟨_, _, lanes, rs, row0, rows, rest, a1, a2, a3, a4, a5, rfl, a7, _⟩ := kinematics_rows G r ego cfg cfg' hc n hn h2 obs rng' h
  have hrs : Dict.get? rs "presence" = none := by
    apply Dict.get?_eq_none_iff.2
    rcases a2 with ⟨_, rfl⟩ | ⟨_, hr, _⟩ | ⟨_, _, rfl⟩
    · simp
    · exact hp rs hr
    · simp
  have h0 : row0[j]? = some 1 := by
    obtain ⟨dir, _, hrow⟩ := a3
    exact isRow_presence hrow rfl hrs hj
  have h1 : ∀ row ∈ rows, row[j]? = some 1 := by
    intro row hrow
    obtain ⟨v, _, dir, _, hrow⟩ := mem_right a4 hrow
    refine isRow_presence hrow ?_ hrs hj
    split <;> rfl
  have hjl : j < cfg.features.length := (List.getElem?_eq_some_iff.1 hj).1
  have hz : ∀ row ∈ List.replicate (n - 1 - rows.length) (List.replicate cfg.features.length (0:ℝ)), row[j]? = some 0 := by
    intro row hrow
    rw [(List.mem_replicate.1 hrow).2, List.getElem?_replicate, if_pos hjl]
  constructor
  · rw [List.filter_cons_of_pos (by simp [h0]), List.length_cons, (a7.filter _).length_eq, List.filter_append, List.length_append,
      List.filter_eq_self.2 (by intro row hrow; simp [h1 row hrow]), List.filter_eq_nil_iff.2 (by intro row hrow; simp [hz row hrow]), a5]
    simp [Nat.add_comm]
  · intro row hrow
    rw [List.mem_cons, a7.mem_iff, List.mem_append] at hrow
    rcases hrow with rfl | hrow | hrow
    · exact .inl h0
    · exact .inl (h1 row hrow)
    · exact .inr (hz row hrow)

/-- **C48 fails for `vehicles_count = 1`**: the observation then has one row per vehicle in sight, besides the observer. -/
theorem kinematics_single (G : Globals) (r : Road) (ego : Vehicle) (cfg cfg' : KinematicsConfig) (hc : ObserverOk cfg)
    (hn : cfg.vehiclesCount = 1) (obs : List (List ℝ)) (rng' : Rng) (h : Kinematics.observe G r ego cfg = .ok (obs, cfg', rng')) :
    obs.length = 1 + (r.vehicles.filter fun w => decide (Close ego 180 cfg.seeBehind w)).length := by
  obtain ⟨lanes, rs, row0, rows, a1, a2, a3, a4, a5, a6, a6', a7⟩ := observe_shape hc h
  have hl : rows.length = (r.vehicles.filter fun w => decide (Close ego 180 cfg.seeBehind w)).length := by
    rw [← a4.length_eq, hn]
    norm_num [sliceFrom]
    exact (close_all r ego 180 cfg.seeBehind (some 0) (.inr rfl)).1.length_eq
  have hf : Kinematics.fill cfg (row0 :: rows) = row0 :: rows := by
    unfold Kinematics.fill
    rw [hn]
    have : ((1 : Int) - (row0 :: rows).length).toNat = 0 := by simp only [List.length_cons]; omega
    rw [this]
    simp
  rw [hf] at a7
  unfold Kinematics.reorder at a7
  split at a7
  · injection a7 with b1 b2
    rw [b1, List.length_cons, shuffle_length, hl, Nat.add_comm]
  · injection a7 with b1 b2
    rw [b1, List.length_cons, hl, Nat.add_comm]

/-! ### Observing never raises -/

theorem destDir_total {g : Graph} {v : Vehicle} (h : RouteEnd g v.route) : ∃ d, v.destinationDirection g = .ok d := by
  have : ∃ d, v.destination g = .ok d := by
    unfold Vehicle.destination
    split
    · split
      · rename_i s rest hr
        obtain ⟨l, hl⟩ := h ((s :: rest).getLast (by simp)) (by rw [hr]; exact List.getLast?_eq_some_getLast (by simp))
        rw [hl]
        exact ⟨_, rfl⟩
      · exact ⟨_, rfl⟩
    · exact ⟨_, rfl⟩
  obtain ⟨d, hd⟩ := this
  unfold Vehicle.destinationDirection
  rw [hd]
  simp only [bind, Except.bind]
  split <;> exact ⟨_, rfl⟩

private theorem select_total {features : List String} {d : Dict String ℝ} (h : ∀ f ∈ features, ∃ x, Dict.get? d f = some x) :
    ∃ row, selectFeatures features d = .ok row := by
  apply mapM_ok
  intro f hf
  obtain ⟨x, hx⟩ := h f hf
  exact ⟨x, by unfold Dict.getItem; rw [hx]⟩

theorem own_known {dir : Vec2} {v : Vehicle} {f : String} (hf : f ∈ featureNames) : ∃ x, ownFeature dir v f = some x := by
  simp only [featureNames, List.mem_cons, List.not_mem_nil, or_false] at hf
  rcases hf with rfl | rfl | rfl | rfl | rfl | rfl | rfl | rfl | rfl | rfl <;> exact ⟨_, rfl⟩

theorem rel_known {dir : Vec2} {v ego : Vehicle} {f : String} (hf : f ∈ featureNames) : ∃ x, relFeature dir v ego f = some x := by
  simp only [featureNames, List.mem_cons, List.not_mem_nil, or_false] at hf
  rcases hf with rfl | rfl | rfl | rfl | rfl | rfl | rfl | rfl | rfl | rfl <;> exact ⟨_, rfl⟩

theorem toDict_total {g : Graph} {v : Vehicle} (o : Option Vehicle) (b : Bool) (h : RouteEnd g v.route)
    (ho : ∀ w, o = some w → RouteEnd g w.route) : ∃ d, v.toDict g o b = .ok d := by
  have hab : ∀ (w : Vehicle) (b : Bool), RouteEnd g w.route → ∃ d, w.absDict g b = .ok d := by
    intro w b hw
    obtain ⟨d, hd⟩ := destDir_total hw
    unfold Vehicle.absDict
    rw [hd]
    exact ⟨_, rfl⟩
  obtain ⟨d, hd⟩ := hab v b h
  unfold Vehicle.toDict
  rw [hd]
  cases o with
  | none => exact ⟨_, rfl⟩
  | some w =>
    obtain ⟨d', hd'⟩ := hab w true (ho w rfl)
    simp only [bind, Except.bind, hd']
    exact ⟨_, rfl⟩

/-- Observing a road raises nothing when the requested features exist and the lanes of all routes can be looked up. -/
theorem kinematics_never_raises (G : Globals) (r : Road) (hr : Observable r) (ego : Vehicle) (he : ego ∈ r.vehicles)
    (cfg : KinematicsConfig) (hc : ObserverOk cfg) : ∃ p, Kinematics.observe G r ego cfg = .ok p := by
  obtain ⟨hwf, hall⟩ := hr
  obtain ⟨hat, hego⟩ := hall ego he
  obtain ⟨d, hd⟩ := toDict_total none true hego (by simp)
  obtain ⟨dir, e1, e2⟩ := toDict_own hd
  obtain ⟨first, hf⟩ := select_total (features := cfg.features) (d := d) (fun f hf => by rw [e2]; exact own_known (hc.features f hf))
  have ht : ∃ rows, Kinematics.traffic r ego cfg = .ok rows := by
    unfold Kinematics.traffic
    apply mapM_ok
    intro v hv
    have hv' : v ∈ r.vehicles := by
      have : v ∈ r.closeVehiclesTo ego Kinematics.PERCEPTION_DISTANCE (some (cfg.vehiclesCount - 1)) cfg.seeBehind := by
        unfold sliceFrom at hv
        split at hv <;> exact List.mem_of_mem_drop hv
      unfold Road.closeVehiclesTo at this
      dsimp only at this
      have hms : ∀ l : List Vehicle, ∀ f, v ∈ l.mergeSort f → v ∈ l := fun l f h => (List.mergeSort_perm l f).mem_iff.1 h
      split at this
      · exact List.mem_of_mem_filter (hms _ _ this)
      · exact List.mem_of_mem_filter (hms _ _ this)
      · split at this <;> exact List.mem_of_mem_filter (hms _ _ (List.mem_of_mem_take this))
    obtain ⟨_, hvr⟩ := hall v hv'
    obtain ⟨d', hd'⟩ := toDict_total (if cfg.absolute then none else some ego) cfg.observeIntentions hvr (by
      intro w hw
      split at hw
      · cases hw
      · cases hw; exact hego)
    rw [hd']
    simp only [bind, Except.bind]
    apply select_total
    intro f hf
    by_cases ha : cfg.absolute = true
    · simp only [ha, if_true] at hd'
      obtain ⟨dir', _, e⟩ := toDict_own hd'
      rw [e]; exact own_known (hc.features f hf)
    · simp only [ha] at hd'
      obtain ⟨dir', _, e⟩ := toDict_rel hd'
      rw [e]; exact rel_known (hc.features f hf)
  obtain ⟨rows, ht⟩ := ht
  have hn : ∃ p, Kinematics.normalizeRows G r.network ego cfg (first :: rows) = .ok p := by
    unfold Kinematics.normalizeRows
    split
    · have : ∃ rs, Kinematics.ranges G r.network ego cfg = .ok rs := by
        unfold Kinematics.ranges
        split
        · exact ⟨_, rfl⟩
        · obtain ⟨k, l, _, ls, hls, _⟩ := hat.here
          unfold Graph.allSideLanes
          rw [(lanesOf_ok_iff hwf.toIsPyGraph).2 hls]
          exact ⟨_, rfl⟩
      obtain ⟨rs, hrs⟩ := this
      rw [hrs]
      exact ⟨_, rfl⟩
    · exact ⟨_, rfl⟩
  obtain ⟨⟨rows', cfg'⟩, hn⟩ := hn
  unfold Kinematics.observe
  simp only [hd, hf, ht, hn, bind, Except.bind]
  exact ⟨_, rfl⟩

/-! ## C49 — entries within [-1, 1] -/

private theorem scale_bound (r : ℝ × ℝ) (x : ℝ) : -1 ≤ scaleTo true r x ∧ scaleTo true r x ≤ 1 := by
  unfold scaleTo
  rw [if_pos rfl]
  exact ⟨le_max_left _ _, max_le (by norm_num) (min_le_left _ _)⟩

theorem own_bound {dir : Vec2} (hd : |dir.x| ≤ 1 ∧ |dir.y| ≤ 1) {v : Vehicle} {f : String} {y : ℝ} (h : ownFeature dir v f = some y)
    (hf : f = "presence" ∨ f = "cos_h" ∨ f = "sin_h" ∨ f = "cos_d" ∨ f = "sin_d") : -1 ≤ y ∧ y ≤ 1 := by
  have h1 := abs_le.1 hd.1
  have h2 := abs_le.1 hd.2
  rcases hf with rfl | rfl | rfl | rfl | rfl <;> simp only [ownFeature, Option.some.injEq] at h <;> subst h
  · norm_num
  · exact ⟨Real.neg_one_le_cos _, Real.cos_le_one _⟩
  · exact ⟨Real.neg_one_le_sin _, Real.sin_le_one _⟩
  · exact h1
  · exact h2

/-- **C49.**  With normalisation and clipping, every entry lies in [-1, 1], provided each of the features `x`, `y`, `vx`, `vy`,
`heading` that is observed has a range — for the default ranges: provided `heading` is not observed. -/
theorem kinematics_bounded (G : Globals) (r : Road) (ego : Vehicle) (cfg cfg' : KinematicsConfig) (hc : ObserverOk cfg) (n : ℕ)
    (hn : cfg.vehiclesCount = n) (h2 : 2 ≤ n) (hnorm : cfg.normalize = true) (hclip : cfg.clip = true)
    (hr : ∀ rs, cfg.featuresRange = some rs → rs ≠ [] → ∀ f ∈ cfg.features, f ∈ ["x", "y", "vx", "vy", "heading"] → f ∈ rs.map Prod.fst)
    (hh : cfg.featuresRange = none ∨ cfg.featuresRange = some [] → "heading" ∉ cfg.features)
    (obs : List (List ℝ)) (rng' : Rng) (h : Kinematics.observe G r ego cfg = .ok (obs, cfg', rng')) :
    ∀ row ∈ obs, ∀ x ∈ row, -1 ≤ x ∧ x ≤ 1 := by
  obtain ⟨_, _, lanes, rs, row0, rows, rest, a1, a2, a3, a4, a5, rfl, a7, _⟩ := kinematics_rows G r ego cfg cfg' hc n hn h2 obs rng' h
  have hcov : ∀ f ∈ cfg.features, f ∈ ["x", "y", "vx", "vy", "heading"] → ∃ q, Dict.get? rs f = some q := by
    intro f hf hf'
    have : f ∈ rs.map Prod.fst := by
      rcases a2 with ⟨h0, _⟩ | ⟨_, h1, h2⟩ | ⟨_, h1, rfl⟩
      · rw [hnorm] at h0; cases h0
      · exact hr rs h1 h2 f hf hf'
      · simp only [List.mem_cons, List.not_mem_nil, or_false] at hf'
        rcases hf' with rfl | rfl | rfl | rfl | rfl
        · simp
        · simp
        · simp
        · simp
        · exact absurd hf (hh h1)
    by_contra hq
    push Not at hq
    exact Dict.get?_eq_none_iff.1 (Option.eq_none_iff_forall_not_mem.2 fun q => hq q) this
  have key : ∀ (val : String → Option ℝ) (row : List ℝ), IsRow cfg.clip rs cfg.features val row →
      (∀ f y, val f = some y → f = "presence" ∨ f = "cos_h" ∨ f = "sin_h" ∨ f = "cos_d" ∨ f = "sin_d" → -1 ≤ y ∧ y ≤ 1) →
      ∀ x ∈ row, -1 ≤ x ∧ x ≤ 1 := by
    intro val row hrow hval x hx
    obtain ⟨f, hf, y, hy, rfl⟩ := mem_right hrow hx
    unfold entry
    rcases hq : Dict.get? rs f with _ | q
    · dsimp only
      refine hval f y hy ?_
      have hnames := hc.features f hf
      simp only [featureNames, List.mem_cons, List.not_mem_nil, or_false] at hnames
      have hno : f ∉ ["x", "y", "vx", "vy", "heading"] := fun hm => by
        obtain ⟨q, h⟩ := hcov f hf hm
        rw [hq] at h; cases h
      simp only [List.mem_cons, List.not_mem_nil, or_false, not_or] at hno
      tauto
    · dsimp only
      rw [hclip]; exact scale_bound q y
  intro row hrow
  rw [List.mem_cons, a7.mem_iff, List.mem_append] at hrow
  rcases hrow with rfl | hrow | hrow
  · obtain ⟨dir, ⟨d, hd, rfl⟩, hr⟩ := a3
    exact key _ _ hr fun f y hy hf => own_bound (destDir_bound hd) hy hf
  · obtain ⟨v, _, dir, ⟨d, hd, rfl⟩, hr⟩ := mem_right a4 hrow
    refine key _ _ hr fun f y hy hf => ?_
    have hb : |(if cfg.observeIntentions then d else (⟨0, 0⟩ : Vec2)).x| ≤ 1 ∧ |(if cfg.observeIntentions then d else (⟨0, 0⟩ : Vec2)).y| ≤ 1 := by
      split
      · exact destDir_bound hd
      · norm_num
    split at hy
    · exact own_bound hb hy hf
    · rcases hf with rfl | rfl | rfl | rfl | rfl
      · exact own_bound hb (v := v) (f := "presence") hy (by simp)
      · exact own_bound hb (v := v) (f := "cos_h") hy (by simp)
      · exact own_bound hb (v := v) (f := "sin_h") hy (by simp)
      · exact own_bound hb (v := v) (f := "cos_d") hy (by simp)
      · exact own_bound hb (v := v) (f := "sin_d") hy (by simp)
  · intro x hx
    rw [(List.mem_replicate.1 hrow).2] at hx
    rw [(List.mem_replicate.1 hx).2]
    norm_num

/-- **C49 fails for the feature `heading`** under the default ranges: its value is returned as it is. -/
theorem kinematics_heading_raw (G : Globals) (r : Road) (ego : Vehicle) (cfg cfg' : KinematicsConfig) (hc : ObserverOk cfg) (n : ℕ)
    (hn : cfg.vehiclesCount = n) (h2 : 2 ≤ n) (hr : cfg.featuresRange = none) (j : ℕ) (hj : cfg.features[j]? = some "heading")
    (obs : List (List ℝ)) (rng' : Rng) (h : Kinematics.observe G r ego cfg = .ok (obs, cfg', rng')) :
    ∃ row, obs[0]? = some row ∧ row[j]? = some ego.heading := by
  obtain ⟨_, _, lanes, rs, row0, rows, rest, a1, a2, ⟨dir, _, a3⟩, a4, a5, rfl, a7, _⟩ := kinematics_rows G r ego cfg cfg' hc n hn h2 obs rng' h
  refine ⟨row0, rfl, ?_⟩
  obtain ⟨x, hx, y, hy, he⟩ := get_right a3 hj
  cases hy
  have hrs : Dict.get? rs "heading" = none := by
    apply Dict.get?_eq_none_iff.2
    rcases a2 with ⟨_, rfl⟩ | ⟨_, hr', _⟩ | ⟨_, _, rfl⟩
    · simp
    · rw [hr] at hr'; cases hr'
    · simp
  rw [hx, he, entry, hrs]

/-! ## C69 — several observers, goals, images -/

/-- **C69.**  With several agents the joint observation is the list of the observations of the agents, in order, each made by its own
observer of the same road; the observers share the generator: each one starts from the state in which the previous one left it. -/
theorem observeAll_spec (G : Globals) (r : Road) (obsrs obsrs' : List (Vehicle × KinematicsConfig)) (os : List (List (List ℝ))) (rng' : Rng)
    (h : observeAll G r obsrs = .ok (os, obsrs', rng')) :
    os.length = obsrs.length ∧ ∃ gen : ℕ → Rng, gen 0 = r.rng ∧ gen obsrs.length = rng' ∧
      ∀ (i : ℕ) v cfg, obsrs[i]? = some (v, cfg) → ∃ o cfg', os[i]? = some o ∧ obsrs'[i]? = some (v, cfg') ∧
        Kinematics.observe G { r with rng := gen i } v cfg = .ok (o, cfg', gen (i + 1)) := by
  induction obsrs generalizing r os obsrs' with
  | nil => cases h; exact ⟨rfl, fun _ => r.rng, rfl, rfl, by simp⟩
  | cons vc rest ih =>
    obtain ⟨v, cfg⟩ := vc
    unfold observeAll at h
    obtain ⟨⟨o, cfg', rng1⟩, ho, h⟩ := bind_ok h
    obtain ⟨⟨os', cfgs', rng2⟩, hr, h⟩ := bind_ok h
    cases h
    obtain ⟨i1, gen, e0, e1, i2⟩ := ih _ _ _ hr
    refine ⟨by simp [i1], fun n => match n with | 0 => r.rng | n + 1 => gen n, rfl, e1, fun i w c hi => ?_⟩
    cases i with
    | zero =>
      simp only [List.getElem?_cons_zero, Option.some.injEq, Prod.mk.injEq] at hi
      obtain ⟨rfl, rfl⟩ := hi
      refine ⟨o, cfg', rfl, rfl, ?_⟩
      show Kinematics.observe G r v cfg = .ok (o, cfg', gen 0)
      rw [e0]; exact ho
    | succ i => simpa using i2 i w c (by simpa using hi)

/-- Unless rows are shuffled, an observation does not depend on the generator, nor changes it. -/
theorem observe_rng (G : Globals) (r : Road) (rng1 : Rng) (v : Vehicle) (cfg : KinematicsConfig) (hs : cfg.shuffled = false)
    (o : List (List ℝ)) (cfg' : KinematicsConfig) (rng2 : Rng)
    (h : Kinematics.observe G { r with rng := rng1 } v cfg = .ok (o, cfg', rng2)) :
    rng2 = rng1 ∧ Kinematics.observe G r v cfg = .ok (o, cfg', r.rng) := by
  unfold Kinematics.observe at h ⊢
  obtain ⟨d, hd, h⟩ := bind_ok h
  obtain ⟨first, hf, h⟩ := bind_ok h
  obtain ⟨others, ho, h⟩ := bind_ok h
  obtain ⟨⟨rows, cfg1⟩, hn, h⟩ := bind_ok h
  have h := Except.ok.inj h
  have ho' : Kinematics.traffic r v cfg = .ok others := ho
  have hs' : cfg1.shuffled = false := by
    unfold Kinematics.normalizeRows at hn
    split at hn
    · obtain ⟨rs, _, hn⟩ := bind_ok hn
      cases hn; exact hs
    · cases hn; exact hs
  dsimp only at hd hn
  simp only [Kinematics.reorder, hs', Bool.false_eq_true, if_false, Prod.mk.injEq] at h
  obtain ⟨rfl, rfl, rfl⟩ := h
  simp only [hd, hf, ho', hn, bind, Except.bind, Kinematics.reorder, hs', Bool.false_eq_true, if_false]
  exact ⟨trivial, rfl⟩

/-- The goal observation gives, divided by the scales, the features of the vehicle (twice: as observation and achieved goal) and those of
the goal. -/
theorem goalObservation_spec (g : Graph) (features : List String) (scales : List ℝ) (ego : Vehicle) (goal : RoadObject)
    (o a t : List ℝ) (h : goalObservation g features scales ego goal = .ok (o, a, t)) :
    a = o ∧ o.length = features.length ∧ t.length = features.length ∧
    ∀ (j : ℕ) f s, features[j]? = some f → scales[j]? = some s →
      (∃ x dir, ObservedDirection g ego true dir ∧ ownFeature dir ego f = some x ∧ o[j]? = some (x / s)) ∧
      (∃ x, Dict.get? goal.toDict f = some x ∧ t[j]? = some (x / s)) := by
  unfold goalObservation at h
  obtain ⟨d, hd, h⟩ := bind_ok h
  obtain ⟨ob, ho, h⟩ := bind_ok h
  obtain ⟨ta, ht, h⟩ := bind_ok h
  split at h
  · cases h
  · rename_i hl
    push Not at hl
    cases h
    obtain ⟨dir, e1, e2⟩ := toDict_own hd
    have h1 := select_spec e2 ho
    have h2 := select_spec (fun _ => rfl) ht
    have l1 := h1.length_eq
    have l2 := h2.length_eq
    refine ⟨rfl, by simp; omega, by simp; omega, fun j f s hf hs => ⟨?_, ?_⟩⟩
    · obtain ⟨x, hx, hv⟩ := get_right h1 hf
      refine ⟨x, dir, e1, hv, ?_⟩
      rw [List.getElem?_map, List.getElem?_zip_eq_some (z := (x, s)) |>.2 ⟨hx, hs⟩]; rfl
    · obtain ⟨x, hx, hv⟩ := get_right h2 hf
      refine ⟨x, hv, ?_⟩
      rw [List.getElem?_map, List.getElem?_zip_eq_some (z := (x, s)) |>.2 ⟨hx, hs⟩]; rfl

/-- After any number of image observations the stack holds, oldest first, the last frames: the last `stack_size` elements of the initial
stack followed by the frames. -/
theorem stack_spec {α : Type} (stack frames : List α) (h : stack ≠ []) :
    frames.foldl stackFrame stack = (stack ++ frames).drop frames.length ∧ (frames.foldl stackFrame stack).length = stack.length := by
  have key : frames.foldl stackFrame stack = (stack ++ frames).drop frames.length := by
    induction frames generalizing stack with
    | nil => simp
    | cons f fs ih =>
      rw [List.foldl_cons]
      obtain ⟨a, rest, rfl⟩ := List.exists_cons_of_ne_nil h
      rw [show stackFrame (a :: rest) f = rest ++ [f] from rfl, ih _ (by simp)]
      simp
  exact ⟨key, by rw [key]; simp⟩

/-- A stack of four frames after six observations. -/
example : [1, 2, 3, 4, 5, 6].foldl stackFrame [0, 0, 0, 0] = [3, 4, 5, 6] := rfl

/-! ### The hypotheses are met -/

example : ObserverOk {} := ⟨by simp [featureNames], by simp⟩

/-- The default observer of a stopped vehicle 20 m behind another one. -/
example : ∃ obs cfg' rng', Kinematics.observe {} { network := Sample.net, vehicles := [Sample.car 0 .idm 10 0 20, Sample.car 1 .idm 30 0 0], rng := { ints := fun _ => 0, reals := fun _ => 0 } } (Sample.car 0 .idm 10 0 20) {} = .ok (obs, cfg', rng') ∧
    obs.length = 5 := by
  obtain ⟨⟨obs, cfg', rng'⟩, h⟩ := kinematics_never_raises {} { network := Sample.net, vehicles := [Sample.car 0 .idm 10 0 20, Sample.car 1 .idm 30 0 0], rng := { ints := fun _ => 0, reals := fun _ => 0 } }
    ⟨Sample.net_wf, by
      intro v hv
      have : ∀ k x s, Attached Sample.net (Sample.car k .idm x 0 s) ∧ RouteEnd Sample.net (Sample.car k .idm x 0 s).route := fun k x s =>
        ⟨⟨⟨0, _, rfl, Sample.net_has0⟩, getLane_of_hasLane (k := 0) Sample.net_py rfl Sample.net_has0, ⟨0, _, rfl, Sample.net_has0⟩⟩,
          fun s hs => by cases hs⟩
      simp only [List.mem_cons, List.not_mem_nil, or_false] at hv
      rcases hv with rfl | rfl <;> exact this _ _ _⟩
    (Sample.car 0 .idm 10 0 20) (by simp) {} ⟨by simp [featureNames], by simp⟩
  exact ⟨obs, cfg', rng', h, (kinematics_rows {} _ _ {} cfg' ⟨by simp [featureNames], by simp⟩ 5 rfl (by norm_num) obs rng' h).1⟩

end HighwayEnv.Props
