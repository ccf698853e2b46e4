import Verif.Spec.Occupancy
import Verif.Props.Observation

/-!
# C50: the occupancy grid
-/

noncomputable section
open Classical
namespace HighwayEnv.Props
open HighwayEnv HighwayEnv.Spec

private theorem trunc_cell {a step x : ℝ} (h : 0 < step) (i : ℕ) : pyInt ((x - a) / step) = i ↔ InCell a step i x := by
  have e1 : ∀ c : ℝ, c ≤ (x - a) / step ↔ a + c * step ≤ x := fun c => by
    rw [le_div_iff₀ h]; constructor <;> intro h <;> linarith
  have e2 : ∀ c : ℝ, (x - a) / step < c ↔ x < a + c * step := fun c => by
    rw [div_lt_iff₀ h]; constructor <;> intro h <;> linarith
  have e3 : ∀ c : ℝ, c < (x - a) / step ↔ a + c * step < x := fun c => by
    rw [lt_div_iff₀ h]; constructor <;> intro h <;> linarith
  unfold pyInt InCell
  by_cases h0 : 0 ≤ (x - a) / step
  · rw [if_pos h0, Int.floor_eq_iff]
    simp only [Int.cast_natCast]
    rw [e1, e2]
    by_cases hi : i = 0
    · subst hi
      simp only [if_true, Nat.cast_zero]
      rw [e1] at h0
      constructor
      · rintro ⟨_, h2⟩; exact ⟨by linarith, h2⟩
      · rintro ⟨_, h2⟩; exact ⟨h0, h2⟩
    · simp only [hi, if_false]
  · rw [if_neg h0, Int.ceil_eq_iff]
    simp only [Int.cast_natCast]
    rw [e1] at h0
    push Not at h0
    have h0' : x < a := by linarith
    by_cases hi : i = 0
    · subst hi
      simp only [if_true, Nat.cast_zero]
      rw [e3]
      constructor
      · rintro ⟨h1, _⟩; exact ⟨by linarith, by linarith⟩
      · rintro ⟨h1, _⟩
        refine ⟨by linarith, ?_⟩
        have := (e2 0).2 (by linarith)
        exact this.le
    · simp only [hi, if_false]
      have hi' : (1 : ℝ) ≤ i := by exact_mod_cast Nat.one_le_iff_ne_zero.2 hi
      constructor
      · rintro ⟨h1, _⟩
        have := (e3 _).1 h1
        nlinarith
      · rintro ⟨h1, _⟩
        nlinarith

private theorem lmap_entry (rs : Dict String (ℝ × ℝ)) (f : String) (x : ℝ) :
    entry false rs f x = match Dict.get? rs f with | some r => lmap x r (-1, 1) | none => x := by
  unfold entry
  cases Dict.get? rs f with
  | none => rfl
  | some r => simp only [scaleTo, lmap, Bool.false_eq_true, if_false]; ring

private theorem normalizeDict_get (rs : Dict String (ℝ × ℝ)) (hn : (rs.map Prod.fst).Nodup) (d : Dict String ℝ) (f : String) :
    Dict.get? (Occupancy.normalizeDict rs d) f = (Dict.get? d f).map (entry false rs f) := by
  induction rs generalizing d with
  | nil =>
    simp only [Occupancy.normalizeDict, List.foldl_nil]
    have : entry false ([] : Dict String (ℝ × ℝ)) f = id := by
      funext x; simp [entry, Dict.get?]
    rw [this, Option.map_id]; rfl
  | cons fr rs ih =>
    obtain ⟨k, r⟩ := fr
    rw [List.map_cons, List.nodup_cons] at hn
    have hs : Occupancy.normalizeDict ((k, r) :: rs) d = Occupancy.normalizeDict rs (Occupancy.normalizeKey d (k, r)) := rfl
    rw [hs, ih hn.2]
    by_cases hk : k = f
    · subst hk
      have hnone : Dict.get? rs k = none := Dict.get?_eq_none_iff.2 hn.1
      have e1 : entry false rs k = id := by funext x; simp [entry, hnone]
      have e2 : entry false ((k, r) :: rs) k = fun x => lmap x r (-1, 1) := by
        funext x; rw [lmap_entry]; simp [Dict.get?]
      rw [e1, e2, Option.map_id, id]
      unfold Occupancy.normalizeKey
      dsimp only
      split
      · rename_i x hx
        rw [hx, Dict.get?_setItem]; simp
      · rename_i hx; rw [hx]; rfl
    · have e1 : entry false ((k, r) :: rs) f = entry false rs f := by
        funext x; unfold entry; simp [Dict.get?, hk]
      rw [e1]
      congr 1
      unfold Occupancy.normalizeKey
      dsimp only
      split
      · rw [Dict.get?_setItem, if_neg hk]
      · rfl

private theorem recover_entry (rs : Dict String (ℝ × ℝ)) (hr : ∀ fr ∈ rs, fr.2.1 ≠ fr.2.2) (f : String) (x : ℝ) :
    Occupancy.recover rs f (entry false rs f x) = x := by
  rw [lmap_entry]
  unfold Occupancy.recover
  cases h : Dict.get? rs f with
  | none => rfl
  | some r =>
    have := hr _ (Dict.mem_of_get? h)
    have : r.2 - r.1 ≠ 0 := fun h => this (by simp only; linarith)
    simp only [lmap]
    field_simp
    ring

/-! ### The loops -/

private theorem write_in {g : Grid3} {k i j : ℕ} {x : ℝ} (hk : k < g.s) (hi : i < g.l) (hj : j < g.t) :
    g.write k i j x = .ok { g with at' := fun k' i' j' => if k' = k ∧ i' = i ∧ j' = j then x else g.at' k' i' j' } := by
  have ax : ∀ n m : ℕ, m < n → Grid3.axisIndex n (m : Int) = .ok m := by
    intro n m h
    unfold Grid3.axisIndex
    have : ¬ ((m : Int) < 0) := by omega
    simp only [this, if_false]
    rw [if_pos ⟨by omega, by omega⟩]
    simp
  unfold Grid3.write
  rw [ax _ _ hk, ax _ _ hi, ax _ _ hj]
  rfl

private def SameShape (g g' : Grid3) : Prop := g'.s = g.s ∧ g'.l = g.l ∧ g'.t = g.t

/-- What one layer does. -/
private theorem layer_spec (o : Occupancy) (rs : Dict String (ℝ × ℝ)) (k : ℕ) (f : String) (rows : List (Dict String ℝ)) (g : Grid3)
    (hk : k < g.s) {g' : Grid3} (h : rows.foldlM (o.put rs k f) g = .ok g') :
    SameShape g g' ∧ (∀ k', k' ≠ k → g'.at' k' = g.at' k') ∧
    ∀ i j : ℕ, i < g.l → j < g.t →
      ((∀ d ∈ rows, o.cell rs d ≠ .ok ((j : Int), (i : Int))) → g'.at' k i j = g.at' k i j) ∧
      (∀ l₁ d l₂, rows = l₁ ++ d :: l₂ → o.cell rs d = .ok ((j : Int), (i : Int)) →
        (∀ e ∈ l₂, o.cell rs e ≠ .ok ((j : Int), (i : Int))) → Dict.get? d f = some (g'.at' k i j)) := by
  induction rows generalizing g with
  | nil =>
    cases h
    exact ⟨⟨rfl, rfl, rfl⟩, fun _ _ => rfl, fun i j _ _ => ⟨fun _ => rfl, fun l₁ d l₂ he => by simp at he⟩⟩
  | cons d rows ih =>
    rw [List.foldlM_cons] at h
    obtain ⟨g1, h1, h2⟩ := bind_ok h
    -- the effect of one write
    have key : SameShape g g1 ∧ (∀ k', k' ≠ k → g1.at' k' = g.at' k') ∧ ∀ i j : ℕ, i < g.l → j < g.t →
        (o.cell rs d ≠ .ok ((j : Int), (i : Int)) → g1.at' k i j = g.at' k i j) ∧
        (o.cell rs d = .ok ((j : Int), (i : Int)) → Dict.get? d f = some (g1.at' k i j)) := by
      unfold Occupancy.put at h1
      obtain ⟨c, hc, h1⟩ := bind_ok h1
      obtain ⟨c1, c2⟩ := c
      dsimp only at h1
      split at h1
      · rename_i hin
        obtain ⟨x, hx, h1⟩ := bind_ok h1
        obtain ⟨a, rfl⟩ := Int.eq_ofNat_of_zero_le hin.1
        obtain ⟨b, rfl⟩ := Int.eq_ofNat_of_zero_le hin.2.2.1
        rw [write_in hk (by omega) (by omega)] at h1
        cases h1
        refine ⟨⟨rfl, rfl, rfl⟩, ?_, ?_⟩
        · intro k' hk'
          funext i j
          simp only [hk', false_and, if_false]
        · intro i j hi hj
          rw [hc]
          constructor
          · intro hne
            dsimp only
            rw [if_neg]
            rintro ⟨_, rfl, rfl⟩
            exact hne rfl
          · intro he
            have he := Except.ok.inj he
            have e1 : b = j := Int.ofNat.inj (congrArg Prod.fst he)
            have e2 : a = i := Int.ofNat.inj (congrArg Prod.snd he)
            subst e1 e2
            dsimp only
            rw [if_pos ⟨rfl, rfl, rfl⟩]
            unfold Dict.getItem at hx
            split at hx
            · rename_i y hy; cases hx; exact hy
            · cases hx
      · rename_i hout
        cases h1
        refine ⟨⟨rfl, rfl, rfl⟩, fun _ _ => rfl, fun i j hi hj => ⟨fun _ => rfl, fun he => ?_⟩⟩
        rw [hc] at he
        have he := Except.ok.inj he
        have e1 : c1 = (j : Int) := congrArg Prod.fst he
        have e2 : c2 = (i : Int) := congrArg Prod.snd he
        exact absurd ⟨by omega, by omega, by omega, by omega⟩ hout
    obtain ⟨s1, o1, v1⟩ := key
    have hk1 : k < g1.s := by rw [s1.1]; exact hk
    obtain ⟨s2, o2, v2⟩ := ih g1 hk1 h2
    refine ⟨⟨s2.1.trans s1.1, s2.2.1.trans s1.2.1, s2.2.2.trans s1.2.2⟩, fun k' hk' => (o2 k' hk').trans (o1 k' hk'), ?_⟩
    intro i j hi hj
    have hi1 : i < g1.l := by rw [s1.2.1]; exact hi
    have hj1 : j < g1.t := by rw [s1.2.2]; exact hj
    constructor
    · intro hno
      rw [(v2 i j hi1 hj1).1 fun e he => hno e (List.mem_cons_of_mem _ he)]
      exact (v1 i j hi hj).1 (hno d (by simp))
    · intro l₁ e l₂ he hc hlast
      cases l₁ with
      | nil =>
        simp only [List.nil_append, List.cons.injEq] at he
        obtain ⟨rfl, rfl⟩ := he
        rw [(v2 i j hi1 hj1).1 hlast]
        exact (v1 i j hi hj).2 hc
      | cons a l₁ =>
        simp only [List.cons_append, List.cons.injEq] at he
        exact (v2 i j hi1 hj1).2 l₁ e l₂ he.2 hc hlast

/-- What all the layers do, starting at layer `n`. -/
private theorem layers_spec (o : Occupancy) (rs : Dict String (ℝ × ℝ)) (rows : List (Dict String ℝ)) (fs : List String) (n : ℕ) (g : Grid3)
    (hn : n + fs.length ≤ g.s) {g' : Grid3}
    (h : (fs.zipIdx n).foldlM (fun grid fk => rows.foldlM (o.put rs fk.2 fk.1) grid) g = .ok g') :
    SameShape g g' ∧ (∀ k', k' < n → g'.at' k' = g.at' k') ∧
    ∀ m f, fs[m]? = some f → ∀ i j : ℕ, i < g.l → j < g.t →
      ((∀ d ∈ rows, o.cell rs d ≠ .ok ((j : Int), (i : Int))) → g'.at' (n + m) i j = g.at' (n + m) i j) ∧
      (∀ l₁ d l₂, rows = l₁ ++ d :: l₂ → o.cell rs d = .ok ((j : Int), (i : Int)) →
        (∀ e ∈ l₂, o.cell rs e ≠ .ok ((j : Int), (i : Int))) → Dict.get? d f = some (g'.at' (n + m) i j)) := by
  induction fs generalizing n g with
  | nil => cases h; exact ⟨⟨rfl, rfl, rfl⟩, fun _ _ => rfl, by simp⟩
  | cons f0 fs ih =>
    rw [List.zipIdx_cons, List.foldlM_cons] at h
    obtain ⟨g1, h1, h2⟩ := bind_ok h
    simp only [List.length_cons] at hn
    obtain ⟨s1, o1, v1⟩ := layer_spec o rs n f0 rows g (by omega) h1
    obtain ⟨s2, o2, v2⟩ := ih (n + 1) g1 (by rw [s1.1]; omega) h2
    refine ⟨⟨s2.1.trans s1.1, s2.2.1.trans s1.2.1, s2.2.2.trans s1.2.2⟩,
      fun k' hk' => (o2 k' (by omega)).trans (o1 k' (by omega)), ?_⟩
    intro m f hm i j hi hj
    have hi1 : i < g1.l := by rw [s1.2.1]; exact hi
    have hj1 : j < g1.t := by rw [s1.2.2]; exact hj
    cases m with
    | zero =>
      simp only [List.getElem?_cons_zero, Option.some.injEq] at hm
      subst hm
      simp only [Nat.add_zero]
      rw [o2 n (by omega)]
      exact v1 i j hi hj
    | succ m =>
      simp only [List.getElem?_cons_succ] at hm
      have := v2 m f hm i j hi1 hj1
      have e : n + 1 + m = n + (m + 1) := by omega
      rw [e] at this
      refine ⟨fun hno => ?_, this.2⟩
      rw [this.1 hno, o1 _ (by omega)]

private theorem mem_split {α : Type} {P : α → Prop} {l : List α} (h : ∃ a ∈ l, P a) :
    ∃ l₁ a l₂, l = l₁ ++ a :: l₂ ∧ P a ∧ ∀ b ∈ l₂, ¬ P b := by
  induction l with
  | nil => obtain ⟨a, ha, _⟩ := h; simp at ha
  | cons x l ih =>
    by_cases hl : ∃ a ∈ l, P a
    · obtain ⟨l₁, a, l₂, e, ha, hb⟩ := ih hl
      exact ⟨x :: l₁, a, l₂, by rw [e]; rfl, ha, hb⟩
    · obtain ⟨a, ha, hp⟩ := h
      rcases List.mem_cons.1 ha with rfl | ha
      · exact ⟨[], a, l, rfl, hp, fun b hb hpb => hl ⟨b, hb, hpb⟩⟩
      · exact absurd ⟨a, ha, hp⟩ hl

private theorem ranges_spec (G : Globals) (o : Occupancy) : OccupancyRanges G o (o.ranges G) := by
  unfold Occupancy.ranges
  split
  · rename_i r rs h; exact Or.inl ⟨h, by simp⟩
  · rename_i h
    refine Or.inr ⟨?_, rfl⟩
    cases hf : o.featuresRange with
    | none => exact Or.inl rfl
    | some l => cases l with
      | nil => exact Or.inr rfl
      | cons r rs => exact absurd hf (h r rs)

private theorem ranges_ok {G : Globals} {o : Occupancy} (ho : OccupancyOk G o) :
    ((o.ranges G).map Prod.fst).Nodup ∧ ∀ fr ∈ o.ranges G, fr.2.1 ≠ fr.2.2 := by
  rcases ranges_spec G o with ⟨h, _⟩ | ⟨_, h⟩
  · exact ho.ranges _ h
  · rw [h]
    refine ⟨by simp, ?_⟩
    have := ho.speed
    intro fr hfr
    simp only [List.mem_cons, List.not_mem_nil, or_false] at hfr
    rcases hfr with rfl | rfl <;> dsimp only <;> intro h <;> linarith

private theorem seen_get {g : Graph} {v : Vehicle} {observer : Option Vehicle} {d : Dict String ℝ} (h : v.toDict g observer = .ok d) :
    ∃ dir, v.destinationDirection g = .ok dir ∧ ∀ f, Dict.get? d f = seenFeature dir v observer f := by
  cases observer with
  | none =>
    obtain ⟨dir, ⟨d', h1, h2⟩, h3⟩ := toDict_own h
    simp only [if_true] at h2
    subst h2
    exact ⟨_, h1, h3⟩
  | some ego =>
    obtain ⟨dir, ⟨d', h1, h2⟩, h3⟩ := toDict_rel h
    simp only [if_true] at h2
    subst h2
    exact ⟨_, h1, h3⟩

private theorem seen_xy (dir : Vec2) (v : Vehicle) (observer : Option Vehicle) :
    seenFeature dir v observer "x" = some (seenPosition v observer).x ∧ seenFeature dir v observer "y" = some (seenPosition v observer).y := by
  cases observer <;> exact ⟨rfl, rfl⟩

private theorem cell_spec {G : Globals} {o : Occupancy} (ho : OccupancyOk G o) {g : Graph} {v : Vehicle} {observer : Option Vehicle}
    {d : Dict String ℝ} (h : v.toDict g observer = .ok d) (i j : ℕ) :
    o.cell (o.ranges G) (Occupancy.normalizeDict (o.ranges G) d) = .ok ((j : Int), (i : Int)) ↔ SeenIn o observer i j v := by
  obtain ⟨dir, _, hd⟩ := seen_get h
  obtain ⟨hn, hr⟩ := ranges_ok ho
  unfold Occupancy.cell
  unfold Dict.getItem
  simp only [normalizeDict_get _ hn, hd, (seen_xy dir v observer).1, (seen_xy dir v observer).2, Option.map_some, bind, Except.bind]
  rw [recover_entry _ hr, recover_entry _ hr]
  unfold SeenIn
  rw [← trunc_cell ho.stepX, ← trunc_cell ho.stepY]
  simp only [pure, Except.pure, Except.ok.injEq, Prod.mk.injEq]

private theorem mapM_split {α β : Type} {f : α → Py β} {l : List α} {m : List β} (h : l.mapM f = .ok m) :
    List.Forall₂ (fun a b => f a = .ok b) l m := by
  induction l generalizing m with
  | nil => cases h; exact .nil
  | cons a l ih =>
    rw [List.mapM_cons] at h
    obtain ⟨b, h1, h⟩ := bind_ok h
    obtain ⟨bs, h2, h⟩ := bind_ok h
    cases h
    exact .cons h1 (ih h2)

private theorem forall₂_split {α β : Type} {R : α → β → Prop} {l : List α} {m : List β} (h : List.Forall₂ R l m) {l₁ l₂ : List α} {a : α}
    (e : l = l₁ ++ a :: l₂) : ∃ m₁ b m₂, m = m₁ ++ b :: m₂ ∧ R a b ∧ List.Forall₂ R l₂ m₂ := by
  subst e
  induction l₁ generalizing m with
  | nil =>
    cases h with
    | cons hab hrest => exact ⟨[], _, _, rfl, hab, hrest⟩
  | cons x l₁ ih =>
    cases h with
    | cons hab hrest =>
      obtain ⟨m₁, b, m₂, e, h1, h2⟩ := ih hrest
      exact ⟨_ :: m₁, b, m₂, by rw [e]; rfl, h1, h2⟩

private theorem forall₂_right {α β : Type} {R : α → β → Prop} {l : List α} {m : List β} (h : List.Forall₂ R l m) {b : β} (hb : b ∈ m) :
    ∃ a ∈ l, R a b := by
  induction h with
  | nil => simp at hb
  | cons h1 _ ih =>
    rcases List.mem_cons.1 hb with rfl | hb
    · exact ⟨_, by simp, h1⟩
    · obtain ⟨a, ha, hr⟩ := ih hb
      exact ⟨a, List.mem_cons_of_mem _ ha, hr⟩

/-- **C50**: an occupancy grid has one layer per feature and the configured numbers of rows and columns; a cell in which no vehicle is seen
is 0; any other cell contains the feature of the *last* vehicle of the road seen in it, rescaled and cut to `[-1, 1]`.  What the grid
contained before does not matter. -/
theorem occupancy_cells (G : Globals) (o o' : Occupancy) (ho : OccupancyOk G o) (r : Road) (observer : Option Vehicle) (obs : Grid3)
    (h : o.observe G (some r) observer = .ok (obs, o')) :
    obs.s = o.features.length ∧ obs.l = o.grid.l ∧ obs.t = o.grid.t ∧
    ∃ rs, OccupancyRanges G o rs ∧ o'.featuresRange = some rs ∧
    ∀ m f, o.features[m]? = some f → ∀ i j, i < obs.l → j < obs.t →
      ((∀ v ∈ r.vehicles, ¬ SeenIn o observer i j v) → obs.at' m i j = 0) ∧
      (∀ vs₁ v vs₂, r.vehicles = vs₁ ++ v :: vs₂ → SeenIn o observer i j v → (∀ w ∈ vs₂, ¬ SeenIn o observer i j w) →
        ∃ dir x, v.destinationDirection r.network = .ok dir ∧ seenFeature dir v observer f = some x ∧
          obs.at' m i j = max (-1) (min 1 (entry false rs f x))) := by
  unfold Occupancy.observe at h
  dsimp only at h
  split at h
  · cases h
  obtain ⟨rows, hrows, h⟩ := bind_ok h
  obtain ⟨grid, hgrid, h⟩ := bind_ok h
  cases h
  unfold Occupancy.fillLayers at hgrid
  obtain ⟨hs, -, hv⟩ := layers_spec o (o.ranges G) _ o.features 0 (Grid3.zeros o.grid.s o.grid.l o.grid.t)
    (by rw [Nat.zero_add]; exact ho.layers.ge) hgrid
  have h2 := mapM_split hrows
  obtain ⟨hn, hr⟩ := ranges_ok ho
  refine ⟨hs.1.trans ho.layers, hs.2.1, hs.2.2, o.ranges G, ranges_spec G o, rfl, ?_⟩
  intro m f hm i j hi hj
  have hi' : i < o.grid.l := lt_of_lt_of_eq hi hs.2.1
  have hj' : j < o.grid.t := lt_of_lt_of_eq hj hs.2.2
  have hmv := hv m f hm i j hi' hj'
  rw [Nat.zero_add] at hmv
  constructor
  · intro hno
    have : grid.at' m i j = 0 := by
      rw [hmv.1]; · rfl
      intro d hd
      obtain ⟨d', hd', rfl⟩ := List.mem_map.1 hd
      obtain ⟨v, hv, hvd⟩ := forall₂_right h2 hd'
      rw [Ne, cell_spec ho hvd]
      exact hno v hv
    dsimp only
    rw [this]
    norm_num [npClip]
  · intro vs₁ v vs₂ hvs hsee hlast
    obtain ⟨m₁, d, m₂, e, hvd, hrest⟩ := forall₂_split h2 hvs
    have hget := hmv.2 (m₁.map (Occupancy.normalizeDict (o.ranges G))) (Occupancy.normalizeDict (o.ranges G) d)
      (m₂.map (Occupancy.normalizeDict (o.ranges G))) (by rw [e]; simp) ((cell_spec ho hvd i j).2 hsee) (by
        intro e' he'
        obtain ⟨d', hd', rfl⟩ := List.mem_map.1 he'
        obtain ⟨w, hw, hwd⟩ := forall₂_right hrest hd'
        rw [Ne, cell_spec ho hwd]
        exact hlast w hw)
    obtain ⟨dir, hdir, hd⟩ := seen_get hvd
    rw [normalizeDict_get _ hn, hd] at hget
    cases hx : seenFeature dir v observer f with
    | none => rw [hx] at hget; simp at hget
    | some x =>
      rw [hx, Option.map_some, Option.some.injEq] at hget
      refine ⟨dir, x, hdir, hx, ?_⟩
      dsimp only
      rw [← hget]
      unfold npClip
      rw [min_comm, max_comm]
      exact min_max_distrib_left .. |>.trans (by rw [min_eq_right (by norm_num : (-1 : ℝ) ≤ 1), max_comm])

/-- All entries of an occupancy grid are in the declared box `[-1, 1]`. -/
theorem occupancy_bounded (G : Globals) (o o' : Occupancy) (road : Option Road) (observer : Option Vehicle) (obs : Grid3)
    (h : o.observe G road observer = .ok (obs, o')) (k i j : ℕ) : -1 ≤ obs.at' k i j ∧ obs.at' k i j ≤ 1 := by
  unfold Occupancy.observe at h
  cases road with
  | none => cases h; norm_num [Grid3.zeros]
  | some r =>
    dsimp only at h
    split at h
    · cases h
    obtain ⟨rows, hrows, h⟩ := bind_ok h
    obtain ⟨grid, hgrid, h⟩ := bind_ok h
    cases h
    dsimp only [npClip]
    exact ⟨le_min (le_max_right _ _) (by norm_num), min_le_right _ _⟩

private theorem fill_total (o : Occupancy) (rs : Dict String (ℝ × ℝ)) (rows : List (Dict String ℝ)) (fs : List String) (n : ℕ) (g : Grid3)
    (hn : n + fs.length ≤ g.s) (hc : ∀ d ∈ rows, ∃ c, o.cell rs d = .ok c) (hf : ∀ d ∈ rows, ∀ f ∈ fs, ∃ x, Dict.get? d f = some x) :
    ∃ g', (fs.zipIdx n).foldlM (fun grid fk => rows.foldlM (o.put rs fk.2 fk.1) grid) g = .ok g' := by
  have hput : ∀ d ∈ rows, ∀ f ∈ fs, ∀ (k : ℕ) (g : Grid3), k < g.s → ∃ g', o.put rs k f g d = .ok g' := by
    intro d hd f hfs k g hk
    obtain ⟨c, hc⟩ := hc d hd
    obtain ⟨x, hx⟩ := hf d hd f hfs
    unfold Occupancy.put
    rw [hc]
    simp only [bind, Except.bind]
    split
    · rename_i hin
      obtain ⟨c1, c2⟩ := c
      obtain ⟨a, rfl⟩ := Int.eq_ofNat_of_zero_le hin.1
      obtain ⟨b, rfl⟩ := Int.eq_ofNat_of_zero_le hin.2.2.1
      unfold Dict.getItem
      rw [hx]
      dsimp only
      rw [write_in hk (by omega) (by omega)]
      exact ⟨_, rfl⟩
    · exact ⟨_, rfl⟩
  induction fs generalizing n g with
  | nil => exact ⟨g, rfl⟩
  | cons f0 fs ih =>
    rw [List.zipIdx_cons, List.foldlM_cons]
    simp only [List.length_cons] at hn
    have hrow : ∀ (l : List (Dict String ℝ)), (∀ d ∈ l, d ∈ rows) → ∀ g : Grid3, n < g.s → ∃ g', l.foldlM (o.put rs n f0) g = .ok g' := by
      intro l
      induction l with
      | nil => intro _ g _; exact ⟨g, rfl⟩
      | cons d l ihl =>
        intro hl g hk
        obtain ⟨g1, h1⟩ := hput d (hl d (by simp)) f0 (by simp) n g hk
        have hs1 : SameShape g g1 := (layer_spec o rs n f0 [d] g hk (by
          rw [List.foldlM_cons, h1]; rfl)).1
        obtain ⟨g2, h2⟩ := ihl (fun e he => hl e (List.mem_cons_of_mem _ he)) g1 (by rw [hs1.1]; exact hk)
        exact ⟨g2, by rw [List.foldlM_cons, h1]; exact h2⟩
    obtain ⟨g1, h1⟩ := hrow rows (fun _ h => h) g (by omega)
    have hs1 := (layer_spec o rs n f0 rows g (by omega) h1).1
    obtain ⟨g2, h2⟩ := ih (n + 1) g1 (by rw [hs1.1]; omega) (fun d hd f hf' => hf d hd f (by simp [hf']))
      (fun d hd f hf' => hput d hd f (by simp [hf']))
    exact ⟨g2, by dsimp only; rw [h1]; exact h2⟩

/-- Observing raises nothing on any road whose routes can be looked up, wherever the vehicles are (unless absolute coordinates are asked
for, which is not implemented). -/
theorem occupancy_never_raises (G : Globals) (o : Occupancy) (ho : OccupancyOk G o) (ha : o.absolute = false)
    (hf : ∀ f ∈ o.features, f ∈ featureNames) (road : Option Road) (observer : Option Vehicle)
    (hr : ∀ r, road = some r → (∀ v ∈ r.vehicles, RouteEnd r.network v.route) ∧
      ∀ ego, observer = some ego → RouteEnd r.network ego.route) :
    ∃ obs o', o.observe G road observer = .ok (obs, o') := by
  unfold Occupancy.observe
  cases road with
  | none => exact ⟨_, _, rfl⟩
  | some r =>
    obtain ⟨hv, he⟩ := hr r rfl
    dsimp only
    rw [if_neg (by rw [ha]; simp)]
    obtain ⟨rows, hrows⟩ := mapM_ok (vs := r.vehicles) (f := fun v : Vehicle => v.toDict r.network observer)
      (fun v hmem => toDict_total observer true (hv v hmem) he)
    have h2 := mapM_split hrows
    obtain ⟨hn, hrr⟩ := ranges_ok ho
    have hget : ∀ d ∈ rows.map (Occupancy.normalizeDict (o.ranges G)), ∀ f ∈ featureNames, ∃ x, Dict.get? d f = some x := by
      intro d hd f hf
      obtain ⟨d', hd', rfl⟩ := List.mem_map.1 hd
      obtain ⟨v, _, hvd⟩ := forall₂_right h2 hd'
      obtain ⟨dir, _, hd⟩ := seen_get hvd
      rw [normalizeDict_get _ hn, hd]
      have : ∃ x, seenFeature dir v observer f = some x := by
        unfold seenFeature
        split
        · exact rel_known hf
        · exact own_known hf
      obtain ⟨x, hx⟩ := this
      rw [hx]
      exact ⟨_, rfl⟩
    obtain ⟨grid, hgrid⟩ := fill_total o (o.ranges G) (rows.map (Occupancy.normalizeDict (o.ranges G))) o.features 0
      (Grid3.zeros o.grid.s o.grid.l o.grid.t) (by rw [Nat.zero_add]; exact ho.layers.ge) (by
        intro d hd
        obtain ⟨x, hx⟩ := hget d hd "x" (by simp [featureNames])
        obtain ⟨y, hy⟩ := hget d hd "y" (by simp [featureNames])
        unfold Occupancy.cell Dict.getItem
        rw [hx, hy]
        exact ⟨_, rfl⟩) (fun d hd f hf' => hget d hd f (hf f hf'))
    rw [hrows]
    simp only [bind, Except.bind]
    unfold Occupancy.fillLayers
    rw [hgrid]
    exact ⟨_, _, rfl⟩

/-- The constructor: the first axis of the grid counts the steps that fit into the *first* (x) extent, the second axis those of the
second (y) extent; leaving the step out raises, although a default step is documented. -/
theorem occupancy_init (cfg : OccupancyConfig) (step : ℝ × ℝ) (hs : cfg.gridStep = some step) (h1 : 0 < step.1) (h2 : 0 < step.2)
    (hx : cfg.gridSize.1.1 ≤ cfg.gridSize.1.2) (hy : cfg.gridSize.2.1 ≤ cfg.gridSize.2.2) :
    ∃ o, Occupancy.init cfg = .ok o ∧ o.features = cfg.features ∧ o.gridSize = cfg.gridSize ∧ o.gridStep = step ∧
      o.featuresRange = cfg.featuresRange ∧ o.absolute = cfg.absolute ∧ o.grid.s = cfg.features.length ∧
      (o.grid.l * step.1 ≤ cfg.gridSize.1.2 - cfg.gridSize.1.1 ∧ cfg.gridSize.1.2 - cfg.gridSize.1.1 < (o.grid.l + 1) * step.1) ∧
      (o.grid.t * step.2 ≤ cfg.gridSize.2.2 - cfg.gridSize.2.1 ∧ cfg.gridSize.2.2 - cfg.gridSize.2.1 < (o.grid.t + 1) * step.2) := by
  unfold Occupancy.init
  rw [hs]
  dsimp only
  have f1 : 0 ≤ ⌊(cfg.gridSize.1.2 - cfg.gridSize.1.1) / step.1⌋ := Int.floor_nonneg.2 (div_nonneg (by linarith) h1.le)
  have f2 : 0 ≤ ⌊(cfg.gridSize.2.2 - cfg.gridSize.2.1) / step.2⌋ := Int.floor_nonneg.2 (div_nonneg (by linarith) h2.le)
  rw [if_neg (by omega)]
  refine ⟨_, rfl, rfl, rfl, rfl, rfl, rfl, rfl, ?_, ?_⟩
  · have e : ((⌊(cfg.gridSize.1.2 - cfg.gridSize.1.1) / step.1⌋.toNat : ℕ) : ℝ) = (⌊(cfg.gridSize.1.2 - cfg.gridSize.1.1) / step.1⌋ : ℝ) := by
      exact_mod_cast Int.toNat_of_nonneg f1
    dsimp only [Grid3.zeros]
    rw [e, ← le_div_iff₀ h1, ← div_lt_iff₀ h1]
    exact ⟨Int.floor_le _, Int.lt_floor_add_one _⟩
  · have e : ((⌊(cfg.gridSize.2.2 - cfg.gridSize.2.1) / step.2⌋.toNat : ℕ) : ℝ) = (⌊(cfg.gridSize.2.2 - cfg.gridSize.2.1) / step.2⌋ : ℝ) := by
      exact_mod_cast Int.toNat_of_nonneg f2
    dsimp only [Grid3.zeros]
    rw [e, ← le_div_iff₀ h2, ← div_lt_iff₀ h2]
    exact ⟨Int.floor_le _, Int.lt_floor_add_one _⟩

/-- The documented default of the step is unusable. -/
theorem occupancy_init_default (cfg : OccupancyConfig) (hs : cfg.gridStep = none) : Occupancy.init cfg = .error .typeError := by
  unfold Occupancy.init; rw [hs]

private theorem inCell_exists {a step : ℝ} (h : 0 < step) {n : ℕ} {x : ℝ} (h1 : a ≤ x) (h2 : x < a + n * step) :
    ∃ i, i < n ∧ InCell a step i x := by
  have h0 : 0 ≤ (x - a) / step := div_nonneg (by linarith) h.le
  refine ⟨⌊(x - a) / step⌋.toNat, ?_, ?_⟩
  · have : ⌊(x - a) / step⌋ < n := by
      rw [Int.floor_lt, div_lt_iff₀ h]
      push_cast
      linarith
    have := Int.floor_nonneg.2 h0
    omega
  · rw [← trunc_cell h]
    unfold pyInt
    rw [if_pos h0, Int.toNat_of_nonneg (Int.floor_nonneg.2 h0)]

private theorem inCell_unique {a step : ℝ} (h : 0 < step) {i j : ℕ} {x : ℝ} (h1 : InCell a step i x) (h2 : InCell a step j x) : i = j := by
  rw [← trunc_cell h] at h1 h2
  exact_mod_cast h1.symm.trans h2

/-- On a square grid, a vehicle inside the gridded area is seen in exactly one cell, so that each of its features is written in the grid
unless a later vehicle is in the same cell. -/
theorem occupancy_covers (o : Occupancy) (h1 : 0 < o.gridStep.1) (h2 : 0 < o.gridStep.2) (hsq : o.grid.l = o.grid.t)
    (observer : Option Vehicle) (v : Vehicle)
    (hx : o.gridSize.1.1 ≤ (seenPosition v observer).x ∧ (seenPosition v observer).x < o.gridSize.1.1 + o.grid.l * o.gridStep.1)
    (hy : o.gridSize.2.1 ≤ (seenPosition v observer).y ∧ (seenPosition v observer).y < o.gridSize.2.1 + o.grid.t * o.gridStep.2) :
    ∃! c : ℕ × ℕ, c.1 < o.grid.l ∧ c.2 < o.grid.t ∧ SeenIn o observer c.1 c.2 v := by
  obtain ⟨j, hj, cj⟩ := inCell_exists h1 hx.1 hx.2
  obtain ⟨i, hi, ci⟩ := inCell_exists h2 hy.1 hy.2
  refine ⟨(i, j), ⟨by dsimp only; omega, by dsimp only; omega, cj, ci⟩, ?_⟩
  rintro ⟨i', j'⟩ ⟨_, _, cj', ci'⟩
  exact Prod.ext (inCell_unique h2 ci' ci) (inCell_unique h1 cj' cj)

/-- On other grids this is false: the sizes of the two axes are exchanged, so that vehicles well inside the area are not seen in any cell
when the area is longer in one direction than in the other. -/
theorem occupancy_transposed (o : Occupancy) (h1 : 0 < o.gridStep.1) (observer : Option Vehicle) (v : Vehicle)
    (hx : o.gridSize.1.1 + o.grid.t * o.gridStep.1 ≤ (seenPosition v observer).x) :
    ¬ ∃ i j, i < o.grid.l ∧ j < o.grid.t ∧ SeenIn o observer i j v := by
  rintro ⟨i, j, _, hj, hc, _⟩
  have : (j : ℝ) + 1 ≤ o.grid.t := by exact_mod_cast hj
  have := hc.2
  nlinarith

/-- Vehicles up to one step *before* the gridded area are shown in its first cells. -/
theorem occupancy_spill (o : Occupancy) (h2 : 0 < o.gridStep.2) (observer : Option Vehicle) (v : Vehicle)
    (hx : o.gridSize.1.1 - o.gridStep.1 < (seenPosition v observer).x ∧ (seenPosition v observer).x < o.gridSize.1.1)
    (hy : o.gridSize.2.1 ≤ (seenPosition v observer).y ∧ (seenPosition v observer).y < o.gridSize.2.1 + o.gridStep.2) :
    SeenIn o observer 0 0 v := by
  unfold SeenIn InCell
  simp only [if_true, Nat.cast_zero]
  exact ⟨⟨hx.1, by linarith⟩, by linarith [hy.1], by linarith [hy.2]⟩

/-! ### A concrete grid: 11 × 11 cells of 5 m -/

/-- The grid of the documentation, with the step given. -/
def grid11 : Occupancy :=
  ⟨["presence", "vx", "vy"], ((-27.5, 27.5), (-27.5, 27.5)), (5, 5), Grid3.zeros 3 11 11, none, false⟩

example : Occupancy.init { gridStep := some (5, 5) } = .ok grid11 := by
  have e : ⌊((27.5 : ℝ) - -27.5) / 5⌋ = 11 := by rw [Int.floor_eq_iff]; norm_num
  unfold Occupancy.init
  dsimp only
  rw [e]
  rfl

theorem grid11_ok : OccupancyOk {} grid11 := ⟨rfl, by norm_num [grid11], by norm_num [grid11], by norm_num, by simp [grid11]⟩

/-- The observer is seen in the middle of its own grid, with its presence. -/
example (obs : Grid3) (o' : Occupancy)
    (h : grid11.observe {} (some { network := Sample.net, vehicles := [Sample.car 0 .idm 10 0 20, Sample.car 1 .idm 30 0 0], rng := { ints := fun _ => 0, reals := fun _ => 0 } })
      (some (Sample.car 0 .idm 10 0 20)) = .ok (obs, o')) : obs.at' 0 5 5 = 1 ∧ obs.at' 0 5 9 = 1 ∧ obs.at' 0 0 0 = 0 := by
  obtain ⟨-, e1, e2, rs, hrs, -, hc⟩ := occupancy_cells {} _ _ grid11_ok _ _ _ h
  have hrs : rs = [("vx", (-60, 60)), ("vy", (-60, 60))] := by
    rcases hrs with ⟨h, _⟩ | ⟨_, h⟩
    · cases h
    · rw [h]; norm_num
  subst hrs
  have l1 : obs.l = 11 := e1
  have t1 : obs.t = 11 := e2
  have p0 : seenPosition (Sample.car 0 .idm 10 0 20) (some (Sample.car 0 .idm 10 0 20)) = ⟨0, 0⟩ := by
    simp [seenPosition, Vec2.ext_iff]
  have p1 : seenPosition (Sample.car 1 .idm 30 0 0) (some (Sample.car 0 .idm 10 0 20)) = ⟨20, 0⟩ := by
    simp [seenPosition, Sample.car, Vec2.ext_iff]; norm_num
  refine ⟨?_, ?_, ?_⟩
  · obtain ⟨dir, x, _, hx, hv⟩ := (hc 0 "presence" rfl 5 5 (by omega) (by omega)).2 [] _ _ rfl (by
      unfold SeenIn; rw [p0]; norm_num [InCell, grid11]) (by
      intro w hw
      rw [List.mem_singleton] at hw
      subst hw
      unfold SeenIn; rw [p1]; norm_num [InCell, grid11])
    cases hx
    rw [hv, show entry false _ "presence" (1 : ℝ) = 1 from rfl]; norm_num
  · obtain ⟨dir, x, _, hx, hv⟩ := (hc 0 "presence" rfl 5 9 (by omega) (by omega)).2 [_] _ [] rfl (by
      unfold SeenIn; rw [p1]; norm_num [InCell, grid11]) (by simp)
    cases hx
    rw [hv, show entry false _ "presence" (1 : ℝ) = 1 from rfl]; norm_num
  · refine (hc 0 "presence" rfl 0 0 (by omega) (by omega)).1 ?_
    intro v hv
    simp only [List.mem_cons, List.not_mem_nil, or_false] at hv
    rcases hv with rfl | rfl <;> unfold SeenIn
    · rw [p0]; norm_num [InCell, grid11]
    · rw [p1]; norm_num [InCell, grid11]

/-- An area of 80 m × 8 m with cells of 4 m: a vehicle 10 m ahead, in the middle of the area, is invisible. -/
example (v ego : Vehicle) (h : v.pos - ego.pos = ⟨10, 2⟩) (o : Occupancy)
    (ho : o = ⟨["presence"], ((-40, 40), (-4, 4)), (4, 4), Grid3.zeros 1 20 2, none, false⟩) :
    ¬ ∃ i j, i < o.grid.l ∧ j < o.grid.t ∧ SeenIn o (some ego) i j v := by
  subst ho
  apply occupancy_transposed
  · norm_num
  · dsimp only [seenPosition]; rw [h]; norm_num [Grid3.zeros]

end HighwayEnv.Props
