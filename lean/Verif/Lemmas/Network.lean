import Verif.Model.Network
import Verif.Spec.Graph

/-! Helper lemmas on road networks. -/

noncomputable section
namespace HighwayEnv

namespace Dict
variable {α β : Type*} [DecidableEq α]

theorem mem_of_get? {d : Dict α β} {k : α} {b : β} (h : Dict.get? d k = some b) : (k, b) ∈ d := by
  induction d with
  | nil => simp [Dict.get?] at h
  | cons a d ih =>
    obtain ⟨x, y⟩ := a
    unfold Dict.get? at h
    split at h
    · injection h with h; subst h; rename_i hx; subst hx; simp
    · exact List.mem_cons_of_mem _ (ih h)

theorem get?_eq_some_iff {d : Dict α β} (hd : (d.map Prod.fst).Nodup) {k : α} {b : β} :
    Dict.get? d k = some b ↔ (k, b) ∈ d := by
  refine ⟨mem_of_get?, ?_⟩
  induction d with
  | nil => simp
  | cons a d ih =>
    obtain ⟨x, y⟩ := a
    simp only [List.map_cons, List.nodup_cons] at hd
    intro h
    unfold Dict.get?
    rcases List.mem_cons.1 h with h | h
    · injection h with h1 h2; subst h1; subst h2; simp
    · have : x ≠ k := by
        rintro rfl; exact hd.1 (List.mem_map.2 ⟨_, h, rfl⟩)
      simp only [this, if_false]; exact ih hd.2 h

theorem get?_eq_none_iff {d : Dict α β} {k : α} : Dict.get? d k = none ↔ k ∉ d.map Prod.fst := by
  induction d with
  | nil => simp [Dict.get?]
  | cons a d ih =>
    obtain ⟨x, y⟩ := a
    unfold Dict.get?
    by_cases h : x = k
    · simp [h]
    · simp only [h, if_false, List.map_cons, List.mem_cons, not_or]
      rw [ih]; exact ⟨fun h' => ⟨fun e => h e.symm, h'⟩, fun h' => h'.2⟩

theorem get?_setItem (d : Dict α β) (k k' : α) (b : β) :
    Dict.get? (Dict.setItem d k b) k' = if k = k' then some b else Dict.get? d k' := by
  induction d with
  | nil => simp [Dict.setItem, Dict.get?]
  | cons a d ih =>
    obtain ⟨x, y⟩ := a
    unfold Dict.setItem
    by_cases hx : x = k
    · subst hx; simp only [if_true, Dict.get?]; by_cases h : x = k' <;> simp [h]
    · simp only [hx, if_false, Dict.get?]
      by_cases h : x = k'
      · subst h; simp [Ne.symm hx]
      · simp only [h, if_false]; exact ih

theorem keys_setItem (d : Dict α β) (k : α) (b : β) :
    (Dict.setItem d k b).map Prod.fst = if k ∈ d.map Prod.fst then d.map Prod.fst else d.map Prod.fst ++ [k] := by
  induction d with
  | nil => simp [Dict.setItem]
  | cons a d ih =>
    obtain ⟨x, y⟩ := a
    unfold Dict.setItem
    by_cases hx : x = k
    · subst hx; simp
    · simp only [hx, if_false, List.map_cons, ih, List.mem_cons]
      have : k ≠ x := fun e => hx e.symm
      simp only [this, false_or]
      split <;> simp

theorem mem_setItem {d : Dict α β} {k : α} {b : β} {x : α × β} (h : x ∈ Dict.setItem d k b) :
    x = (k, b) ∨ x ∈ d := by
  induction d with
  | nil => simpa [Dict.setItem] using h
  | cons a d ih =>
    obtain ⟨y, z⟩ := a
    unfold Dict.setItem at h
    split at h
    · rename_i hy; subst hy
      rcases List.mem_cons.1 h with h | h
      · exact .inl h
      · exact .inr (List.mem_cons_of_mem _ h)
    · rcases List.mem_cons.1 h with h | h
      · exact .inr (by rw [h]; simp)
      · rcases ih h with h | h
        · exact .inl h
        · exact .inr (List.mem_cons_of_mem _ h)

theorem nodup_setItem {d : Dict α β} (hd : (d.map Prod.fst).Nodup) (k : α) (b : β) :
    ((Dict.setItem d k b).map Prod.fst).Nodup := by
  rw [keys_setItem]
  split
  · exact hd
  · rename_i h
    rw [List.nodup_append]
    exact ⟨hd, by simp, by intro a ha c hc; simp at hc; subst hc; rintro rfl; exact h ha⟩
end Dict

theorem pyIndex_ok_iff {α : Type*} {l : List α} {i : Int} {a : α} :
    pyIndex l i = .ok a ↔
      (0 ≤ i ∧ l[i.toNat]? = some a) ∨ (i < 0 ∧ 0 ≤ i + l.length ∧ l[(i + l.length).toNat]? = some a) := by
  unfold pyIndex
  by_cases hi : i < 0
  · simp only [hi, if_true]
    by_cases hj : i + (l.length : Int) < 0
    · simp only [hj, if_true]
      constructor
      · intro h; exact absurd h (by simp)
      · rintro (⟨h, _⟩ | ⟨_, h, _⟩) <;> omega
    · simp only [hj, if_false]
      rcases hl : l[(i + (l.length : Int)).toNat]? with _ | b
      · simp; intro h; omega
      · simp; constructor
        · intro h; exact .inr ⟨by omega, h⟩
        · rintro (⟨h, _⟩ | ⟨_, h⟩); omega; exact h
  · simp only [hi, if_false]
    rcases hl : l[i.toNat]? with _ | b
    · simp
    · simp; omega

namespace Graph
open Spec

theorem firstMin_none {α : Type*} {f : α → ℝ} {l : List α} : firstMin f l = none ↔ l = [] := by
  cases l with
  | nil => simp [firstMin]
  | cons a l =>
    unfold firstMin
    split
    · simp
    · split <;> simp

theorem firstMin_spec {α : Type*} {f : α → ℝ} {l : List α} {a : α} (h : firstMin f l = some a) :
    a ∈ l ∧ ∀ b ∈ l, f a ≤ f b := by
  induction l generalizing a with
  | nil => simp [firstMin] at h
  | cons c l ih =>
    unfold firstMin at h
    split at h
    · rename_i hn
      rw [firstMin_none] at hn; subst hn
      injection h with h; subst h; simp
    · rename_i b hb
      obtain ⟨h1, h2⟩ := ih hb
      split at h
      · rename_i hle
        injection h with h; subst h
        refine ⟨by simp, ?_⟩
        intro x hx
        rcases List.mem_cons.1 hx with rfl | hx
        · exact le_rfl
        · exact hle.trans (h2 x hx)
      · rename_i hle
        injection h with h; subst h
        refine ⟨List.mem_cons_of_mem _ h1, ?_⟩
        intro x hx
        rcases List.mem_cons.1 hx with rfl | hx
        · exact (not_le.1 hle).le
        · exact h2 x hx

theorem exists_firstMin {α : Type*} (f : α → ℝ) {l : List α} (h : l ≠ []) : ∃ a, firstMin f l = some a := by
  rcases hf : firstMin f l with _ | a
  · exact absurd (firstMin_none.1 hf) h
  · exact ⟨a, rfl⟩

/-- The first minimiser: everything before it is strictly worse. -/
theorem firstMin_first {α : Type*} {f : α → ℝ} {l : List α} {a : α} (h : firstMin f l = some a) :
    ∃ l1 l2, l = l1 ++ a :: l2 ∧ ∀ b ∈ l1, f a < f b := by
  induction l generalizing a with
  | nil => simp [firstMin] at h
  | cons c l ih =>
    unfold firstMin at h
    split at h
    · injection h with h; subst h; exact ⟨[], l, rfl, by simp⟩
    · rename_i b hb
      split at h
      · injection h with h; subst h; exact ⟨[], l, rfl, by simp⟩
      · rename_i hle
        injection h with h; subst h
        obtain ⟨l1, l2, e, hlt⟩ := ih hb
        refine ⟨c :: l1, l2, by rw [e]; rfl, ?_⟩
        intro x hx
        rcases List.mem_cons.1 hx with rfl | hx
        · exact not_le.1 hle
        · exact hlt x hx

theorem lanesOf_ok_iff {g : Graph} (hg : IsPyGraph g) {a b : String} {ls : List Lane} :
    g.lanesOf a b = .ok ls ↔ RoadLanes g a b ls := by
  unfold lanesOf Dict.getItem RoadLanes
  rcases h : Dict.get? g a with _ | d
  · simp only [bind, Except.bind]
    constructor
    · intro h; cases h
    · rintro ⟨d, hd, _⟩
      rw [← Dict.get?_eq_some_iff hg.outer] at hd; rw [hd] at h; cases h
  · simp only [bind, Except.bind]
    have hm := Dict.mem_of_get? h
    have hin := hg.inner _ hm
    have huniq : ∀ d', (a, d') ∈ g → d' = d := by
      intro d' hd'
      rw [← Dict.get?_eq_some_iff hg.outer] at hd'; rw [hd'] at h; injection h
    rcases h2 : Dict.get? d b with _ | ls'
    · constructor
      · intro h; cases h
      · rintro ⟨d', hd', hl⟩
        rw [huniq d' hd', ← Dict.get?_eq_some_iff hin, h2] at hl; cases hl
    · constructor
      · intro e; injection e with e; subst e; exact ⟨d, hm, Dict.mem_of_get? h2⟩
      · rintro ⟨d', hd', hl⟩
        rw [huniq d' hd', ← Dict.get?_eq_some_iff hin, h2] at hl; injection hl with hl; rw [hl]

theorem RoadLanes.unique {g : Graph} (hg : IsPyGraph g) {a b : String} {l1 l2 : List Lane}
    (h1 : Spec.RoadLanes g a b l1) (h2 : Spec.RoadLanes g a b l2) : l1 = l2 := by
  rw [← lanesOf_ok_iff hg] at h1 h2
  rw [h1] at h2; injection h2

/-- `get_lane` with an integer id, in terms of the contents of the graph. -/
theorem getLane_ok_iff {g : Graph} (hg : IsPyGraph g) {i : LaneIndex} {l : Lane} :
    g.getLane i = .ok l ↔ ∃ ls, Spec.RoadLanes g i.src i.dst ls ∧ pyIndex ls i.id = .ok l := by
  unfold getLane getLaneStep LaneIndex.toStep
  simp only
  rcases h : g.lanesOf i.src i.dst with e | ls
  · simp only [bind, Except.bind]
    constructor
    · intro h; cases h
    · rintro ⟨ls, h1, _⟩
      rw [← lanesOf_ok_iff hg, h] at h1; cases h1
  · simp only [bind, Except.bind]
    have := (lanesOf_ok_iff hg).1 h
    constructor
    · intro h'; exact ⟨ls, this, h'⟩
    · rintro ⟨ls', h1, h2⟩
      rw [RoadLanes.unique hg this h1]; exact h2

theorem getLane_of_hasLane {g : Graph} (hg : IsPyGraph g) {i : LaneIndex} {k : ℕ} {l : Lane}
    (hk : i.id = (k : Int)) (h : HasLane g i.src i.dst k l) : g.getLane i = .ok l := by
  rw [getLane_ok_iff hg]
  obtain ⟨ls, hr, hl⟩ := h
  refine ⟨ls, hr, pyIndex_ok_iff.2 (.inl ⟨by omega, by rw [hk]; simpa using hl⟩)⟩

theorem getLane_of_valid {g : Graph} (hg : IsPyGraph g) {i : LaneIndex} (h : ValidIndex g i) :
    ∃ l, g.getLane i = .ok l := by
  obtain ⟨k, l, hk, hl⟩ := h
  exact ⟨l, getLane_of_hasLane hg hk hl⟩

theorem mem_indexedLanes {g : Graph} {i : LaneIndex} {l : Lane} :
    (i, l) ∈ g.indexedLanes ↔ ∃ k : ℕ, i.id = (k : Int) ∧ HasLane g i.src i.dst k l := by
  unfold indexedLanes HasLane Spec.RoadLanes
  simp only [List.mem_flatMap, List.mem_map, Prod.exists, Prod.mk.injEq]
  constructor
  · rintro ⟨a, d, had, b, ls, hb, l', k, hk, rfl, rfl⟩
    refine ⟨k, rfl, ls, ⟨d, had, hb⟩, ?_⟩
    rw [List.mk_mem_zipIdx_iff_getElem?] at hk; exact hk
  · rintro ⟨k, hk, ls, ⟨d, had, hb⟩, hl⟩
    refine ⟨i.src, d, had, i.dst, ls, hb, l, k, ?_, ?_, rfl⟩
    · rw [List.mk_mem_zipIdx_iff_getElem?]; exact hl
    · ext <;> simp [hk]

/-- Any successful lookup is of a lane that the enumeration visits. -/
theorem hasLane_of_getLane {g : Graph} (hg : IsPyGraph g) {i : LaneIndex} {l : Lane} (h : g.getLane i = .ok l) :
    ∃ k, HasLane g i.src i.dst k l := by
  rw [getLane_ok_iff hg] at h
  obtain ⟨ls, hr, hl⟩ := h
  rcases pyIndex_ok_iff.1 hl with ⟨_, h⟩ | ⟨_, _, h⟩
  · exact ⟨_, ls, hr, h⟩
  · exact ⟨_, ls, hr, h⟩

theorem closest_spec {g : Graph} {p : Vec2} {h : Option ℝ} {i : LaneIndex}
    (hc : g.getClosestLaneIndex p h = .ok i) : ValidIndex g i := by
  unfold getClosestLaneIndex at hc
  split at hc
  · cases hc
  · rename_i il hil
    injection hc with hc; subst hc
    have := (firstMin_spec hil).1
    obtain ⟨k, hk, hl⟩ := mem_indexedLanes.1 (show (il.1, il.2) ∈ g.indexedLanes from this)
    exact ⟨k, il.2, hk, hl⟩

theorem closest_ok_of_exists {g : Graph} {a b : String} {k : ℕ} {l : Lane} (hl : HasLane g a b k l)
    (p : Vec2) (h : Option ℝ) : ∃ i, g.getClosestLaneIndex p h = .ok i := by
  have : ((⟨a, b, (k : Int)⟩ : LaneIndex), l) ∈ g.indexedLanes := mem_indexedLanes.2 ⟨k, rfl, hl⟩
  have hne : g.indexedLanes ≠ [] := by intro e; rw [e] at this; cases this
  obtain ⟨il, hil⟩ := exists_firstMin (fun il : LaneIndex × Lane => il.2.distanceWithHeading p h) hne
  exact ⟨il.1, by unfold getClosestLaneIndex; rw [hil]⟩

end Graph
end HighwayEnv
