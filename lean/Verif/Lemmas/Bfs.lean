import Verif.Lemmas.Network
import Mathlib.Data.List.Chain
import Mathlib.Tactic.Linarith

/-! Helper lemmas on the breadth-first search. -/

noncomputable section
namespace HighwayEnv
namespace Graph
open Spec

theorem edge_iff_mem_get? {g : Graph} (hg : IsPyGraph g) {a b : String} :
    Edge g a b ↔ ∃ d, Dict.get? g a = some d ∧ b ∈ Dict.keys d := by
  unfold Edge Spec.RoadLanes Dict.keys
  constructor
  · rintro ⟨ls, d, hd, hb⟩
    exact ⟨d, (Dict.get?_eq_some_iff hg.outer).2 hd, List.mem_map.2 ⟨_, hb, rfl⟩⟩
  · rintro ⟨d, hd, hb⟩
    obtain ⟨⟨b', ls⟩, hm, rfl⟩ := List.mem_map.1 hb
    exact ⟨ls, d, Dict.mem_of_get? hd, hm⟩

theorem mem_order_fresh (ord : SetOrder) (d : Dict String (List Lane)) (path : List String) (x : String) :
    x ∈ ord.order path (freshSuccs d path) ↔ x ∈ Dict.keys d ∧ x ∉ path := by
  rw [(ord.perm _ _).mem_iff]; simp [freshSuccs]

/-- Queue items handled without error. -/
structure GoodItem (g : Graph) (start : String) (it : String × List String) : Prop where
  nodup : it.2.Nodup
  walk : IsWalk g it.2
  head : it.2.head? = some start
  last : it.2.getLast? = some it.1
  inGraph : Dict.get? g it.1 ≠ none

theorem GoodItem.child {g : Graph} (hg : IsPyGraph g) {start node x : String} {path : List String}
    {d : Dict String (List Lane)} (h : GoodItem g start (node, path)) (hd : Dict.get? g node = some d)
    (hx : x ∈ Dict.keys d) (hxp : x ∉ path) (hxg : Dict.get? g x ≠ none) : GoodItem g start (x, path ++ [x]) where
  nodup := by
    rw [List.nodup_append]
    exact ⟨h.nodup, by simp, by intro a ha b hb; simp at hb; subst hb; rintro rfl; exact hxp ha⟩
  walk := by
    unfold IsWalk
    rw [List.isChain_append]
    refine ⟨h.walk, by simp, ?_⟩
    intro a ha b hb
    simp at hb; subst hb
    have : a = node := by have := h.last; simp only at this; rw [this] at ha; simpa using ha.symm
    subst this
    exact (edge_iff_mem_get? hg).2 ⟨d, hd, hx⟩
  head := by
    have := h.head
    simp only at *
    rw [List.head?_append, this]; rfl
  last := by simp
  inGraph := hxg

/-- What the yields of the loop are. -/
theorem bfsLoop_spec {g : Graph} (hg : IsPyGraph g) (ord : SetOrder) (start goal : String)
    (queue : List (String × List String)) (hq : ∀ it ∈ queue, GoodItem g start it) :
    (g.bfsLoop ord goal queue).err = none ∧
    ∀ p, p ∈ (g.bfsLoop ord goal queue).yields ↔
      ∃ it ∈ queue, ∃ ext, ext ≠ [] ∧ p = it.2 ++ ext ∧ p.Nodup ∧ IsWalk g p ∧ p.getLast? = some goal := by
  fun_induction bfsLoop g ord goal queue with
  | case1 => simp
  | case2 node path q hd =>
    exact absurd hd (hq (node, path) (by simp)).inGraph
  | case3 node path q d hd here rest ih =>
    have hgood := hq (node, path) (by simp)
    have hq' : ∀ it ∈ q ++ g.bfsChildren ord goal d path, GoodItem g start it := by
      intro it hit
      rcases List.mem_append.1 hit with h | h
      · exact hq it (by simp [h])
      · simp only [bfsChildren, List.mem_map, List.mem_filter, decide_eq_true_eq] at h
        obtain ⟨x, ⟨hx, _, hxg⟩, rfl⟩ := h
        rw [mem_order_fresh] at hx
        exact hgood.child hg hd hx.1 hx.2 hxg
    obtain ⟨ih1, ih2⟩ := ih hq'
    refine ⟨ih1, ?_⟩
    intro p
    simp only [List.mem_append]
    have hlast : path.getLast? = some node := hgood.last
    constructor
    · rintro (h | h)
      · -- yielded now
        simp only [here] at h
        split at h
        · rename_i hgoal
          rw [mem_order_fresh] at hgoal
          simp only [List.mem_singleton] at h
          subst h
          refine ⟨(node, path), by simp, [goal], by simp, rfl, ?_, ?_, by simp⟩
          · rw [List.nodup_append]
            exact ⟨hgood.nodup, by simp, by
              intro a ha b hb; simp at hb; subst hb; rintro rfl; exact hgoal.2 ha⟩
          · unfold IsWalk
            rw [List.isChain_append]
            refine ⟨hgood.walk, by simp, ?_⟩
            intro a ha b hb
            simp at hb; subst hb
            rw [hlast] at ha
            have : a = node := by simpa using ha.symm
            subst this
            exact (edge_iff_mem_get? hg).2 ⟨d, hd, hgoal.1⟩
        · simp at h
      · obtain ⟨it, hit, ext, hne, hp, h1, h2, h3⟩ := (ih2 p).1 h
        rcases List.mem_append.1 hit with h | h
        · exact ⟨it, by simp [h], ext, hne, hp, h1, h2, h3⟩
        · simp only [bfsChildren, List.mem_map, List.mem_filter, decide_eq_true_eq] at h
          obtain ⟨x, _, rfl⟩ := h
          exact ⟨(node, path), by simp, x :: ext, by simp, by rw [hp]; simp, h1, h2, h3⟩
    · rintro ⟨it, hit, ext, hne, hp, h1, h2, h3⟩
      rcases List.mem_cons.1 hit with rfl | hit
      · obtain ⟨x, ext', rfl⟩ := List.exists_cons_of_ne_nil hne
        simp only at hp
        have hxe : Edge g node x := by
          have := h2
          rw [hp] at this
          unfold IsWalk at this
          rw [List.isChain_append] at this
          exact this.2.2 node (by simp [hlast]) x (by simp)
        obtain ⟨d', hd', hx⟩ := (edge_iff_mem_get? hg).1 hxe
        rw [hd] at hd'; injection hd' with hd'; subst hd'
        have hxp : x ∉ path := by
          intro hmem
          rw [hp, List.nodup_append] at h1
          exact h1.2.2 x hmem x (by simp) rfl
        rcases ext' with _ | ⟨y, ext''⟩
        · left
          have : x = goal := by rw [hp] at h3; simpa using h3
          subst this
          simp only [here]
          rw [dif_pos ((mem_order_fresh ord d path x).2 ⟨hx, hxp⟩), hp]
          simp
        · right
          rw [ih2]
          refine ⟨(x, path ++ [x]), ?_, y :: ext'', by simp, by rw [hp]; simp, h1, h2, h3⟩
          apply List.mem_append_right
          simp only [bfsChildren, List.mem_map, List.mem_filter, decide_eq_true_eq]
          refine ⟨x, ⟨(mem_order_fresh ord d path x).2 ⟨hx, hxp⟩, ?_, ?_⟩, rfl⟩
          · rintro rfl
            rw [hp] at h1 h3
            rw [show path ++ x :: y :: ext'' = path ++ [x] ++ (y :: ext'') by simp] at h1 h3
            rw [List.getLast?_append_of_ne_nil _ (by simp)] at h3
            have hm : x ∈ y :: ext'' := List.mem_of_getLast? h3
            rw [List.nodup_append] at h1
            exact h1.2.2 x (by simp) x hm rfl
          · have : Edge g x y := by
              have := h2
              rw [hp, show path ++ x :: y :: ext'' = path ++ [x] ++ (y :: ext'') by simp] at this
              unfold IsWalk at this
              rw [List.isChain_append] at this
              exact this.2.2 x (by simp) y (by simp)
            obtain ⟨d'', hd'', _⟩ := (edge_iff_mem_get? hg).1 this
            rw [hd'']; simp
      · right
        rw [ih2]
        exact ⟨it, List.mem_append_left _ hit, ext, hne, hp, h1, h2, h3⟩

/-- Breadth-first order: shorter paths are yielded first. -/
theorem bfsLoop_sorted {g : Graph} (hg : IsPyGraph g) (ord : SetOrder) (start goal : String)
    (queue : List (String × List String)) (hq : ∀ it ∈ queue, GoodItem g start it) (m : ℕ)
    (hs : queue.Pairwise (fun a b => a.2.length ≤ b.2.length))
    (hm : ∀ it ∈ queue, m ≤ it.2.length ∧ it.2.length ≤ m + 1) :
    (g.bfsLoop ord goal queue).yields.Pairwise (fun p q => p.length ≤ q.length) ∧
    ∀ p ∈ (g.bfsLoop ord goal queue).yields, m + 1 ≤ p.length := by
  fun_induction bfsLoop g ord goal queue generalizing m with
  | case1 => simp
  | case2 node path q hd =>
    exact absurd hd (hq (node, path) (by simp)).inGraph
  | case3 node path q d hd here rest ih =>
    have hgood := hq (node, path) (by simp)
    have hq' : ∀ it ∈ q ++ g.bfsChildren ord goal d path, GoodItem g start it := by
      intro it hit
      rcases List.mem_append.1 hit with h | h
      · exact hq it (by simp [h])
      · simp only [bfsChildren, List.mem_map, List.mem_filter, decide_eq_true_eq] at h
        obtain ⟨x, ⟨hx, _, hxg⟩, rfl⟩ := h
        rw [mem_order_fresh] at hx
        exact hgood.child hg hd hx.1 hx.2 hxg
    rw [List.pairwise_cons] at hs
    have hlen := hm (node, path) (by simp)
    simp only at hlen
    have hch : ∀ it ∈ g.bfsChildren ord goal d path, it.2.length = path.length + 1 := by
      intro it hit
      simp only [bfsChildren, List.mem_map] at hit
      obtain ⟨x, _, rfl⟩ := hit
      simp
    obtain ⟨r1, r2⟩ := ih hq' path.length
      (by
        rw [List.pairwise_append]
        refine ⟨hs.2, ?_, ?_⟩
        · apply List.Pairwise.imp_of_mem (R := fun _ _ => True)
          · intro a b ha hb _; rw [hch a ha, hch b hb]
          · exact List.pairwise_of_forall (fun _ _ => trivial)
        · intro a ha b hb
          rw [hch b hb]
          have := (hm a (by simp [ha])).2
          omega)
      (by
        intro it hit
        rcases List.mem_append.1 hit with h | h
        · have h1 := hs.1 it h
          have h2 := (hm it (by simp [h])).2
          simp only at h1
          omega
        · rw [hch it h]; omega)
    have hh : ∀ p ∈ here, p.length = path.length + 1 := by
      intro p hp
      simp only [here] at hp
      split at hp
      · simp only [List.mem_singleton] at hp; subst hp; simp
      · simp at hp
    simp only
    rw [List.pairwise_append]
    refine ⟨⟨?_, r1, ?_⟩, ?_⟩
    · simp only [here]; split <;> simp
    · intro p hp q' hq''; rw [hh p hp]; exact r2 q' hq''
    · intro p hp
      rcases List.mem_append.1 hp with h | h
      · rw [hh p h]; omega
      · have := r2 p h; omega

/-- No path is yielded twice. -/
theorem bfsLoop_nodup {g : Graph} (hg : IsPyGraph g) (ord : SetOrder) (start goal : String)
    (queue : List (String × List String)) (hq : ∀ it ∈ queue, GoodItem g start it)
    (hs : queue.Pairwise (fun a b => ¬ a.2 <+: b.2 ∧ ¬ b.2 <+: a.2)) :
    (g.bfsLoop ord goal queue).yields.Nodup := by
  fun_induction bfsLoop g ord goal queue with
  | case1 => simp
  | case2 node path q hd =>
    exact absurd hd (hq (node, path) (by simp)).inGraph
  | case3 node path q d hd here rest ih =>
    have hgood := hq (node, path) (by simp)
    have hq' : ∀ it ∈ q ++ g.bfsChildren ord goal d path, GoodItem g start it := by
      intro it hit
      rcases List.mem_append.1 hit with h | h
      · exact hq it (by simp [h])
      · simp only [bfsChildren, List.mem_map, List.mem_filter, decide_eq_true_eq] at h
        obtain ⟨x, ⟨hx, _, hxg⟩, rfl⟩ := h
        rw [mem_order_fresh] at hx
        exact hgood.child hg hd hx.1 hx.2 hxg
    rw [List.pairwise_cons] at hs
    have hnd : (ord.order path (freshSuccs d path)).Nodup := by
      rw [(ord.perm _ _).nodup_iff]
      exact (List.nodup_dedup _).filter _
    have hs' : (q ++ g.bfsChildren ord goal d path).Pairwise (fun a b => ¬ a.2 <+: b.2 ∧ ¬ b.2 <+: a.2) := by
      rw [List.pairwise_append]
      refine ⟨hs.2, ?_, ?_⟩
      · unfold bfsChildren
        rw [List.pairwise_map]
        apply List.Pairwise.imp _ (hnd.filter _)
        intro a b hab
        simp only
        constructor
        · intro hpre
          have := hpre.eq_of_length (by simp)
          exact hab (by simpa using this)
        · intro hpre
          have := hpre.eq_of_length (by simp)
          exact hab (by simpa using this.symm)
      · intro a ha b hb
        have h1 := hs.1 a ha
        simp only at h1
        simp only [bfsChildren, List.mem_map] at hb
        obtain ⟨x, _, rfl⟩ := hb
        simp only
        constructor
        · intro hpre
          -- a.2 is a prefix of path ++ [x]: either of path, or equal to it, then path is a prefix of a.2
          rcases List.prefix_concat_iff.1 hpre with h | h
          · apply h1.1; rw [h]; exact List.prefix_append _ _
          · exact h1.2 h
        · intro hpre
          exact h1.1 ((List.prefix_append path [x]).trans hpre)
    simp only
    rw [List.nodup_append]
    refine ⟨?_, ih hq' hs', ?_⟩
    · simp only [here]; split <;> simp
    · intro p hp q' hq'' heq
      subst heq
      simp only [here] at hp
      split at hp
      · simp only [List.mem_singleton] at hp; subst hp
        obtain ⟨it, hit, ext, hne, he, _⟩ := ((bfsLoop_spec hg ord start goal _ hq').2 _).1 hq''
        rcases List.mem_append.1 hit with h | h
        · have h1 := hs.1 it h
          simp only at h1
          have hpre : it.2 <+: path ++ [goal] := ⟨ext, he.symm⟩
          rcases List.prefix_concat_iff.1 hpre with h' | h'
          · apply h1.1; rw [h']; exact List.prefix_append _ _
          · exact h1.2 h'
        · simp only [bfsChildren, List.mem_map, List.mem_filter, decide_eq_true_eq] at h
          obtain ⟨x, _, rfl⟩ := h
          simp only [List.append_assoc, List.append_cancel_left_eq] at he
          simp only [List.singleton_append, List.cons.injEq] at he
          exact hne he.2.symm
      · simp at hp

/-- Every walk contains a simple one that is not longer. -/
theorem exists_simple_walk (g : Graph) (b : String) : ∀ (p : List String) (a : String), WalkFromTo g a b p →
    ∃ q, WalkFromTo g a b q ∧ q.Nodup ∧ q.length ≤ p.length := by
  intro p
  induction p with
  | nil => intro a h; simp [WalkFromTo] at h
  | cons x p ih =>
    rintro a ⟨hw, hh, hl⟩
    simp only [List.head?_cons, Option.some.injEq] at hh; subst hh
    rcases p with _ | ⟨y, p⟩
    · exact ⟨[x], ⟨by simp [IsWalk], rfl, hl⟩, by simp, by simp⟩
    · unfold IsWalk at hw
      rw [List.isChain_cons_cons] at hw
      obtain ⟨q, ⟨qw, qh, ql⟩, qn, qlen⟩ := ih y ⟨hw.2, rfl, by simpa using hl⟩
      by_cases hx : x ∈ q
      · obtain ⟨s, t, rfl⟩ := List.append_of_mem hx
        refine ⟨x :: t, ⟨?_, rfl, ?_⟩, ?_, ?_⟩
        · unfold IsWalk at qw
          rw [List.isChain_append] at qw; exact qw.2.1
        · rw [List.getLast?_append_of_ne_nil _ (by simp)] at ql; exact ql
        · rw [List.nodup_append] at qn; exact qn.2.1
        · simp at qlen ⊢; omega
      · obtain ⟨z, q', rfl⟩ : ∃ z q', q = z :: q' := by
          cases q with
          | nil => simp at qh
          | cons z q' => exact ⟨z, q', rfl⟩
        simp only [List.head?_cons, Option.some.injEq] at qh; subst qh
        refine ⟨x :: z :: q', ⟨?_, rfl, ?_⟩, ?_, ?_⟩
        · unfold IsWalk at *; rw [List.isChain_cons_cons]; exact ⟨hw.1, qw⟩
        · simpa using ql
        · exact List.nodup_cons.2 ⟨hx, qn⟩
        · simp at qlen ⊢; omega

end Graph
end HighwayEnv
