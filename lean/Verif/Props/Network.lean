import Verif.Lemmas.Bfs

/-!
# Properties of the road network (C21–C24, C71)
-/

noncomputable section
namespace HighwayEnv.Props
open Spec Graph

/-! ## C71 — building a network -/

/-- `add_lane` appends a lane to exactly one road: the new lane gets the next lane number there, and every other road,
and every lane number already in use, is unchanged. -/
theorem addLane_road (g : Graph) (hg : IsPyGraph g) (a b c d : String) (l : Lane) (ls : List Lane) :
    Spec.RoadLanes (g.addLane a b l) c d ls ↔
      if c = a ∧ d = b then (∃ old, Spec.RoadLanes g a b old ∧ ls = old ++ [l]) ∨ ((¬ ∃ old, Spec.RoadLanes g a b old) ∧ ls = [l])
      else Spec.RoadLanes g c d ls := by
  have key : ∀ (g' : Graph), IsPyGraph g' → ∀ x y z, Spec.RoadLanes g' x y z ↔ (Dict.get? g' x).bind (fun d => Dict.get? d y) = some z := by
    intro g' hg' x y z
    rw [← lanesOf_ok_iff hg']
    unfold lanesOf Dict.getItem
    rcases Dict.get? g' x with _ | d'
    · simp [bind, Except.bind]
    · simp only [bind, Except.bind, Option.bind]
      rcases Dict.get? d' y with _ | z' <;> simp
  have hg2 : IsPyGraph (g.addLane a b l) := by
    unfold addLane
    have h0 : IsPyGraph (if Dict.get? g a = none then Dict.setItem g a [] else g) := by
      split
      · exact ⟨Dict.nodup_setItem hg.outer _ _, fun nd hnd => by
          rcases Dict.mem_setItem hnd with rfl | h
          · simp
          · exact hg.inner nd h⟩
      · exact hg
    generalize (if Dict.get? g a = none then Dict.setItem g a [] else g) = g0 at *
    refine ⟨Dict.nodup_setItem h0.outer _ _, ?_⟩
    intro nd hnd
    rcases Dict.mem_setItem hnd with rfl | h
    · apply Dict.nodup_setItem
      have hd0 : (((Dict.get? g0 a).getD []).map Prod.fst).Nodup := by
        rcases h : Dict.get? g0 a with _ | d0
        · simp
        · exact h0.inner _ (Dict.mem_of_get? h)
      split
      · exact Dict.nodup_setItem hd0 _ _
      · exact hd0
    · exact h0.inner nd h
  rw [key _ hg2]
  unfold addLane
  simp only
  rw [Dict.get?_setItem]
  by_cases hca : c = a
  · subst hca
    simp only [if_true, Option.bind, Dict.get?_setItem, true_and]
    by_cases hdb : d = b
    · subst hdb
      simp only [if_true]
      have e1 : (∃ old, Spec.RoadLanes g c d old) ↔ ∃ old, (Dict.get? g c).bind (fun d' => Dict.get? d' d) = some old := by
        simp only [key g hg]
      simp only [key g hg] at *
      rcases h1 : Dict.get? g c with _ | d0
      · simp [Dict.get?_setItem, Dict.get?, Dict.setItem, eq_comm]
      · rcases h2 : Dict.get? d0 d with _ | ls0
        · simp [h1, h2, Dict.get?_setItem, eq_comm]
        · simp [h1, h2, eq_comm]
    · have hbd : ¬ b = d := fun e => hdb e.symm
      simp only [hbd, hdb, if_false]
      rw [key g hg]
      rcases h1 : Dict.get? g c with _ | d0
      · simp [Dict.get?_setItem, Dict.get?, Dict.setItem, hbd]
      · rcases h2 : Dict.get? d0 b with _ | ls0
        · simp [h1, h2, Dict.get?_setItem, hbd]
        · simp [h1, h2]
  · have hac : ¬ a = c := fun e => hca e.symm
    simp only [hca, hac, if_false, false_and]
    rw [key g hg]
    rcases h1 : Dict.get? g a with _ | d0
    · simp [Dict.get?_setItem, hac]
    · simp

/-- Networks built by `add_lane` from the empty one are well formed: no node without road, no road without lane. -/
theorem addLane_wellFormed (g : Graph) (a b : String) (l : Lane) (hg : WellFormed g) : WellFormed (g.addLane a b l) := by
  unfold addLane
  dsimp only
  have h0 : IsPyGraph (if Dict.get? g a = none then Dict.setItem g a [] else g) ∧
      (∀ nd ∈ (if Dict.get? g a = none then Dict.setItem g a [] else g), nd.1 ≠ a → nd.2 ≠ []) ∧
      (∀ nd ∈ (if Dict.get? g a = none then Dict.setItem g a [] else g), ∀ kl ∈ nd.2, kl.2 ≠ []) := by
    split
    · refine ⟨⟨Dict.nodup_setItem hg.outer _ _, fun nd hnd => ?_⟩, fun nd hnd hne => ?_, fun nd hnd kl hkl => ?_⟩
      · rcases Dict.mem_setItem hnd with rfl | h
        · simp
        · exact hg.inner nd h
      · rcases Dict.mem_setItem hnd with rfl | h
        · simp at hne
        · exact hg.nonemptyNode nd h
      · rcases Dict.mem_setItem hnd with rfl | h
        · simp at hkl
        · exact hg.nonemptyEdge nd h kl hkl
    · exact ⟨hg.toIsPyGraph, fun nd hnd _ => hg.nonemptyNode nd hnd, hg.nonemptyEdge⟩
  generalize (if Dict.get? g a = none then Dict.setItem g a [] else g) = g0 at *
  obtain ⟨hp, hn, he⟩ := h0
  have hd0 : (((Dict.get? g0 a).getD []).map Prod.fst).Nodup ∧ ∀ kl ∈ (Dict.get? g0 a).getD [], kl.2 ≠ [] := by
    rcases h : Dict.get? g0 a with _ | d0
    · simp
    · exact ⟨hp.inner _ (Dict.mem_of_get? h), he _ (Dict.mem_of_get? h)⟩
  generalize (Dict.get? g0 a).getD [] = d0 at *
  set d1 := (if Dict.get? d0 b = none then Dict.setItem d0 b [] else d0) with hd1
  have hd1n : (d1.map Prod.fst).Nodup := by
    rw [hd1]; split
    · exact Dict.nodup_setItem hd0.1 _ _
    · exact hd0.1
  have hd1e : ∀ kl ∈ d1, kl.1 ≠ b → kl.2 ≠ [] := by
    intro kl hkl hne
    rw [hd1] at hkl
    split at hkl
    · rcases Dict.mem_setItem hkl with rfl | h
      · simp at hne
      · exact hd0.2 kl h
    · exact hd0.2 kl hkl
  have memfst : ∀ {α β : Type} [DecidableEq α] (d : Dict α β) (k : α) (v : β), (d.map Prod.fst).Nodup →
      ∀ x ∈ Dict.setItem d k v, x = (k, v) ∨ (x ∈ d ∧ x.1 ≠ k) := by
    intro α β _ d k v hnd x hx
    by_cases hk : x.1 = k
    · left
      have h1 := (Dict.get?_eq_some_iff (Dict.nodup_setItem hnd k v)).2 (show (x.1, x.2) ∈ _ from hx)
      rw [Dict.get?_setItem, if_pos hk.symm] at h1
      injection h1 with h1
      exact Prod.ext hk h1.symm
    · rcases Dict.mem_setItem hx with rfl | h
      · exact absurd rfl hk
      · exact .inr ⟨h, hk⟩
  have setNe : ∀ {α β : Type} [DecidableEq α] (d : Dict α β) (k : α) (v : β), Dict.setItem d k v ≠ [] := by
    intro α β _ d k v
    cases d with
    | nil => simp [Dict.setItem]
    | cons x d => unfold Dict.setItem; split <;> simp
  refine ⟨⟨Dict.nodup_setItem hp.outer _ _, ?_⟩, ?_, ?_⟩
  · intro nd hnd
    rcases memfst g0 a _ hp.outer nd hnd with rfl | ⟨h, _⟩
    · exact Dict.nodup_setItem hd1n _ _
    · exact hp.inner nd h
  · intro nd hnd
    rcases memfst g0 a _ hp.outer nd hnd with rfl | ⟨h, hne⟩
    · exact setNe _ _ _
    · exact hn nd h hne
  · intro nd hnd kl hkl
    rcases memfst g0 a _ hp.outer nd hnd with rfl | ⟨h, _⟩
    · rcases memfst d1 b _ hd1n kl hkl with rfl | ⟨h, hne⟩
      · simp
      · exact hd1e kl h hne
    · exact he nd h kl hkl

theorem empty_wellFormed : WellFormed ([] : Graph) :=
  ⟨⟨by simp, by simp⟩, by simp, by simp⟩

/-! ## C21 — the closest lane -/

/-- The returned index denotes an existing lane, and no lane of the network is strictly closer. -/
theorem closestLane_minimal (g : Graph) (hg : IsPyGraph g) (p : Vec2) (h : Option ℝ) (i : LaneIndex)
    (hi : g.getClosestLaneIndex p h = .ok i) :
    ValidIndex g i ∧ ∃ l, g.getLane i = .ok l ∧
      ∀ j l', g.getLane j = .ok l' → l.distanceWithHeading p h ≤ l'.distanceWithHeading p h := by
  refine ⟨closest_spec hi, ?_⟩
  unfold getClosestLaneIndex at hi
  split at hi
  · cases hi
  · rename_i il hil
    injection hi with hi; subst hi
    obtain ⟨hm, hmin⟩ := firstMin_spec hil
    obtain ⟨k, hk, hl⟩ := mem_indexedLanes.1 (show (il.1, il.2) ∈ g.indexedLanes from hm)
    refine ⟨il.2, getLane_of_hasLane hg hk hl, ?_⟩
    intro j l' hj
    obtain ⟨k', hl'⟩ := hasLane_of_getLane hg hj
    exact hmin ((⟨j.src, j.dst, (k' : Int)⟩ : LaneIndex), l') (mem_indexedLanes.2 ⟨k', rfl, hl'⟩)

/-- It raises `ValueError` exactly when the network has no lane at all, and nothing else. -/
theorem closestLane_error_iff (g : Graph) (p : Vec2) (h : Option ℝ) (e : PyErr) :
    g.getClosestLaneIndex p h = .error e ↔ e = .valueError ∧ ¬ ∃ a b k l, HasLane g a b k l := by
  constructor
  · intro he
    constructor
    · unfold getClosestLaneIndex at he
      split at he <;> cases he; rfl
    · rintro ⟨a, b, k, l, hl⟩
      obtain ⟨i, hi⟩ := closest_ok_of_exists hl p h
      rw [hi] at he; cases he
  · rintro ⟨rfl, hno⟩
    unfold getClosestLaneIndex
    split
    · rfl
    · rename_i il hil
      exfalso
      obtain ⟨k, _, hl⟩ := mem_indexedLanes.1 (show (il.1, il.2) ∈ g.indexedLanes from (firstMin_spec hil).1)
      exact hno ⟨_, _, k, _, hl⟩

/-! ## C22 — following the road -/

/-- The number of lanes of a road. -/
def LaneCount (g : Graph) (a b : String) (n : ℕ) : Prop := ∃ ls, Spec.RoadLanes g a b ls ∧ ls.length = n

/-- The next step that the route plans after `cur`: drop a first element equal to the current road, then the head. -/
def plannedNext (cur : LaneIndex) (route : Option (List RouteStep)) : Option RouteStep :=
  match route with
  | none => none
  | some r =>
    (match r with
      | [] => none
      | s :: rest => if s.src = cur.src ∧ s.dst = cur.dst then rest.head? else some s)

private theorem nextLaneOn_ok {g : Graph} (hg : WellFormed g) {cur i : LaneIndex} {t : String} {p : Vec2}
    (hcur : ValidIndex g cur) (h : g.nextLaneOn cur t p = .ok i) :
    i.src = cur.dst ∧ i.dst = t ∧ ValidIndex g i ∧
    (∀ n, LaneCount g cur.src cur.dst n → LaneCount g cur.dst t n → i.id = cur.id) ∧
    (∀ n m, LaneCount g cur.src cur.dst n → LaneCount g cur.dst t m → n ≠ m →
      ∃ l, g.getLane i = .ok l ∧ ∀ j l', j.src = cur.dst → j.dst = t → g.getLane j = .ok l' →
        l.distance p ≤ l'.distance p) := by
  unfold nextLaneOn at h
  rcases h1 : g.lanesOf cur.src cur.dst with e | here
  · rw [h1] at h; cases h
  rcases h2 : g.lanesOf cur.dst t with e | there
  · rw [h1, h2] at h; cases h
  rw [h1, h2] at h
  simp only [bind, Except.bind] at h
  have r1 := (lanesOf_ok_iff hg.toIsPyGraph).1 h1
  have r2 := (lanesOf_ok_iff hg.toIsPyGraph).1 h2
  split at h
  · rename_i hlen
    injection h with h; subst h
    refine ⟨rfl, rfl, ?_, fun _ _ _ => rfl, ?_⟩
    · obtain ⟨k, l, hk, ls, hr, hl⟩ := hcur
      rw [RoadLanes.unique hg.toIsPyGraph hr r1] at hl
      have hk2 : k < there.length := by
        rw [← hlen]; exact (List.getElem?_eq_some_iff.1 hl).1
      exact ⟨k, there[k], hk, there, r2, List.getElem?_eq_getElem hk2⟩
    · rintro n m ⟨ls, hr, rfl⟩ ⟨ls', hr', rfl⟩ hne
      rw [RoadLanes.unique hg.toIsPyGraph hr r1, RoadLanes.unique hg.toIsPyGraph hr' r2] at hne
      exact absurd hlen hne
  · rename_i hlen
    split at h
    · cases h
    · rename_i lk hlk
      injection h with h; subst h
      obtain ⟨hm, hmin⟩ := firstMin_spec hlk
      rw [show lk = (lk.1, lk.2) from rfl, List.mk_mem_zipIdx_iff_getElem?] at hm
      refine ⟨rfl, rfl, ⟨lk.2, lk.1, rfl, there, r2, hm⟩, ?_, ?_⟩
      · rintro n ⟨ls, hr, rfl⟩ ⟨ls', hr', hn⟩
        rw [RoadLanes.unique hg.toIsPyGraph hr r1, RoadLanes.unique hg.toIsPyGraph hr' r2] at hn
        exact absurd hn.symm hlen
      · intro n m _ _ _
        refine ⟨lk.1, getLane_of_hasLane hg.toIsPyGraph (k := lk.2) rfl ⟨there, r2, hm⟩, ?_⟩
        intro j l' hs hd hj
        obtain ⟨k', ls', hr', hl'⟩ := hasLane_of_getLane hg.toIsPyGraph hj
        rw [hs, hd] at hr'
        rw [RoadLanes.unique hg.toIsPyGraph hr' r2] at hl'
        exact hmin (l', k') (List.mk_mem_zipIdx_iff_getElem?.2 hl')

private theorem nextLaneOn_err {g : Graph} (hg : WellFormed g) {cur : LaneIndex} {t : String} {p : Vec2} {e : PyErr}
    (hcur : ValidIndex g cur) (h : g.nextLaneOn cur t p = .error e) : e = .keyError ∧ ¬ Edge g cur.dst t := by
  obtain ⟨k, l, _, ls, hr, _⟩ := hcur
  have h1 := (lanesOf_ok_iff hg.toIsPyGraph).2 hr
  unfold nextLaneOn at h
  rw [h1] at h
  rcases h2 : g.lanesOf cur.dst t with e' | there
  · rw [h2] at h
    simp only [bind, Except.bind] at h
    injection h with h; subst h
    constructor
    · unfold lanesOf Dict.getItem at h2
      rcases h3 : Dict.get? g cur.dst with _ | d
      · simp only [h3, bind, Except.bind] at h2; injection h2 with h2; exact h2.symm
      · simp only [h3, bind, Except.bind] at h2
        split at h2 <;> cases h2; rfl
    · rintro ⟨ls', hr'⟩
      rw [(lanesOf_ok_iff hg.toIsPyGraph).2 hr'] at h2; cases h2
  · rw [h2] at h
    simp only [bind, Except.bind] at h
    split at h
    · cases h
    · split at h
      · rename_i hnone
        exfalso
        rw [firstMin_none] at hnone
        obtain ⟨d, hd, hb⟩ := (lanesOf_ok_iff hg.toIsPyGraph).1 h2
        have := hg.nonemptyEdge _ hd _ hb
        apply this
        simpa using hnone
      · cases h

theorem nextFromRoute_snd (cur : LaneIndex) (route : Option (List RouteStep)) :
    (nextFromRoute cur route).2 =
      (plannedNext cur route).bind (fun s => if s.src = cur.dst then some s.dst else none) := by
  unfold nextFromRoute plannedNext
  rcases route with _ | _ | ⟨s, rest⟩
  · rfl
  · rfl
  · by_cases h : s.src = cur.src ∧ s.dst = cur.dst
    · rcases rest with _ | ⟨s', rest'⟩
      · simp [h]
      · simp only [h, and_self, if_true, List.head?_cons, Option.bind_some]
        split <;> rfl
    · simp only [h, if_false, Option.bind_some]
      split <;> rfl

/-- Following the road from an existing lane (any route, position and random outcome) yields an existing lane:
either the current one, and then no road starts where it ends, or a lane of a road that starts where it ends;
the lane number is kept when the number of lanes is unchanged, otherwise the lane is the closest one of that road. -/
theorem nextLane_valid (g : Graph) (hg : WellFormed g) (cur : LaneIndex) (hcur : ValidIndex g cur)
    (route : Option (List RouteStep)) (p : Vec2) (rng : Rng) (i : LaneIndex) (route' : Option (List RouteStep))
    (rng' : Rng) (h : g.nextLane cur route p rng = .ok (i, route', rng')) :
    ValidIndex g i ∧
    ((i = cur ∧ ∀ t, ¬ Edge g cur.dst t) ∨
      (i.src = cur.dst ∧ Edge g cur.dst i.dst ∧
        (∀ n, LaneCount g cur.src cur.dst n → LaneCount g cur.dst i.dst n → i.id = cur.id) ∧
        (∀ n m, LaneCount g cur.src cur.dst n → LaneCount g cur.dst i.dst m → n ≠ m →
          ∃ l, g.getLane i = .ok l ∧ ∀ j l', j.src = cur.dst → j.dst = i.dst → g.getLane j = .ok l' →
            l.distance p ≤ l'.distance p))) := by
  have fin : ∀ t, g.nextLaneOn cur t p = .ok i → _ := fun t ht => nextLaneOn_ok hg hcur ht
  have edgeOf : ValidIndex g i → i.src = cur.dst → Edge g cur.dst i.dst := by
    rintro ⟨k, l, _, ls, hr, _⟩ hs
    rw [hs] at hr; exact ⟨ls, hr⟩
  unfold nextLane at h
  simp only at h
  split at h
  · rcases hn : g.nextLaneOn cur ((nextFromRoute cur route).2.getD "") p with e | i'
    · rw [hn] at h; cases h
    · rw [hn] at h
      simp only [bind, Except.bind, pure, Except.pure] at h
      injection h with h; injection h with h _; subst h
      obtain ⟨a, b, c, d, e⟩ := fin _ hn
      refine ⟨c, .inr ⟨a, edgeOf c a, ?_, ?_⟩⟩
      · rw [b]; exact d
      · rw [b]; exact e
  · rcases hd : Dict.get? g cur.dst with _ | d0
    · rw [hd] at h
      simp only [pure, Except.pure] at h
      injection h with h; injection h with h _; subst h
      refine ⟨hcur, .inl ⟨rfl, ?_⟩⟩
      intro t ht
      obtain ⟨d, hd', _⟩ := (edge_iff_mem_get? hg.toIsPyGraph).1 ht
      rw [hd] at hd'; cases hd'
    · rw [hd] at h
      simp only at h
      unfold Rng.randint at h
      split at h
      · cases h
      · simp only [bind, Except.bind] at h
        rcases hn : g.nextLaneOn cur ((Dict.keys d0).getD (rng.ints rng.ipos % d0.length) "") p with e | i'
        · rw [hn] at h; cases h
        · rw [hn] at h
          simp only [pure, Except.pure] at h
          injection h with h; injection h with h _; subst h
          obtain ⟨a, b, c, d, e⟩ := fin _ hn
          refine ⟨c, .inr ⟨a, edgeOf c a, ?_, ?_⟩⟩
          · rw [b]; exact d
          · rw [b]; exact e

/-- If the route plans a next step that starts where the current road ends, it is followed. -/
theorem nextLane_follows_route (g : Graph) (hg : WellFormed g) (cur : LaneIndex) (hcur : ValidIndex g cur)
    (route : Option (List RouteStep)) (p : Vec2) (rng : Rng) (i : LaneIndex) (route' : Option (List RouteStep))
    (rng' : Rng) (s : RouteStep) (hplan : plannedNext cur route = some s) (hs : s.src = cur.dst) (hne : s.dst ≠ "")
    (h : g.nextLane cur route p rng = .ok (i, route', rng')) : i.dst = s.dst ∧ rng' = rng := by
  have e : (nextFromRoute cur route).2 = some s.dst := by
    rw [nextFromRoute_snd, hplan]; simp [hs]
  unfold nextLane at h
  simp only [e] at h
  rw [if_pos (by simp [strTruthy, hne])] at h
  simp only [Option.getD_some] at h
  rcases hn : g.nextLaneOn cur s.dst p with e | i'
  · rw [hn] at h; cases h
  · rw [hn] at h
    simp only [bind, Except.bind, pure, Except.pure] at h
    injection h with h; injection h with h h'; injection h' with _ h'
    subst h
    exact ⟨(nextLaneOn_ok hg hcur hn).2.1, h'.symm⟩

/-- The only possible failure is a `KeyError`, when the route plans a road that does not exist. -/
theorem nextLane_error (g : Graph) (hg : WellFormed g) (cur : LaneIndex) (hcur : ValidIndex g cur)
    (route : Option (List RouteStep)) (p : Vec2) (rng : Rng) (e : PyErr)
    (h : g.nextLane cur route p rng = .error e) :
    e = .keyError ∧ ∃ s, plannedNext cur route = some s ∧ s.src = cur.dst ∧ ¬ Edge g s.src s.dst := by
  unfold nextLane at h
  simp only at h
  split at h
  · rename_i ht
    rcases hn : g.nextLaneOn cur ((nextFromRoute cur route).2.getD "") p with e' | i'
    · rw [hn] at h
      simp only [bind, Except.bind] at h
      injection h with h; subst h
      obtain ⟨h1, h2⟩ := nextLaneOn_err hg hcur hn
      refine ⟨h1, ?_⟩
      rw [nextFromRoute_snd] at ht h2
      rcases hp : plannedNext cur route with _ | s
      · simp [hp, strTruthy] at ht
      · by_cases hs : s.src = cur.dst
        · refine ⟨s, rfl, hs, ?_⟩
          rw [hp] at h2
          simp only [Option.bind, hs, if_true, Option.getD_some] at h2
          rw [hs]; exact h2
        · simp [hp, hs, strTruthy] at ht
    · rw [hn] at h
      simp [bind, Except.bind, pure, Except.pure] at h
  · exfalso
    rcases hd : Dict.get? g cur.dst with _ | d0
    · rw [hd] at h; cases h
    · rw [hd] at h
      simp only at h
      have hmem := Dict.mem_of_get? hd
      have hne := hg.nonemptyNode _ hmem
      have hlen : 0 < d0.length := List.length_pos_iff.2 hne
      unfold Rng.randint at h
      rw [if_neg (by omega)] at h
      simp only [bind, Except.bind] at h
      have hk : rng.ints rng.ipos % d0.length < (Dict.keys d0).length := by
        simp only [Dict.keys, List.length_map]; exact Nat.mod_lt _ hlen
      rcases hn : g.nextLaneOn cur ((Dict.keys d0).getD (rng.ints rng.ipos % d0.length) "") p with e' | i'
      · apply (nextLaneOn_err hg hcur hn).2
        rw [edge_iff_mem_get? hg.toIsPyGraph]
        refine ⟨d0, hd, ?_⟩
        rw [List.getD_eq_getElem?_getD, List.getElem?_eq_getElem hk]
        exact List.getElem_mem _
      · rw [hn] at h; cases h

/-! ## C23 — route planning -/

/-- `bfs_paths` enumerates exactly the simple paths from start to goal (with at least one edge), each once, shortest
first, and ends without exception — for every hash order of the sets involved, on every graph (cycles included). -/
theorem bfsPaths_exact (g : Graph) (hg : IsPyGraph g) (ord : SetOrder) (start goal : String)
    (hs : ∃ d, (start, d) ∈ g) :
    (∀ p, p ∈ (g.bfsPaths ord start goal).yields ↔ p.Nodup ∧ WalkFromTo g start goal p ∧ 2 ≤ p.length) ∧
    (g.bfsPaths ord start goal).yields.Nodup ∧
    (g.bfsPaths ord start goal).yields.Pairwise (fun p q => p.length ≤ q.length) ∧
    (g.bfsPaths ord start goal).err = none := by
  obtain ⟨d, hd⟩ := hs
  have hget := (Dict.get?_eq_some_iff hg.outer).2 hd
  have hgood : ∀ it ∈ [(start, [start])], GoodItem g start it := by
    intro it hit
    simp only [List.mem_singleton] at hit; subst hit
    exact ⟨by simp, by simp [IsWalk], rfl, rfl, by rw [hget]; simp⟩
  obtain ⟨herr, hmem⟩ := bfsLoop_spec hg ord start goal _ hgood
  refine ⟨?_, bfsLoop_nodup hg ord start goal _ hgood (by simp),
    (bfsLoop_sorted hg ord start goal _ hgood 1 (by simp) (by simp)).1, herr⟩
  intro p
  unfold bfsPaths
  rw [hmem]
  constructor
  · rintro ⟨it, hit, ext, hne, hp, h1, h2, h3⟩
    simp only [List.mem_singleton] at hit; subst hit
    refine ⟨h1, ⟨h2, by rw [hp]; rfl, h3⟩, ?_⟩
    rw [hp]
    have := List.length_pos_iff.2 hne
    simp; omega
  · rintro ⟨h1, ⟨h2, h3, h4⟩, h5⟩
    rcases p with _ | ⟨a, p⟩
    · simp at h5
    · simp only [List.head?_cons, Option.some.injEq] at h3; subst h3
      refine ⟨_, List.mem_singleton.2 rfl, p, ?_, rfl, h1, h2, h4⟩
      rintro rfl; simp at h5

/-- From a node with no outgoing road, the generator yields `[]` and then raises `KeyError`. -/
theorem bfsPaths_unknown_start (g : Graph) (ord : SetOrder) (start goal : String) (hs : ¬ ∃ d, (start, d) ∈ g) :
    (g.bfsPaths ord start goal).yields = [[]] ∧ (g.bfsPaths ord start goal).err = some .keyError := by
  have : Dict.get? g start = none := by
    rw [Dict.get?_eq_none_iff]
    intro h
    obtain ⟨⟨a, d⟩, h1, h2⟩ := List.mem_map.1 h
    exact hs ⟨d, by simpa [← h2] using h1⟩
  unfold bfsPaths
  rw [bfsLoop]
  split
  · simp
  · rename_i h; rw [this] at h; cases h

/-- `shortest_path` never raises; a non-empty answer is a simple path from start to goal that no walk of the network
from start to goal is shorter than; the empty answer means start = goal or that no walk exists. -/
theorem shortestPath_correct (g : Graph) (hg : IsPyGraph g) (ord : SetOrder) (start goal : String) :
    ∃ p, g.shortestPath ord start goal = .ok p ∧
      (p ≠ [] → p.Nodup ∧ WalkFromTo g start goal p ∧ ∀ q, WalkFromTo g start goal q → p.length ≤ q.length) ∧
      (p = [] ↔ start = goal ∨ ¬ ∃ q, WalkFromTo g start goal q) := by
  by_cases hs : ∃ d, (start, d) ∈ g
  · obtain ⟨hex, _, hsorted, herr⟩ := bfsPaths_exact g hg ord start goal hs
    rcases hy : (g.bfsPaths ord start goal).yields with _ | ⟨p, ps⟩
    · refine ⟨[], by unfold shortestPath; rw [hy, herr], by simp, ?_⟩
      simp only [true_iff]
      by_contra hc
      push Not at hc
      obtain ⟨hne, q, hq⟩ := hc
      obtain ⟨q', hw, hn, _⟩ := exists_simple_walk g goal q start hq
      have : q' ∈ (g.bfsPaths ord start goal).yields := by
        rw [hex]
        refine ⟨hn, hw, ?_⟩
        obtain ⟨_, hh, hl⟩ := hw
        rcases q' with _ | ⟨a, _ | ⟨b, q'⟩⟩
        · simp at hh
        · simp at hh hl; exact absurd (hh.symm.trans hl) hne
        · simp
      rw [hy] at this; cases this
    · have hp := (hex p).1 (by rw [hy]; simp)
      have hne : p ≠ [] := by rintro rfl; simp at hp
      have hstart : start ≠ goal := by
        rintro rfl
        obtain ⟨hn, ⟨_, hh, hl⟩, h2⟩ := hp
        rcases p with _ | ⟨a, p⟩
        · simp at hh
        · simp only [List.head?_cons, Option.some.injEq] at hh; subst hh
          rcases p with _ | ⟨b, p⟩
          · simp at h2
          · rw [List.getLast?_cons_cons] at hl
            exact (List.nodup_cons.1 hn).1 (List.mem_of_getLast? hl)
      refine ⟨p, by unfold shortestPath; rw [hy], fun _ => ⟨hp.1, hp.2.1, ?_⟩, ?_⟩
      · intro q hq
        obtain ⟨q', hw, hn, hle⟩ := exists_simple_walk g goal q start hq
        have hmem : q' ∈ (g.bfsPaths ord start goal).yields := by
          rw [hex]
          refine ⟨hn, hw, ?_⟩
          obtain ⟨_, hh, hl⟩ := hw
          rcases q' with _ | ⟨a, _ | ⟨b, q'⟩⟩
          · simp at hh
          · simp at hh hl; exact absurd (hh.symm.trans hl) hstart
          · simp
        rw [hy] at hmem hsorted
        rw [List.pairwise_cons] at hsorted
        rcases List.mem_cons.1 hmem with rfl | h
        · exact hle
        · exact (hsorted.1 q' h).trans hle
      · constructor
        · intro h; exact absurd h hne
        · rintro (h | h)
          · exact absurd h hstart
          · exact absurd ⟨p, hp.2.1⟩ h
  · obtain ⟨hy, _⟩ := bfsPaths_unknown_start g ord start goal hs
    refine ⟨[], by unfold shortestPath; rw [hy], by simp, ?_⟩
    simp only [true_iff]
    by_contra hc
    push Not at hc
    obtain ⟨hne, q, hw, hh, hl⟩ := hc
    rcases q with _ | ⟨a, _ | ⟨b, q⟩⟩
    · simp at hh
    · simp at hh hl; exact hne (hh.symm.trans hl)
    · simp only [List.head?_cons, Option.some.injEq] at hh; subst hh
      unfold IsWalk at hw
      rw [List.isChain_cons_cons] at hw
      obtain ⟨ls, d, hd, _⟩ := hw.1
      exact hs ⟨d, hd⟩

/-! ## C24 — connectivity -/

/-- `b`'s road is "connected" to road `a` in the documented sense: it is the same road or leads into it. -/
def Touches (b a : String × String) : Prop := b = a ∨ b.2 = a.1

/-- Road `r'` is reached from road `r` by following exactly `n` successive roads of the network. -/
inductive ReachIn (g : Graph) : ℕ → String × String → String × String → Prop
  | refl (r) : ReachIn g 0 r r
  | step {n r t r'} : Edge g r.2 t → ReachIn g n (r.2, t) r' → ReachIn g (n + 1) r r'

/-- Without a route and ignoring lane numbers, `is_connected_road(a, b, depth)` is exactly: some road reached from
`a`'s road in at most `depth` successive segments is `b`'s road or is led into by it. -/
theorem isConnectedRoad_iff (g : Graph) (hg : IsPyGraph g) (a b : RouteStep) (depth : ℕ) :
    g.isConnectedRoad a b none false depth = true ↔
      ∃ n ≤ depth, ∃ r, ReachIn g n (a.src, a.dst) r ∧ Touches (b.src, b.dst) r := by
  have htouch : ∀ x : RouteStep, (isSameRoad b x false || isLeadingToRoad b x false) = true ↔
      Touches (b.src, b.dst) (x.src, x.dst) := by
    intro x
    simp [isSameRoad, isLeadingToRoad, Touches]
  induction depth generalizing a with
  | zero =>
    rw [isConnectedRoad]
    simp only [Nat.le_zero, exists_eq_left]
    by_cases h : (isSameRoad b a false || isLeadingToRoad b a false) = true
    · rw [if_pos h]; simp only [true_iff]
      exact ⟨_, .refl _, (htouch a).1 h⟩
    · rw [if_neg h]
      simp only [Bool.false_eq_true, false_iff, not_exists, not_and]
      rintro r hr ht
      cases hr
      exact h ((htouch a).2 ht)
  | succ d ih =>
    rw [isConnectedRoad]
    swap
    · intro s rest h0; cases h0
    by_cases h : (isSameRoad b a false || isLeadingToRoad b a false) = true
    · rw [if_pos h]; simp only [true_iff]
      exact ⟨0, by omega, _, .refl _, (htouch a).1 h⟩
    · rw [if_neg h]
      simp only [List.any_eq_true]
      constructor
      · rintro ⟨t, ht, hc⟩
        obtain ⟨n, hn, r, hr, htt⟩ := (ih _).1 hc
        refine ⟨n + 1, by omega, r, .step ?_ hr, htt⟩
        rw [edge_iff_mem_get? hg]
        unfold succs at ht
        rcases hd : Dict.get? g a.dst with _ | d0
        · rw [hd] at ht; simp [Dict.keys] at ht
        · rw [hd] at ht; exact ⟨d0, rfl, ht⟩
      · rintro ⟨n, hn, r, hr, htt⟩
        cases hr with
        | refl => exact absurd ((htouch a).2 htt) h
        | @step n _ t _ he hr =>
          obtain ⟨d0, hd, hk⟩ := (edge_iff_mem_get? hg).1 he
          refine ⟨t, ?_, ?_⟩
          · unfold succs
            simp only at hd
            rw [hd]; exact hk
          · exact (ih _).2 ⟨n, by omega, r, hr, htt⟩

/-- Without a route, comparing lane numbers means asking in addition for the same lane number. -/
theorem isConnectedRoad_same_lane (g : Graph) (a b : RouteStep) (depth : ℕ) :
    g.isConnectedRoad a b none true depth = true ↔ g.isConnectedRoad a b none false depth = true ∧ b.id = a.id := by
  have ht : ∀ x : RouteStep, (isSameRoad b x true || isLeadingToRoad b x true) = true ↔ (isSameRoad b x false || isLeadingToRoad b x false) = true ∧ b.id = x.id := by
    intro x
    simp only [isSameRoad, isLeadingToRoad, Bool.not_true, Bool.false_or, Bool.not_false, Bool.true_or, Bool.and_true, Bool.or_eq_true, Bool.and_eq_true, decide_eq_true_eq]
    tauto
  induction depth generalizing a with
  | zero =>
    rw [isConnectedRoad, isConnectedRoad]
    by_cases h : (isSameRoad b a true || isLeadingToRoad b a true) = true
    · rw [if_pos h, if_pos ((ht a).1 h).1]
      exact ⟨fun _ => ⟨rfl, ((ht a).1 h).2⟩, fun _ => rfl⟩
    · rw [if_neg h]
      refine ⟨fun h => absurd h (by simp), fun h' => ?_⟩
      by_cases h2 : (isSameRoad b a false || isLeadingToRoad b a false) = true
      · exact absurd ((ht a).2 ⟨h2, h'.2⟩) h
      · rw [if_neg h2] at h'; cases h'.1
  | succ d ih =>
    rw [isConnectedRoad, isConnectedRoad]
    rotate_left
    · intro s rest h0; cases h0
    · intro s rest h0; cases h0
    by_cases h : (isSameRoad b a true || isLeadingToRoad b a true) = true
    · rw [if_pos h, if_pos ((ht a).1 h).1]
      exact ⟨fun _ => ⟨rfl, ((ht a).1 h).2⟩, fun _ => rfl⟩
    · rw [if_neg h]
      by_cases h2 : (isSameRoad b a false || isLeadingToRoad b a false) = true
      · rw [if_pos h2]
        have hne : b.id ≠ a.id := fun hx => h ((ht a).2 ⟨h2, hx⟩)
        simp only [List.any_eq_true, true_and]
        exact ⟨fun ⟨t, _, hc⟩ => absurd ((ih _).1 hc).2 hne, fun hx => absurd hx hne⟩
      · rw [if_neg h2]
        simp only [List.any_eq_true]
        constructor
        · rintro ⟨t, ht', hc⟩
          exact ⟨⟨t, ht', ((ih _).1 hc).1⟩, ((ih _).1 hc).2⟩
        · rintro ⟨⟨t, ht', hc⟩, he⟩
          exact ⟨t, ht', (ih _).2 ⟨hc, he⟩⟩

/-- With any route, comparing lane numbers only removes connections. -/
theorem isConnectedRoad_same_lane_le (g : Graph) (a b : RouteStep) (route : Option (List RouteStep)) (depth : ℕ)
    (h : g.isConnectedRoad a b route true depth = true) : g.isConnectedRoad a b route false depth = true := by
  have ht : ∀ x : RouteStep, (isSameRoad b x true || isLeadingToRoad b x true) = true → (isSameRoad b x false || isLeadingToRoad b x false) = true := by
    intro x
    simp only [isSameRoad, isLeadingToRoad, Bool.not_true, Bool.false_or, Bool.not_false, Bool.true_or, Bool.and_true, Bool.or_eq_true, Bool.and_eq_true, decide_eq_true_eq]
    tauto
  induction depth generalizing a route with
  | zero =>
    rw [isConnectedRoad] at h ⊢
    split at h
    · rename_i h1; rw [if_pos (ht a h1)]
    · cases h
  | succ d ih =>
    -- the part of the route that is the current road is skipped first
    have key : ∀ (r : List RouteStep), g.isConnectedRoad a b (some r) true (d + 1) = true → g.isConnectedRoad a b (some r) false (d + 1) = true := by
      intro r
      induction r with
      | nil =>
        intro h
        rw [isConnectedRoad] at h ⊢
        rotate_left
        · intro s rest h0; cases h0
        · intro s rest h0; cases h0
        split at h
        · rename_i h1; rw [if_pos (ht a h1)]
        · split
          · rfl
          · simp only [List.any_eq_true] at h ⊢
            obtain ⟨t, h1, h2⟩ := h
            exact ⟨t, h1, ih _ _ h2⟩
      | cons s rest ihr =>
        intro h
        rw [isConnectedRoad] at h ⊢
        split at h
        · rename_i h1; rw [if_pos (ht a h1)]
        · split
          · rfl
          · by_cases h1 : s.src = a.src ∧ s.dst = a.dst
            · rw [if_pos h1] at h ⊢
              exact ihr h
            · rw [if_neg h1] at h ⊢
              by_cases h2 : s.src = a.dst
              · rw [if_pos h2] at h ⊢
                exact ih _ _ h
              · rw [if_neg h2] at h ⊢
                simp only [List.any_eq_true] at h ⊢
                obtain ⟨t, h1, h2⟩ := h
                exact ⟨t, h1, ih _ _ h2⟩
    cases route with
    | some r => exact key r h
    | none =>
      rw [isConnectedRoad] at h ⊢
      rotate_left
      · intro s rest h0; cases h0
      · intro s rest h0; cases h0
      split at h
      · rename_i h1; rw [if_pos (ht a h1)]
      · split
        · rfl
        · simp only [List.any_eq_true] at h ⊢
          obtain ⟨t, h1, h2⟩ := h
          exact ⟨t, h1, ih _ _ h2⟩

/-- Searching deeper never loses a connection. -/
theorem isConnectedRoad_depth_mono (g : Graph) (hg : IsPyGraph g) (a b : RouteStep) (d d' : ℕ) (hd : d ≤ d')
    (h : g.isConnectedRoad a b none false d = true) : g.isConnectedRoad a b none false d' = true := by
  rw [isConnectedRoad_iff g hg] at *
  obtain ⟨n, hn, r⟩ := h
  exact ⟨n, by omega, r⟩

/-- The same with any route and with or without comparing lane numbers. -/
theorem isConnectedRoad_deeper (g : Graph) (a b : RouteStep) (route : Option (List RouteStep)) (same : Bool) (d d' : ℕ) (hd : d ≤ d')
    (h : g.isConnectedRoad a b route same d = true) : g.isConnectedRoad a b route same d' = true := by
  have hnow : ∀ (x : RouteStep) (ro : Option (List RouteStep)) (n : ℕ), (isSameRoad b x same || isLeadingToRoad b x same) = true → g.isConnectedRoad x b ro same n = true := by
    intro x ro n hx
    unfold isConnectedRoad
    rw [if_pos hx]
  induction d generalizing a route d' with
  | zero =>
    rw [isConnectedRoad] at h
    split at h
    · rename_i h1; exact hnow _ _ _ h1
    · cases h
  | succ d ih =>
    obtain ⟨e, rfl⟩ : ∃ e, d' = e + 1 := ⟨d' - 1, by omega⟩
    have he : d ≤ e := by omega
    have key : ∀ (r : List RouteStep), g.isConnectedRoad a b (some r) same (d + 1) = true → g.isConnectedRoad a b (some r) same (e + 1) = true := by
      intro r
      induction r with
      | nil =>
        intro h
        rw [isConnectedRoad] at h ⊢
        rotate_left
        · intro s rest h0; cases h0
        · intro s rest h0; cases h0
        split at h
        · rename_i h1; rw [if_pos h1]
        · rename_i h1
          rw [if_neg h1]
          simp only [List.any_eq_true] at h ⊢
          obtain ⟨t, h1, h2⟩ := h
          exact ⟨t, h1, ih _ _ _ he h2⟩
      | cons s rest ihr =>
        intro h
        rw [isConnectedRoad] at h ⊢
        split at h
        · rename_i h1; rw [if_pos h1]
        · rename_i h0
          rw [if_neg h0]
          by_cases h1 : s.src = a.src ∧ s.dst = a.dst
          · rw [if_pos h1] at h ⊢
            exact ihr h
          · rw [if_neg h1] at h ⊢
            by_cases h2 : s.src = a.dst
            · rw [if_pos h2] at h ⊢
              exact ih _ _ _ he h
            · rw [if_neg h2] at h ⊢
              simp only [List.any_eq_true] at h ⊢
              obtain ⟨t, h1, h2⟩ := h
              exact ⟨t, h1, ih _ _ _ he h2⟩
    cases route with
    | some r => exact key r h
    | none =>
      rw [isConnectedRoad] at h ⊢
      rotate_left
      · intro s rest h0; cases h0
      · intro s rest h0; cases h0
      split at h
      · rename_i h1; rw [if_pos h1]
      · rename_i h1
        rw [if_neg h1]
        simp only [List.any_eq_true] at h ⊢
        obtain ⟨t, h1, h2⟩ := h
        exact ⟨t, h1, ih _ _ _ he h2⟩

/-- With a planned route that continues from the current road, only that branch is explored: the road after the current
one is the planned one. -/
theorem isConnectedRoad_follows_route (g : Graph) (a b s : RouteStep) (rest : List RouteStep) (d : ℕ)
    (hs : s.src = a.dst) (hne : ¬ (s.src = a.src ∧ s.dst = a.dst)) (same : Bool) :
    g.isConnectedRoad a b (some (s :: rest)) same (d + 1) =
      (isSameRoad b a same || isLeadingToRoad b a same || g.isConnectedRoad s b (some rest) same d) := by
  rw [isConnectedRoad]
  by_cases h : (isSameRoad b a same || isLeadingToRoad b a same) = true
  · rw [if_pos h, h]; rfl
  · rw [if_neg h]
    simp only [Bool.not_eq_true] at h
    rw [h, if_neg hne, if_pos hs]; rfl

/-! ### Non-vacuity: a concrete network with a cycle and a branch -/

/-- a → b → c, b → a, c → b with 2, 1, 1, 1 lanes. -/
def demoGraph : Graph :=
  let l : Lane := { shape := .straight ⟨0, 0⟩ ⟨1, 0⟩ }
  let g : Graph := []
  let g := Graph.addLane g "a" "b" l
  let g := Graph.addLane g "a" "b" l
  let g := Graph.addLane g "b" "c" l
  let g := Graph.addLane g "b" "a" l
  Graph.addLane g "c" "b" l

theorem demoGraph_wellFormed : WellFormed demoGraph := by
  unfold demoGraph
  repeat apply addLane_wellFormed
  exact empty_wellFormed

theorem demoGraph_edges : Edge demoGraph "a" "b" ∧ Edge demoGraph "b" "c" ∧ Edge demoGraph "b" "a" := by
  have h : ∀ x y, (∃ d, Dict.get? demoGraph x = some d ∧ y ∈ Dict.keys d) → Edge demoGraph x y :=
    fun x y => (edge_iff_mem_get? demoGraph_wellFormed.toIsPyGraph).2
  refine ⟨h _ _ ?_, h _ _ ?_, h _ _ ?_⟩ <;>
    simp [demoGraph, addLane, Dict.get?, Dict.setItem, Dict.keys]

example : WellFormed demoGraph ∧ WalkFromTo demoGraph "a" "c" ["a", "b", "c"] ∧
    WalkFromTo demoGraph "a" "c" ["a", "b", "a", "b", "c"] := by
  obtain ⟨h1, h2, h3⟩ := demoGraph_edges
  exact ⟨demoGraph_wellFormed, ⟨by simp [IsWalk, h1, h2], rfl, rfl⟩, ⟨by simp [IsWalk, h1, h2, h3], rfl, rfl⟩⟩

example : ValidIndex demoGraph ⟨"a", "b", 1⟩ := by
  refine ⟨1, { shape := .straight ⟨0, 0⟩ ⟨1, 0⟩ }, rfl, ?_⟩
  refine ⟨[{ shape := .straight ⟨0, 0⟩ ⟨1, 0⟩ }, { shape := .straight ⟨0, 0⟩ ⟨1, 0⟩ }], ?_, rfl⟩
  rw [← lanesOf_ok_iff demoGraph_wellFormed.toIsPyGraph]
  simp [demoGraph, addLane, Dict.get?, Dict.setItem, lanesOf, Dict.getItem, bind, Except.bind]

end HighwayEnv.Props
