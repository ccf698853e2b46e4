import Verif.Spec.MultiModel
import Verif.Props.Regression
import Verif.Lemmas.Act
import Verif.Lemmas.Utils

/-!
# C93: a vehicle with several possible routes
-/

noncomputable section
open Classical Matrix

namespace HighwayEnv.Props
open HighwayEnv HighwayEnv.Spec Regression MultiModel

private theorem fill_eq (r : List RouteStep) : r.map fillLane = filled r := rfl

private theorem filled_idem (r : List RouteStep) : filled (filled r) = filled r := by
  simp [filled, List.map_map, Function.comp_def]

private theorem filled_length (r : List RouteStep) : (filled r).length = r.length := by simp [filled]

private theorem known_eq (s : MultiModel) (h : Hypothesis) : known s.v h = routeOf s h := rfl

/-! ## The candidates -/

private theorem take_prefix {a b : List RouteStep} (h : b.take a.length = a) : a <+: b := by
  rw [← h]; exact List.take_prefix _ _

private theorem consider_kept (own : Bool) (s : MultiModel) (route : List RouteStep) (hown : own = true → s.v.route = some route) (k : ℕ) (h : Hypothesis)
    (hk : s.hyps[k]? = some h) : ∃ h', (consider own s route).hyps[k]? = some h' ∧ h'.data = h.data ∧
      filled (routeOf s h) <+: filled (routeOf (consider own s route) h') ∧
      ∀ i : LaneIndex, (routeOf s h).head? = some i.toStep → (routeOf (consider own s route) h').head? = some i.toStep := by
  have hv : ∀ q : Hypothesis, filled (known (adopt own s.v (route.map fillLane)) q) = filled (routeOf s q) := by
    intro q
    cases own with
    | false => rfl
    | true =>
      unfold adopt known routeOf
      simp only [if_true]
      split_ifs with hq
      · rw [hown rfl]; simp only [Option.getD_some, fill_eq, filled_idem]
      · rfl
  have hh : ∀ (q : Hypothesis) (i : LaneIndex), (routeOf s q).head? = some i.toStep → (known (adopt own s.v (route.map fillLane)) q).head? = some i.toStep := by
    intro q i hi
    cases own with
    | false => exact hi
    | true =>
      unfold routeOf at hi
      unfold adopt known
      simp only [if_true]
      split_ifs at hi ⊢ with hq
      · rw [hown rfl, Option.getD_some] at hi
        simp only [Option.getD_some, List.head?_map, hi, Option.map_some]
        rfl
      · exact hi
  unfold consider
  dsimp only
  cases hf : s.hyps.find? fun h => decide (matches' (route.map fillLane) (known (adopt own s.v (route.map fillLane)) h)) with
  | none =>
    refine ⟨h, ?_, rfl, ?_, hh h⟩
    · rw [List.getElem?_append_left (List.getElem?_eq_some_iff.1 hk).1]; exact hk
    · exact (hv h) ▸ List.prefix_rfl
  | some q =>
    dsimp only
    split_ifs with heq
    · exact ⟨h, hk, rfl, (hv h) ▸ List.prefix_rfl, hh h⟩
    · have hm := List.find?_some hf
      rw [decide_eq_true_iff] at hm
      by_cases hq : known (adopt own s.v (route.map fillLane)) h = known (adopt own s.v (route.map fillLane)) q
      · have e1 : routeOf ⟨adopt own s.v (route.map fillLane), s.hyps.map fun q' =>
            if known (adopt own s.v (route.map fillLane)) q' = known (adopt own s.v (route.map fillLane)) q then { q' with own := own, route := route.map fillLane } else q'⟩
            { h with own := own, route := route.map fillLane } = route.map fillLane := by
          cases own <;> rfl
        have hpre : known (adopt own s.v (route.map fillLane)) h <+: route.map fillLane := by
          rw [hq]
          rcases hm with hm | hm
          · exact absurd hm heq
          · exact take_prefix hm.2
        refine ⟨{ h with own := own, route := route.map fillLane }, ?_, rfl, ?_, ?_⟩
        · rw [List.getElem?_map, hk, Option.map_some, if_pos hq]
        · rw [← hv h, e1]
          exact hpre.map _
        · intro i hi
          rw [e1]
          obtain ⟨rest, hrest⟩ := hpre
          have := hh h i hi
          rw [← hrest, List.head?_append, this]
          rfl
      · refine ⟨h, ?_, rfl, (hv h) ▸ List.prefix_rfl, hh h⟩
        rw [List.getElem?_map, hk, Option.map_some, if_neg hq]

private theorem consider_vehicle (s : MultiModel) (route : List RouteStep) : (consider false s route).v = s.v := by
  unfold consider adopt
  simp only [Bool.false_eq_true, if_false]
  split
  · rfl
  · split_ifs <;> rfl

private theorem fold_kept (routes : List (List RouteStep)) : ∀ (s : MultiModel) (k : ℕ) (h : Hypothesis), s.hyps[k]? = some h →
    ∃ h', (routes.foldl (consider false) s).hyps[k]? = some h' ∧ h'.data = h.data ∧ filled (routeOf s h) <+: filled (routeOf (routes.foldl (consider false) s) h') ∧
      ∀ i : LaneIndex, (routeOf s h).head? = some i.toStep → (routeOf (routes.foldl (consider false) s) h').head? = some i.toStep := by
  induction routes with
  | nil => intro s k h hk; exact ⟨h, hk, rfl, List.prefix_rfl, fun _ hi => hi⟩
  | cons r routes ih =>
    intro s k h hk
    obtain ⟨h1, e1, d1, p1, q1⟩ := consider_kept false s r (by simp) k h hk
    obtain ⟨h2, e2, d2, p2, q2⟩ := ih _ k h1 e1
    exact ⟨h2, e2, d2.trans d1, p1.trans p2, fun i hi => q2 i (q1 i hi)⟩

private theorem own_routes {g : Graph} {v : Vehicle} (h : ownCandidate g v = true) : v.routesAtIntersection g = [] ∨
    ∃ r, v.route = some r ∧ v.routesAtIntersection g = [r] := by
  unfold ownCandidate at h
  unfold Vehicle.routesAtIntersection
  cases hr : v.route with
  | none => left; rfl
  | some r =>
    cases r with
    | nil => left; rfl
    | cons a r =>
      right
      rw [hr, Option.getD_some] at h
      refine ⟨_, rfl, ?_⟩
      dsimp only
      cases hb : Vehicle.branchIndex g 0 ((a :: r).take 3) with
      | none => rfl
      | some q => rw [hb] at h; cases h

/-- **C93, memory.**  Considering the routes at the next intersection never forgets a hypothesis: each one is still there, with the same record, and its route is the
same or has been extended; its first lane, if known, is the same. -/
theorem hypotheses_kept (g : Graph) (s : MultiModel) (k : ℕ) (h : Hypothesis) (hk : s.hyps[k]? = some h) :
    ∃ h', (addRoutes g s).hyps[k]? = some h' ∧ h'.data = h.data ∧ filled (routeOf s h) <+: filled (routeOf (addRoutes g s) h') ∧
      ∀ i : LaneIndex, (routeOf s h).head? = some i.toStep → (routeOf (addRoutes g s) h').head? = some i.toStep := by
  unfold addRoutes
  cases ho : ownCandidate g s.v with
  | false => exact fold_kept _ s k h hk
  | true =>
    rcases own_routes ho with h0 | ⟨r, hr, h1⟩
    · rw [h0]; exact ⟨h, hk, rfl, List.prefix_rfl, fun _ hi => hi⟩
    · rw [h1]; exact consider_kept true s r (fun _ => hr) k h hk

private theorem consider_known (own : Bool) (s : MultiModel) (route : List RouteStep) :
    ∃ h ∈ (consider own s route).hyps, routeOf (consider own s route) h = filled route := by
  unfold consider
  dsimp only
  cases hf : s.hyps.find? fun h => decide (matches' (route.map fillLane) (known (adopt own s.v (route.map fillLane)) h)) with
  | none => exact ⟨{ own := false, route := route.map fillLane }, by simp, rfl⟩
  | some q =>
    have hq := List.mem_of_find?_eq_some hf
    dsimp only
    split_ifs with heq
    · exact ⟨q, hq, heq⟩
    · refine ⟨{ q with own := own, route := route.map fillLane }, List.mem_map.2 ⟨q, hq, by rw [if_pos rfl]⟩, ?_⟩
      cases own <;> rfl

private theorem consider_keeps_long (s : MultiModel) (route known : List RouteStep) (hl : known.length = route.length)
    (h : ∃ h ∈ s.hyps, routeOf s h = known) : ∃ h ∈ (consider false s route).hyps, routeOf (consider false s route) h = known := by
  obtain ⟨h, hm, hr⟩ := h
  unfold consider adopt
  simp only [Bool.false_eq_true, if_false]
  cases hf : s.hyps.find? fun h => decide (matches' (route.map fillLane) (MultiModel.known s.v h)) with
  | none => exact ⟨h, List.mem_append_left _ hm, hr⟩
  | some q =>
    dsimp only
    split_ifs with heq
    · exact ⟨h, hm, hr⟩
    · have hmt := List.find?_some hf
      rw [decide_eq_true_iff] at hmt
      rcases hmt with hmt | hmt
      · exact absurd hmt heq
      · refine ⟨h, List.mem_map.2 ⟨h, hm, ?_⟩, hr⟩
        rw [if_neg]
        intro hc
        rw [known_eq s h, hr] at hc
        rw [List.length_map, ← hc, hl] at hmt
        exact lt_irrefl _ hmt.1

private theorem fold_known (n : ℕ) (routes : List (List RouteStep)) : ∀ (s : MultiModel), (∀ r ∈ routes, r.length = n) →
    (∀ known : List RouteStep, known.length = n → (∃ h ∈ s.hyps, routeOf s h = known) →
      ∃ h ∈ (routes.foldl (consider false) s).hyps, routeOf (routes.foldl (consider false) s) h = known) ∧
    ∀ r ∈ routes, ∃ h ∈ (routes.foldl (consider false) s).hyps, routeOf (routes.foldl (consider false) s) h = filled r := by
  induction routes with
  | nil => intro s _; exact ⟨fun _ _ h => h, by simp⟩
  | cons a routes ih =>
    intro s hn
    obtain ⟨i1, i2⟩ := ih (consider false s a) fun r hr => hn r (List.mem_cons_of_mem _ hr)
    have ha := hn a (List.mem_cons_self ..)
    refine ⟨fun known hk hex => i1 known hk (consider_keeps_long s a known (hk.trans ha.symm) hex), ?_⟩
    intro r hr
    rcases List.mem_cons.1 hr with rfl | hr
    · exact i1 _ (by rw [filled_length, ha]) (consider_known false s r)
    · exact i2 r hr

private theorem branch_lt (g : Graph) : ∀ (l : List RouteStep) (k j : ℕ) (d : Dict String (List Lane)), Vehicle.branchIndex g k l = some (j, d) → j < k + l.length := by
  intro l
  induction l with
  | nil => intro k j d h; cases h
  | cons s l ih =>
    intro k j d h
    unfold Vehicle.branchIndex at h
    cases hg : Dict.get? g s.dst with
    | none => rw [hg] at h; have := ih _ _ _ h; simp; omega
    | some e =>
      rw [hg] at h
      dsimp only at h
      split_ifs at h
      · cases h; simp
      · have := ih _ _ _ h; simp; omega

private theorem routes_same_length (g : Graph) (v : Vehicle) : ∃ n, ∀ r ∈ v.routesAtIntersection g, r.length = n := by
  unfold Vehicle.routesAtIntersection
  cases v.route with
  | none => exact ⟨0, by simp⟩
  | some r =>
    cases r with
    | nil => exact ⟨0, by simp⟩
    | cons a r =>
      dsimp only
      cases hb : Vehicle.branchIndex g 0 ((a :: r).take 3) with
      | none => exact ⟨_, by intro q hq; rw [List.mem_singleton.1 hq]⟩
      | some q =>
        obtain ⟨k, d⟩ := q
        have hk := branch_lt g _ 0 k d hb
        have hk' : k < (a :: r).length := by
          have := List.length_take_le 3 (a :: r)
          rw [List.length_take] at hk
          omega
        refine ⟨k + 2, ?_⟩
        intro q hq
        obtain ⟨dest, _, rfl⟩ := List.mem_map.1 hq
        rw [List.getElem?_eq_getElem hk', List.length_append, List.length_take]
        simp at hk' ⊢
        omega

/-- **C93, exhaustiveness.**  After considering the routes at the next intersection, each of them is the route of some hypothesis (with the first lane where the lane
is not known). -/
theorem candidates_known (g : Graph) (s : MultiModel) (route : List RouteStep) (hr : route ∈ s.v.routesAtIntersection g) :
    ∃ h ∈ (addRoutes g s).hyps, routeOf (addRoutes g s) h = filled route := by
  unfold addRoutes
  cases ho : ownCandidate g s.v with
  | false =>
    obtain ⟨n, hn⟩ := routes_same_length g s.v
    exact (fold_known n _ s hn).2 route hr
  | true =>
    rcases own_routes ho with h0 | ⟨r, _, h1⟩
    · rw [h0] at hr; simp at hr
    · rw [h1, List.mem_singleton] at hr
      subst hr
      rw [h1]
      exact consider_known true s route

/-! ## The rejection -/

private theorem reject_spec (eig : Eig 2) (box : Itv (Fin 2 → ℝ)) (v : Vehicle) : ∀ (hs kept out : List Hypothesis), reject eig box v kept hs = .ok out →
    out = kept ++ hs.filter fun h => decide (h.data.lateral = [] ∨ isConsistent eig h.data.lateral box = .ok true) := by
  intro hs
  induction hs with
  | nil => intro kept out h; cases h; simp
  | cons a hs ih =>
    intro kept out h
    unfold reject at h
    by_cases he : a.data.lateral = []
    · rw [if_pos he] at h
      rw [ih _ _ h, List.filter_cons_of_pos (by simp [he])]; simp
    · rw [if_neg he] at h
      cases hc : isConsistent eig a.data.lateral box with
      | error e => rw [hc] at h; cases h
      | ok b =>
        rw [hc] at h
        cases b with
        | true => dsimp only at h; rw [ih _ _ h, List.filter_cons_of_pos (by simp [hc])]; simp
        | false =>
          dsimp only at h
          split_ifs at h
          rw [ih _ _ h, List.filter_cons_of_neg (by simp [hc, he])]

/-- **C93, rejection.**  If the rejection does not raise, the hypotheses that remain are, in order, those with no record or a consistent one. -/
theorem rejection_exact (eig : Eig 2) (box : Itv (Fin 2 → ℝ)) (v : Vehicle) (hs out : List Hypothesis) (h : reject eig box v [] hs = .ok out) :
    out = hs.filter fun h => decide (h.data.lateral = [] ∨ isConsistent eig h.data.lateral box = .ok true) := by
  simpa using reject_spec eig box v hs [] out h

private theorem isConsistent_total (eig : Eig 2) (box : Itv (Fin 2 → ℝ)) (data : Dataset 2) (h : data ≠ []) : ∃ b, isConsistent eig data box = .ok b := by
  unfold isConsistent
  rw [List.getLast?_eq_some_getLast h]
  dsimp only
  split_ifs <;> exact ⟨_, rfl⟩

/-- The rejection does not raise if the routes of the hypotheses are different. -/
theorem rejection_total (eig : Eig 2) (box : Itv (Fin 2 → ℝ)) (s : MultiModel) (hd : (s.hyps.map (routeOf s)).Nodup) :
    ∃ out, reject eig box s.v [] s.hyps = .ok out := by
  have key : ∀ (hs kept : List Hypothesis), (kept ++ hs).Pairwise (fun a b => routeOf s a ≠ routeOf s b) → ∃ out, reject eig box s.v kept hs = .ok out := by
    intro hs
    induction hs with
    | nil => intro kept _; exact ⟨kept, rfl⟩
    | cons a hs ih =>
      intro kept hp
      have hp' : ((kept ++ [a]) ++ hs).Pairwise (fun a b => routeOf s a ≠ routeOf s b) := by simpa using hp
      have hp2 : (kept ++ hs).Pairwise (fun a b => routeOf s a ≠ routeOf s b) :=
        hp.sublist (List.Sublist.append_left (List.sublist_cons_self a hs) kept)
      unfold reject
      by_cases he : a.data.lateral = []
      · rw [if_pos he]; exact ih _ hp'
      · obtain ⟨b, hb⟩ := isConsistent_total eig box _ he
        rw [if_neg he, hb]
        cases b with
        | true => exact ih _ hp'
        | false =>
          dsimp only
          rw [if_neg]
          · exact ih _ hp2
          · rintro ⟨q, hq, hcl⟩
            exact (List.pairwise_append.1 hp).2.2 q hq a (List.mem_cons_self ..) hcl.1
  refine key s.hyps [] ?_
  rw [List.nil_append]
  exact List.pairwise_map.1 hd

/-! ## Following a lane -/

private theorem step_fixed (g : Graph) (i : LaneIndex) (rest : List RouteStep) (p : Vec2) (hend : ∀ lane, g.getLane i = .ok lane → lane.afterEnd p = false) :
    ∀ (hs : List Hypothesis) (v w : Vehicle) (out : List Hypothesis), stepRoutes g v hs = .ok (w, out) → v.pos = p →
      (v.route = some (i.toStep :: rest) → w.route = some (i.toStep :: rest)) ∧ w.pos = p ∧ w.targetLane = v.targetLane ∧ w.steerParams = v.steerParams := by
  intro hs
  induction hs with
  | nil => intro v w out h hp; cases h; exact ⟨id, hp, rfl, rfl⟩
  | cons a hs ih =>
    intro v w out h hp
    unfold stepRoutes at h
    cases hk : known v a with
    | nil => rw [hk] at h; cases h
    | cons s tl =>
      rw [hk] at h
      dsimp only at h
      cases hl : g.getLaneStep s with
      | error e => rw [hl] at h; cases h
      | ok lane =>
        rw [hl] at h
        simp only [bind, Except.bind] at h
        set v' := (if (lane.afterEnd v.pos && a.own) = true then { v with route := some tl } else v) with hv'
        have e2 : v'.pos = v.pos ∧ v'.targetLane = v.targetLane ∧ v'.steerParams = v.steerParams := by rw [hv']; split_ifs <;> exact ⟨rfl, rfl, rfl⟩
        cases hq : stepRoutes g v' hs with
        | error e => rw [hq] at h; cases h
        | ok q =>
          rw [hq] at h
          cases h
          obtain ⟨i1, i2, i3, i4⟩ := ih v' q.1 q.2 hq (e2.1.trans hp)
          refine ⟨fun hr => i1 ?_, i2, i3.trans e2.2.1, i4.trans e2.2.2⟩
          rw [hv']
          split_ifs with hc
          · exfalso
            rw [Bool.and_eq_true] at hc
            have : s = i.toStep := by
              unfold known at hk
              rw [if_pos hc.2, hr, Option.getD_some] at hk
              exact (List.cons.inj hk).1.symm
            rw [this] at hl
            have := hend lane hl
            rw [hp] at hc
            rw [this] at hc
            exact absurd hc.1 (by simp)
          · exact hr

private theorem step_follow (g : Graph) (i : LaneIndex) (rest : List RouteStep) (p : Vec2) (hend : ∀ lane, g.getLane i = .ok lane → lane.afterEnd p = false) :
    ∀ (hs : List Hypothesis) (v w : Vehicle) (out : List Hypothesis), stepRoutes g v hs = .ok (w, out) → v.pos = p → ∀ h ∈ hs, known v h = i.toStep :: rest →
      ∃ h' ∈ out, h'.data = h.data ∧ known w h' = i.toStep :: rest := by
  intro hs
  induction hs with
  | nil => intro v w out _ _ h hh; cases hh
  | cons a hs ih =>
    intro v w out h hp b hb hkb
    unfold stepRoutes at h
    cases hk : known v a with
    | nil => rw [hk] at h; cases h
    | cons s tl =>
      rw [hk] at h
      dsimp only at h
      cases hl : g.getLaneStep s with
      | error e => rw [hl] at h; cases h
      | ok lane =>
        rw [hl] at h
        simp only [bind, Except.bind] at h
        set v' := (if (lane.afterEnd v.pos && a.own) = true then { v with route := some tl } else v) with hv'
        have e2 : v'.pos = v.pos := by rw [hv']; split_ifs <;> rfl
        cases hq : stepRoutes g v' hs with
        | error e => rw [hq] at h; cases h
        | ok q =>
          rw [hq] at h
          cases h
          have hsame : b.own = true → v'.route = v.route := by
            intro hbo
            rw [hv']
            split_ifs with hc
            · exfalso
              rw [Bool.and_eq_true] at hc
              have hr : v.route.getD [] = i.toStep :: rest := by simpa [known, hbo] using hkb
              have : s = i.toStep := by
                unfold known at hk
                rw [if_pos hc.2, hr] at hk
                exact (List.cons.inj hk).1.symm
              rw [this] at hl
              rw [hp, hend lane hl] at hc
              exact absurd hc.1 (by simp)
            · rfl
          have hkb' : known v' b = i.toStep :: rest := by
            unfold known at hkb ⊢
            split_ifs at hkb ⊢ with hbo
            · rw [hsame hbo]; exact hkb
            · exact hkb
          rcases List.mem_cons.1 hb with rfl | hb
          · have hs' : s = i.toStep ∧ tl = rest := by rw [hkb] at hk; exact ⟨(List.cons.inj hk).1.symm, (List.cons.inj hk).2.symm⟩
            rw [hs'.1] at hl
            have hf : lane.afterEnd v.pos = false := by rw [hp]; exact hend lane hl
            refine ⟨b, ?_, rfl, ?_⟩
            · simp [hf]
            · unfold known at hkb' ⊢
              split_ifs at hkb' ⊢ with hbo
              · have hr : v'.route = some (i.toStep :: rest) := by
                  cases hr : v'.route with
                  | none => rw [hr] at hkb'; cases hkb'
                  | some x => rw [hr] at hkb'; exact congrArg some hkb'
                rw [(step_fixed g i rest p hend hs v' q.1 q.2 hq (e2.trans hp)).1 hr]
                rfl
              · exact hkb'
          · obtain ⟨h', m, d, k⟩ := ih v' q.1 q.2 hq (e2.trans hp) b hb hkb'
            exact ⟨h', List.mem_cons_of_mem _ m, d, k⟩

private theorem addFeatures_exact (G : Globals) (r : Road) (v : Vehicle) (data out : Records) (i : LaneIndex) (h : addFeatures G r v data i.toStep i = .ok out)
    (hd : ExactData (steerVector v) data.lateral) : ExactData (steerVector v) out.lateral := by
  unfold addFeatures at h
  cases hn : r.neighbourVehicles v with
  | error e => rw [hn] at h; cases h
  | ok fr =>
    cases hl : r.network.getLane i with
    | error e => rw [hn, show r.network.getLaneStep i.toStep = _ from hl] at h; cases h
    | ok lane =>
      rw [hn, show r.network.getLaneStep i.toStep = _ from hl, hl] at h
      simp only [bind, Except.bind, pure, Except.pure, Except.ok.injEq] at h
      subst h
      intro o ho
      rcases List.mem_append.1 ho with ho | ho
      · exact hd o ho
      · rw [List.mem_singleton.1 ho]
        simp [steerVector, dotProduct, Fin.sum_univ_succ]

private theorem mapM_mem {α β : Type} (f : α → Py β) : ∀ (l : List α) (out : List β), l.mapM f = .ok out → ∀ a ∈ l, ∃ b ∈ out, f a = .ok b := by
  intro l
  induction l with
  | nil => intro out _ a ha; cases ha
  | cons x l ih =>
    intro out h a ha
    rw [List.mapM_cons] at h
    cases hx : f x with
    | error e => rw [hx] at h; cases h
    | ok y =>
      rw [hx] at h
      cases hl : l.mapM f with
      | error e => rw [hl] at h; cases h
      | ok ys =>
        rw [hl] at h
        cases h
        rcases List.mem_cons.1 ha with rfl | ha
        · exact ⟨y, List.mem_cons_self .., hx⟩
        · obtain ⟨b, hb, e⟩ := ih ys hl a ha
          exact ⟨b, List.mem_cons_of_mem _ hb, e⟩

private theorem fold_route (G : Globals) (r : Road) : ∀ (l : List LaneIndex) (v w : Vehicle), l.foldlM (Vehicle.considerLane G r) v = .ok w → w.route = v.route := by
  intro l
  induction l with
  | nil => intro v w h; cases h; rfl
  | cons i l ih =>
    intro v w h
    rw [List.foldlM_cons] at h
    obtain ⟨u, hu, h⟩ := bind_ok h
    rw [ih u w h]
    unfold Vehicle.considerLane at hu
    obtain ⟨li, _, hu⟩ := bind_ok hu
    split at hu
    · obtain ⟨ok, _, hu⟩ := bind_ok hu
      split at hu <;> (cases hu; rfl)
    · cases hu; rfl

private theorem idm_route (G : Globals) (r : Road) (v w : Vehicle) (rng : Rng) (h : v.idmAct G r = .ok (w, rng))
    (hend : ∀ lane, r.network.getLane v.targetLane = .ok lane → lane.afterEnd v.pos = false) : w.route = v.route := by
  unfold Vehicle.idmAct at h
  split at h
  · cases h; rfl
  obtain ⟨⟨front, rear⟩, _, h⟩ := bind_ok h
  obtain ⟨⟨v1, rng1⟩, h1, h⟩ := bind_ok h
  obtain ⟨v2, h2, h⟩ := bind_ok h
  obtain ⟨st, h3, h⟩ := bind_ok h
  obtain ⟨acc, h4, h⟩ := bind_ok h
  cases h
  have e1 : v1 = v := by
    unfold Vehicle.followRoad at h1
    obtain ⟨lane, hl, h1⟩ := bind_ok h1
    rw [hend lane hl] at h1
    cases h1
    rfl
  have e2 : v2.route = v1.route := by
    unfold Vehicle.maybeChangeLane Vehicle.changeLanePolicy at h2
    split at h2
    · split at h2
      · split at h2
        · split at h2 <;> (cases h2; rfl)
        · cases h2; rfl
      · split at h2
        · obtain ⟨sides, _, h2⟩ := bind_ok h2
          have := fold_route G r _ _ _ h2
          exact this
        · cases h2; rfl
    · cases h2; rfl
  rw [← e1]
  exact e2

private theorem fold_vehicle (routes : List (List RouteStep)) : ∀ s : MultiModel, (routes.foldl (consider false) s).v = s.v := by
  induction routes with
  | nil => intro s; rfl
  | cons a routes ih => intro s; rw [List.foldl_cons, ih, consider_vehicle]

private theorem adopt_fixed (own : Bool) (v : Vehicle) (route : List RouteStep) : (adopt own v route).pos = v.pos ∧ (adopt own v route).targetLane = v.targetLane ∧
    (adopt own v route).steerParams = v.steerParams := by
  unfold adopt
  split_ifs <;> exact ⟨rfl, rfl, rfl⟩

private theorem addRoutes_fixed (g : Graph) (s : MultiModel) : (addRoutes g s).v.pos = s.v.pos ∧ (addRoutes g s).v.targetLane = s.v.targetLane ∧
    (addRoutes g s).v.steerParams = s.v.steerParams := by
  unfold addRoutes
  cases ho : ownCandidate g s.v with
  | false => rw [fold_vehicle]; exact ⟨rfl, rfl, rfl⟩
  | true =>
    rcases own_routes ho with h0 | ⟨r, hr, h1⟩
    · rw [h0]; exact ⟨rfl, rfl, rfl⟩
    · rw [h1, List.foldl_cons, List.foldl_nil]
      unfold consider
      dsimp only
      split
      · exact adopt_fixed ..
      · split_ifs <;> exact adopt_fixed ..

private theorem head_cons {l : List RouteStep} {x : RouteStep} (h : l.head? = some x) : ∃ rest, l = x :: rest := by
  cases l with
  | nil => cases h
  | cons y l => cases h; exact ⟨l, rfl⟩

/-- **C93, survival.**  While a linear vehicle follows a lane, any hypothesis that has it on this lane and is exactly explained by its parameters survives all updates:
after any number of actions there is still a hypothesis with this first lane, exactly explained by them, that has recorded at least as much. -/
theorem explaining_survives (G : Globals) (eig : Eig 2) (heig : EigCorrect eig) (box : Itv (Fin 2 → ℝ)) (theta : Fin 2 → ℝ) (hbox : InParamBox theta box) (i : LaneIndex)
    (s t : MultiModel) (hrun : FollowRun G eig box theta i s t) (h : Hypothesis) (hm : h ∈ s.hyps) (hex : Explains theta i s h) :
    ∃ h' ∈ t.hyps, Explains theta i t h' ∧ h.data.lateral.length ≤ h'.data.lateral.length := by
  induction hrun with
  | refl => exact ⟨h, hm, hex, le_rfl⟩
  | act t u r rng w _ hend ht hth hact hw ih =>
    obtain ⟨h0, m0, ⟨⟨rest0, r0⟩, x0⟩, l0⟩ := ih
    unfold MultiModel.act at hact
    obtain ⟨s1, hu, hact⟩ := bind_ok hact
    obtain ⟨s2, hc, hact⟩ := bind_ok hact
    obtain ⟨⟨v3, rng3⟩, hi, hact⟩ := bind_ok hact
    cases hact
    unfold updateRoutes at hu
    obtain ⟨q, hq, hu⟩ := bind_ok hu
    obtain ⟨hyps, hr, hu⟩ := bind_ok hu
    cases hu
    obtain ⟨k, hk⟩ := List.getElem?_of_mem m0
    obtain ⟨h1, e1, d1, _, p1⟩ := hypotheses_kept r.network t k h0 hk
    obtain ⟨rest1, r1⟩ := head_cons (p1 i (by rw [r0]; rfl))
    have hfix := addRoutes_fixed r.network t
    obtain ⟨h2, m2, d2, r2⟩ := step_follow r.network i rest1 t.v.pos hend _ _ _ _ hq hfix.1 h1 (List.mem_of_getElem? e1) r1
    have hfix2 := step_fixed r.network i rest1 t.v.pos hend _ _ _ _ hq hfix.1
    have x2 : ExactData theta h2.data.lateral := by rw [d2, d1]; exact x0
    have m3 : h2 ∈ hyps := by
      rw [rejection_exact eig box q.1 q.2 hyps hr, List.mem_filter]
      refine ⟨m2, ?_⟩
      rw [decide_eq_true_iff]
      by_cases he : h2.data.lateral = []
      · exact .inl he
      · exact .inr (exact_consistent eig heig _ box theta hbox x2 he)
    unfold collect at hc
    obtain ⟨out, ho, hc⟩ := bind_ok hc
    cases hc
    obtain ⟨h4, m4, c4⟩ := mapM_mem _ _ _ ho h2 m3
    unfold collectOne at c4
    rw [r2] at c4
    dsimp only at c4
    obtain ⟨data, ha, c4⟩ := bind_ok c4
    cases c4
    have htl : q.1.targetLane = i := by rw [hfix2.2.2.1, hfix.2.1, ht]
    have hsv : steerVector q.1 = theta := by
      rw [← hth]
      unfold steerVector
      rw [hfix2.2.2.2, hfix.2.2]
    rw [htl] at ha
    have x4 : ExactData theta data.lateral := by
      rw [← hsv]
      exact addFeatures_exact G r q.1 h2.data data i ha (by rw [hsv]; exact x2)
    have hroute : v3.route = q.1.route := idm_route G r q.1 v3 _ hi (by rw [htl, hfix2.2.1]; exact hend)
    refine ⟨_, m4, ⟨⟨rest1, ?_⟩, x4⟩, ?_⟩
    · unfold routeOf
      unfold known at r2
      dsimp only
      rw [hw, hroute]
      exact r2
    · refine l0.trans ?_
      rw [← d1, ← d2]
      unfold addFeatures at ha
      obtain ⟨_, _, ha⟩ := bind_ok ha
      obtain ⟨_, _, ha⟩ := bind_ok ha
      obtain ⟨_, _, ha⟩ := bind_ok ha
      cases ha
      simp

/-! ## Limits -/

/-- Any record is contradicted by an observation with null features and an output of at least 0.1. -/
theorem null_features_reject (eig : Eig 2) (box : Itv (Fin 2 → ℝ)) (data : Dataset 2) (hne : data ≠ []) (y : ℝ) (hy : 1 / 10 ≤ |y|) :
    isConsistent eig (data ++ [(0, y)]) box = .ok false := by
  unfold isConsistent
  rw [List.getLast?_append_of_ne_nil _ (by simp), List.getLast?_singleton]
  dsimp only
  rw [List.dropLast_concat, if_neg hne]
  congr 1
  unfold isValid
  simp
  linarith

/-- **C93, limit.**  A vehicle without route whose only hypothesis is a single lane raises `IndexError` when it acts after passing the end of this lane (unless it has recorded
an inconsistency). -/
theorem last_lane_raises (G : Globals) (eig : Eig 2) (box : Itv (Fin 2 → ℝ)) (r : Road) (v : Vehicle) (i : RouteStep) (data : Records) (lane : Lane)
    (hv : v.route = none) (hl : r.network.getLaneStep i = .ok lane) (hend : lane.afterEnd v.pos = true)
    (hok : data.lateral = [] ∨ isConsistent eig data.lateral box = .ok true) :
    MultiModel.act G eig box r ⟨v, [{ own := false, route := [i], data := data }]⟩ = .error .indexError := by
  have e1 : addRoutes r.network ⟨v, [{ own := false, route := [i], data := data }]⟩ = ⟨v, [{ own := false, route := [i], data := data }]⟩ := by
    unfold addRoutes Vehicle.routesAtIntersection
    dsimp only
    rw [hv]
    rfl
  have e2 : stepRoutes r.network v [{ own := false, route := [i], data := data }] = .ok (v, [{ own := false, route := [], data := data }]) := by
    unfold stepRoutes
    simp only [known, Bool.false_eq_true, if_false, hl, bind, Except.bind, hend]
    simp [stepRoutes, pure, Except.pure]
  have e3 : reject eig box v [] [{ own := false, route := [], data := data }] = .ok [{ own := false, route := [], data := data }] := by
    unfold reject
    by_cases h : data.lateral = []
    · rw [if_pos h]; rfl
    · rw [if_neg h]
      rcases hok with hok | hok
      · exact absurd hok h
      · simp only [hok]; rfl
  unfold MultiModel.act updateRoutes
  rw [e1]
  dsimp only
  rw [e2]
  simp only [bind, Except.bind, e3, pure, Except.pure]
  rfl

/-- **C93, choice.**  Assuming a model valid takes the hypothesis of the given index, or the last one if the index is too large: its first lane, its route and its record.
With no hypothesis, the vehicle is copied as it is. -/
theorem assumed_choice (s : MultiModel) (k : ℕ) (hk : ∀ h ∈ s.hyps, routeOf s h ≠ []) :
    (s.hyps = [] → s.assumed k = .ok none) ∧
    (s.hyps ≠ [] → ∃ h i rest, s.hyps[min k (s.hyps.length - 1)]? = some h ∧ routeOf s h = i :: rest ∧ s.assumed k = .ok (some (i, i :: rest, h.data))) := by
  unfold assumed
  constructor
  · intro h; rw [if_pos h]
  · intro h
    have hpos : 0 < s.hyps.length := List.length_pos_of_ne_nil h
    have hlt : min k (s.hyps.length - 1) < s.hyps.length := by omega
    have hget := List.getElem?_eq_getElem hlt
    set q := s.hyps[min k (s.hyps.length - 1)] with hq
    have hmem : q ∈ s.hyps := List.getElem_mem hlt
    cases hr : routeOf s q with
    | nil => exact absurd hr (hk q hmem)
    | cons i rest =>
      refine ⟨q, i, rest, hget, hr, ?_⟩
      rw [if_neg h]
      have e1 : min (k : Int) ((s.hyps.length : Int) - 1) = ((min k (s.hyps.length - 1) : ℕ) : Int) := by omega
      have e2 : pyIndex s.hyps (min (k : Int) ((s.hyps.length : Int) - 1)) = .ok q := by
        rw [e1]
        unfold pyIndex
        simp only [Int.natCast_nonneg, not_lt.2 (Int.natCast_nonneg _), if_false, Int.toNat_natCast, hget]
      have e3 : known s.v q = i :: rest := hr
      simp only [e2, bind, Except.bind, e3, pure, Except.pure]
      rfl

/-- The lanes of the counterexample: the second one starts 1 m to the side of the end of the first one. -/
private def laneA : Lane := { shape := .straight ⟨0, 0⟩ ⟨100, 0⟩ }
private def laneB : Lane := { shape := .straight ⟨100, 1⟩ ⟨200, 1⟩ }
private def shifted : Graph := [("0", [("1", [laneA])]), ("1", [("2", [laneB])])]
private def stepA : RouteStep := ⟨"0", "1", some 0⟩
private def stepB : RouteStep := ⟨"1", "2", some 0⟩

/-- A linear vehicle at the end of the first lane, on the centre line of the second one, that keeps its lane. -/
private def driver (target : LaneIndex) (route : List RouteStep) (st acc : ℝ) : Vehicle :=
  { uid := 0, kind := .linear, pos := ⟨100, 1⟩, heading := 0, speed := 10, laneIndex := ⟨"0", "1", 0⟩, lane := laneA
    targetLane := target, targetSpeed := 10, route := some route, enableLaneChange := false, steering := st, acceleration := acc }

private theorem sqrt100 : √((100 : ℝ) ^ 2) = 100 := Real.sqrt_sq (by norm_num)

private theorem localA : laneA.localCoordinates ⟨100, 1⟩ = (100, 1) := by
  simp [laneA, Lane.localCoordinates, Lane.straightLocal, Lane.straightDir, Vec2.norm, Vec2.dot, sqrt100]

private theorem localB : laneB.localCoordinates ⟨100, 1⟩ = (0, 0) := by
  simp [laneB, Lane.localCoordinates, Lane.straightLocal, Lane.straightDir, Vec2.norm, Vec2.dot]

private theorem endA : laneA.afterEnd ⟨100, 1⟩ = true := by
  have hl : laneA.length = 100 := by simp [laneA, Lane.length, Vec2.norm, sqrt100]
  unfold Lane.afterEnd
  rw [hl, localA]
  simp [Lane.optTruthy, Lane.VEHICLE_LENGTH]

private theorem endB : laneB.afterEnd ⟨100, 1⟩ = false := by
  have hl : laneB.length = 100 := by
    have : (200 : ℝ) - 100 = 100 := by norm_num
    simp [laneB, Lane.length, Vec2.norm, this, sqrt100]
  unfold Lane.afterEnd
  rw [hl, localB]
  simp [Lane.optTruthy, Lane.VEHICLE_LENGTH]
  norm_num

private theorem getA : shifted.getLaneStep stepA = .ok laneA := by
  simp [shifted, Graph.getLaneStep, Graph.lanesOf, stepA, Dict.getItem, Dict.get?, bind, Except.bind, pyIndex]

private theorem getB : shifted.getLaneStep stepB = .ok laneB := by
  simp [shifted, Graph.getLaneStep, Graph.lanesOf, stepB, Dict.getItem, Dict.get?, bind, Except.bind, pyIndex]

private theorem noBranch (route : List RouteStep) (h : route = [stepA, stepB] ∨ route = [stepB]) : Vehicle.branchIndex shifted 0 (route.take 3) = none := by
  rcases h with rfl | rfl <;> simp [Vehicle.branchIndex, stepA, stepB, shifted, Dict.get?]

private theorem driver_add (target : LaneIndex) (route : List RouteStep) (st acc : ℝ) (data : Records) (h : route = [stepA, stepB] ∨ route = [stepB]) :
    addRoutes shifted ⟨driver target route st acc, [{ own := false, route := route, data := data }]⟩ =
      ⟨driver target route st acc, [{ own := false, route := route, data := data }]⟩ := by
  have hf : route.map fillLane = route := by rcases h with rfl | rfl <;> rfl
  have hne : ∃ a l, route = a :: l := by rcases h with rfl | rfl <;> exact ⟨_, _, rfl⟩
  have hb := noBranch route h
  have e1 : (driver target route st acc).routesAtIntersection shifted = [route] := by
    obtain ⟨a, l, rfl⟩ := hne
    unfold Vehicle.routesAtIntersection
    simp only [driver]
    rw [hb]
  unfold addRoutes
  rw [e1, List.foldl_cons, List.foldl_nil]
  have ho : ownCandidate shifted (driver target route st acc) = true := by
    unfold ownCandidate
    simp only [driver, Option.getD_some]
    rw [hb]
    rfl
  dsimp only
  rw [ho]
  unfold consider
  dsimp only
  rw [hf]
  have ha : adopt true (driver target route st acc) route = driver target route st acc := rfl
  rw [ha]
  have hk : known (driver target route st acc) { own := false, route := route, data := data } = route := rfl
  rw [List.find?_cons_of_pos (by rw [hk]; exact decide_eq_true (.inl rfl))]
  dsimp only
  rw [if_pos hk]

private theorem driver_step1 (data : Records) : stepRoutes shifted (driver ⟨"0", "1", 0⟩ [stepA, stepB] 0 0) [{ own := false, route := [stepA, stepB], data := data }] =
    .ok (driver ⟨"0", "1", 0⟩ [stepA, stepB] 0 0, [{ own := false, route := [stepB], data := data }]) := by
  unfold stepRoutes
  have hp : (driver ⟨"0", "1", 0⟩ [stepA, stepB] 0 0).pos = ⟨100, 1⟩ := rfl
  simp only [known, Bool.false_eq_true, if_false, getA, bind, Except.bind, hp, endA]
  simp [stepRoutes, pure, Except.pure]

private theorem driver_step2 (st acc : ℝ) (data : Records) : stepRoutes shifted (driver ⟨"1", "2", 0⟩ [stepB] st acc) [{ own := false, route := [stepB], data := data }] =
    .ok (driver ⟨"1", "2", 0⟩ [stepB] st acc, [{ own := false, route := [stepB], data := data }]) := by
  unfold stepRoutes
  have hp : (driver ⟨"1", "2", 0⟩ [stepB] st acc).pos = ⟨100, 1⟩ := rfl
  simp only [known, Bool.false_eq_true, if_false, getB, bind, Except.bind, hp, endB]
  simp [stepRoutes, pure, Except.pure]

private theorem headingA (x : ℝ) : laneA.headingAt x = 0 := by
  have : (⟨100, 0⟩ : ℂ) = ((100 : ℝ) : ℂ) := rfl
  simp only [laneA, Lane.headingAt, Lane.straightHeading, arctan2, sub_zero]
  rw [this, Complex.arg_ofReal_of_nonneg (by norm_num)]

private theorem headingB (x : ℝ) : laneB.headingAt x = 0 := by
  have h1 : (200 : ℝ) - 100 = 100 := by norm_num
  have : (⟨100, 0⟩ : ℂ) = ((100 : ℝ) : ℂ) := rfl
  simp only [laneB, Lane.headingAt, Lane.straightHeading, arctan2, sub_self, h1]
  rw [this, Complex.arg_ofReal_of_nonneg (by norm_num)]

private theorem wrap0 : wrapToPi 0 = 0 := by
  exact wrapToPi_of_mem (by linarith [Real.pi_pos]) Real.pi_pos

private theorem driver_features (target : LaneIndex) (route : List RouteStep) (st acc : ℝ) :
    (driver target route st acc).steeringFeatures laneA = (0, -(1 / 20)) ∧ (driver target route st acc).steeringFeatures laneB = (0, 0) := by
  have hn : notZero 10 = (10 : ℝ) := by unfold notZero; norm_num
  constructor
  · unfold Vehicle.steeringFeatures
    simp only [driver, localA, headingA, sub_zero, wrap0, hn, Vehicle.LENGTH]
    norm_num
  · unfold Vehicle.steeringFeatures
    simp only [driver, localB, headingB, sub_zero, wrap0, hn]
    norm_num

/-- The road with this vehicle only. -/
private def alone : Road := { network := shifted, vehicles := [driver ⟨"0", "1", 0⟩ [stepA, stepB] 0 0], rng := ⟨fun _ => 0, fun _ => 0, 0, 0⟩ }

private theorem alone_neighbours (target : LaneIndex) (route : List RouteStep) (st acc : ℝ) : alone.neighbourVehicles (driver target route st acc) = .ok (none, none) := by
  unfold Road.neighbourVehicles
  have hl : shifted.getLane (driver target route st acc).laneIndex = .ok laneA := getA
  simp only [Option.getD_none, hl, bind, Except.bind, pure, Except.pure, Road.entities, alone, List.map_cons, List.map_nil, List.append_nil, List.foldl_cons, List.foldl_nil]
  have : ∀ (l : Lane) (x : ℝ), Road.nbStep l x (driver target route st acc).uid {} (.veh (driver ⟨"0", "1", 0⟩ [stepA, stepB] 0 0)) = {} := by
    intro l x
    unfold Road.nbStep
    rw [if_neg (by simp [Entity.uid, driver])]
  simp only [hl, this, Option.map_none]

private theorem driver_collect (G : Globals) (data : Records) : ∃ out, out.lateral = data.lateral ++ [(0, -(5 / 12))] ∧
    collect G alone ⟨driver ⟨"0", "1", 0⟩ [stepA, stepB] 0 0, [{ own := false, route := [stepB], data := data }]⟩ =
      .ok ⟨driver ⟨"0", "1", 0⟩ [stepA, stepB] 0 0, [{ own := false, route := [stepB], data := out }]⟩ := by
  have hA : alone.network.getLane (driver ⟨"0", "1", 0⟩ [stepA, stepB] 0 0).targetLane = .ok laneA := getA
  have hB : alone.network.getLaneStep stepB = .ok laneB := getB
  have hf := driver_features ⟨"0", "1", 0⟩ [stepA, stepB] 0 0
  obtain ⟨out, h1, h2⟩ : ∃ out : Records, out.lateral = data.lateral ++ [(0, -(5 / 12))] ∧
      addFeatures G alone (driver ⟨"0", "1", 0⟩ [stepA, stepB] 0 0) data stepB (driver ⟨"0", "1", 0⟩ [stepA, stepB] 0 0).targetLane = .ok out := by
    unfold addFeatures
    rw [alone_neighbours]
    simp only [bind, Except.bind, hA, hB, hf.1, hf.2, pure, Except.pure]
    refine ⟨_, ?_, rfl⟩
    dsimp only
    congr 1
    have e1 : (![0, 0] : Fin 2 → ℝ) = 0 := by ext j; fin_cases j <;> rfl
    have e2 : (driver ⟨"0", "1", 0⟩ [stepA, stepB] 0 0).steerParams.1 * 0 + (driver ⟨"0", "1", 0⟩ [stepA, stepB] 0 0).steerParams.2 * -(1 / 20) = (-(5 / 12) : ℝ) := by
      simp only [driver]; norm_num
    rw [e1, e2]
  refine ⟨out, h1, ?_⟩
  unfold collect
  have : collectOne G alone (driver ⟨"0", "1", 0⟩ [stepA, stepB] 0 0) { own := false, route := [stepB], data := data } =
      .ok { own := false, route := [stepB], data := out } := by
    unfold collectOne
    simp only [known, Bool.false_eq_true, if_false, h2, bind, Except.bind, pure, Except.pure]
  rw [List.mapM_cons, this, List.mapM_nil]
  rfl

private theorem driver_act (G : Globals) : ∃ st acc, (driver ⟨"0", "1", 0⟩ [stepA, stepB] 0 0).idmAct G alone = .ok (driver ⟨"1", "2", 0⟩ [stepB] st acc, alone.rng) := by
  have hn : shifted.nextLane ⟨"0", "1", 0⟩ (some [stepA, stepB]) ⟨100, 1⟩ alone.rng = .ok (⟨"1", "2", 0⟩, some [stepB], alone.rng) := by
    simp [Graph.nextLane, Graph.nextFromRoute, stepA, stepB, Graph.strTruthy, Graph.nextLaneOn, Graph.lanesOf, shifted, Dict.getItem, Dict.get?, bind, Except.bind, pure, Except.pure]
  have hfr : (driver ⟨"0", "1", 0⟩ [stepA, stepB] 0 0).followRoad alone.network alone.rng = .ok (driver ⟨"1", "2", 0⟩ [stepB] 0 0, alone.rng) := by
    unfold Vehicle.followRoad
    have hA : alone.network.getLane (driver ⟨"0", "1", 0⟩ [stepA, stepB] 0 0).targetLane = .ok laneA := getA
    have e1 : laneA.afterEnd (driver ⟨"0", "1", 0⟩ [stepA, stepB] 0 0).pos = true := endA
    have e2 : alone.network.nextLane (driver ⟨"0", "1", 0⟩ [stepA, stepB] 0 0).targetLane (driver ⟨"0", "1", 0⟩ [stepA, stepB] 0 0).route
      (driver ⟨"0", "1", 0⟩ [stepA, stepB] 0 0).pos alone.rng = .ok (⟨"1", "2", 0⟩, some [stepB], alone.rng) := hn
    simp only [hA, e1, e2, bind, Except.bind, if_true, pure, Except.pure]
    rfl
  unfold Vehicle.idmAct
  rw [if_neg (by simp [driver]), alone_neighbours]
  simp only [bind, Except.bind, hfr]
  have hm : (driver ⟨"1", "2", 0⟩ [stepB] 0 0).maybeChangeLane G alone = .ok (driver ⟨"1", "2", 0⟩ [stepB] 0 0) := by
    unfold Vehicle.maybeChangeLane
    rw [if_neg (by simp [driver])]
  have hs : ∃ st, (driver ⟨"1", "2", 0⟩ [stepB] 0 0).steeringControl alone.network (driver ⟨"1", "2", 0⟩ [stepB] 0 0).targetLane = .ok st := by
    unfold Vehicle.steeringControl
    have hB : alone.network.getLane (driver ⟨"1", "2", 0⟩ [stepB] 0 0).targetLane = .ok laneB := getB
    simp only [hB, bind, Except.bind, pure, Except.pure]
    split_ifs <;> exact ⟨_, rfl⟩
  have hacc : ∃ a, Vehicle.accelerationOf G (driver ⟨"1", "2", 0⟩ [stepB] 0 0) (some (.veh (driver ⟨"1", "2", 0⟩ [stepB] 0 0))) none = .ok a := ⟨_, rfl⟩
  obtain ⟨st, hs⟩ := hs
  obtain ⟨a, hacc⟩ := hacc
  rw [hm]
  simp only [hs, hacc, pure, Except.pure]
  exact ⟨_, _, rfl⟩

/-- **C93, limit.**  The true route may be rejected: a linear vehicle follows its route from one lane to the next; the hypothesis of this very route is exactly explained
by its parameters, which are in the box; it acts once as it passes the end of the lane (the new observation pairs the features of the next lane with the steering along
the previous one), and the next update removes the hypothesis. -/
theorem true_route_rejected (G : Globals) (eig : Eig 2) (heig : EigCorrect eig) (box : Itv (Fin 2 → ℝ)) (hbox : InParamBox ![5, 25 / 3] box)
    (data : Records) (hne : data.lateral ≠ []) (hex : ExactData ![5, 25 / 3] data.lateral) :
    ∃ (r : Road) (s u w : MultiModel) (rng : Rng) (h h' : Hypothesis), s.hyps = [h] ∧ h.data = data ∧ some (routeOf s h) = s.v.route ∧ steerVector s.v = ![5, 25 / 3] ∧
      s.act G eig box r = .ok (u, rng) ∧ u.hyps = [h'] ∧ some (routeOf u h') = u.v.route ∧ some u.v.targetLane.toStep = (routeOf u h').head? ∧
      updateRoutes r.network eig box u = .ok w ∧ w.hyps = [] := by
  obtain ⟨out, hout, hcol⟩ := driver_collect G data
  obtain ⟨st, acc, hact⟩ := driver_act G
  have hkeep : reject eig box (driver ⟨"0", "1", 0⟩ [stepA, stepB] 0 0) [] [{ own := false, route := [stepB], data := data }] = .ok [{ own := false, route := [stepB], data := data }] := by
    unfold reject
    rw [if_neg hne, exact_consistent eig heig _ box _ hbox hex hne]
    rfl
  have hup1 : updateRoutes alone.network eig box ⟨driver ⟨"0", "1", 0⟩ [stepA, stepB] 0 0, [{ own := false, route := [stepA, stepB], data := data }]⟩ =
      .ok ⟨driver ⟨"0", "1", 0⟩ [stepA, stepB] 0 0, [{ own := false, route := [stepB], data := data }]⟩ := by
    unfold updateRoutes
    have e1 := driver_add ⟨"0", "1", 0⟩ [stepA, stepB] 0 0 data (.inl rfl)
    rw [show alone.network = shifted from rfl, e1]
    dsimp only
    rw [driver_step1]
    simp only [bind, Except.bind, hkeep, pure, Except.pure]
  have hrej : reject eig box (driver ⟨"1", "2", 0⟩ [stepB] st acc) [] [{ own := false, route := [stepB], data := out }] = .ok [] := by
    unfold reject
    have hne' : out.lateral ≠ [] := by rw [hout]; simp
    rw [if_neg hne']
    have : isConsistent eig out.lateral box = .ok false := by
      rw [hout]
      exact null_features_reject eig box _ hne _ (by rw [abs_neg, abs_of_pos] <;> norm_num)
    simp only [this]
    rw [if_neg (by simp)]
    rfl
  have hup2 : updateRoutes alone.network eig box ⟨driver ⟨"1", "2", 0⟩ [stepB] st acc, [{ own := false, route := [stepB], data := out }]⟩ =
      .ok ⟨driver ⟨"1", "2", 0⟩ [stepB] st acc, []⟩ := by
    unfold updateRoutes
    have e1 := driver_add ⟨"1", "2", 0⟩ [stepB] st acc out (.inr rfl)
    rw [show alone.network = shifted from rfl, e1]
    dsimp only
    rw [driver_step2]
    simp only [bind, Except.bind, hrej, pure, Except.pure]
  refine ⟨alone, ⟨driver ⟨"0", "1", 0⟩ [stepA, stepB] 0 0, [{ own := false, route := [stepA, stepB], data := data }]⟩,
    ⟨driver ⟨"1", "2", 0⟩ [stepB] st acc, [{ own := false, route := [stepB], data := out }]⟩, _, alone.rng, _, _, rfl, rfl, rfl, rfl, ?_, rfl, rfl, rfl, hup2, rfl⟩
  unfold MultiModel.act
  rw [hup1]
  simp only [bind, Except.bind, hcol, hact, pure, Except.pure]

/-- The situation of `true_route_rejected` exists: one null observation is exactly explained, and the parameters are in the box of the class. -/
example : ∃ eig : Eig 2, EigCorrect eig ∧ InParamBox ![5, 25 / 3] (![5 - 7 / 100, 25 / 3 - 3 / 2], ![5 + 7 / 100, 25 / 3 + 3 / 2]) ∧
    ({ longitudinal := [(0, 0)], lateral := [(![1, 0], 5)] } : Records).lateral ≠ [] ∧ ExactData ![5, 25 / 3] ({ longitudinal := [(0, 0)], lateral := [(![1, 0], 5)] } : Records).lateral := by
  obtain ⟨eig, h⟩ := eig_correct_exists 2
  refine ⟨eig, h, ?_, by simp, ?_⟩
  · intro i; fin_cases i <;> constructor <;> simp <;> norm_num
  · intro o ho
    rw [List.mem_singleton.1 ho]
    simp [dotProduct, Fin.sum_univ_succ]

/-- A hypothesis that explains the records of the vehicle, and a run along its lane with one action. -/
example (G : Globals) (eig : Eig 2) (heig : EigCorrect eig) (box : Itv (Fin 2 → ℝ)) (hbox : InParamBox ![5, 25 / 3] box) :
    ∃ (s t : MultiModel) (h : Hypothesis), h ∈ s.hyps ∧ Explains ![5, 25 / 3] ⟨"1", "2", 0⟩ s h ∧ h.data.lateral ≠ [] ∧
      FollowRun G eig box ![5, 25 / 3] ⟨"1", "2", 0⟩ s t ∧ t.v.steering ≠ s.v.steering := by
  set data : Records := { longitudinal := [(0, 0)], lateral := [(![1, 0], 5)] } with hdata
  set v := driver ⟨"1", "2", 0⟩ [stepB] 1 0 with hv
  have hex : ExactData ![5, 25 / 3] data.lateral := by
    intro o ho
    rw [List.mem_singleton.1 ho]
    simp [dotProduct, Fin.sum_univ_succ]
  have hne : data.lateral ≠ [] := by simp [hdata]
  have hB : alone.network.getLaneStep stepB = .ok laneB := getB
  have hB' : alone.network.getLane v.targetLane = .ok laneB := getB
  have hf := (driver_features ⟨"1", "2", 0⟩ [stepB] 1 0).2
  have hnb : alone.neighbourVehicles v = .ok (none, none) := alone_neighbours ..
  have hup : updateRoutes alone.network eig box ⟨v, [{ own := false, route := [stepB], data := data }]⟩ = .ok ⟨v, [{ own := false, route := [stepB], data := data }]⟩ := by
    unfold updateRoutes
    have e1 := driver_add ⟨"1", "2", 0⟩ [stepB] 1 0 data (.inr rfl)
    rw [show alone.network = shifted from rfl, hv, e1]
    dsimp only
    rw [driver_step2]
    have : reject eig box v [] [{ own := false, route := [stepB], data := data }] = .ok [{ own := false, route := [stepB], data := data }] := by
      unfold reject
      rw [if_neg hne, exact_consistent eig heig _ box _ hbox hex hne]
      rfl
    simp only [bind, Except.bind, ← hv, this, pure, Except.pure]
  obtain ⟨out, hcol⟩ : ∃ out, collect G alone ⟨v, [{ own := false, route := [stepB], data := data }]⟩ = .ok ⟨v, [{ own := false, route := [stepB], data := out }]⟩ := by
    obtain ⟨out, h2⟩ : ∃ out, addFeatures G alone v data stepB v.targetLane = .ok out := by
      unfold addFeatures
      rw [hnb]
      simp only [bind, Except.bind, hB, hB', pure, Except.pure]
      exact ⟨_, rfl⟩
    refine ⟨out, ?_⟩
    unfold collect
    have : collectOne G alone v { own := false, route := [stepB], data := data } = .ok { own := false, route := [stepB], data := out } := by
      unfold collectOne
      simp only [known, Bool.false_eq_true, if_false, h2, bind, Except.bind, pure, Except.pure]
    dsimp only
    rw [List.mapM_cons, this, List.mapM_nil]
    rfl
  obtain ⟨acc, hact⟩ : ∃ acc, v.idmAct G alone = .ok (driver ⟨"1", "2", 0⟩ [stepB] 0 acc, alone.rng) := by
    have hfr : v.followRoad alone.network alone.rng = .ok (v, alone.rng) := by
      unfold Vehicle.followRoad
      have e1 : laneB.afterEnd v.pos = false := endB
      simp only [hB', e1, bind, Except.bind, pure, Except.pure]
      simp
    have hm : v.maybeChangeLane G alone = .ok v := by
      unfold Vehicle.maybeChangeLane
      rw [if_neg (by simp [hv, driver])]
    have hs : v.steeringControl alone.network v.targetLane = .ok 0 := by
      unfold Vehicle.steeringControl
      simp only [hB', bind, Except.bind, pure, Except.pure]
      rw [if_pos (by simp [hv, driver, VKind.isLinear]), hf]
      simp
    obtain ⟨a, hacc⟩ : ∃ a, Vehicle.accelerationOf G v (some (.veh v)) none = .ok a := ⟨_, rfl⟩
    unfold Vehicle.idmAct
    rw [if_neg (by simp [hv, driver]), hnb]
    simp only [bind, Except.bind, hfr, hm, hs, hacc, pure, Except.pure]
    have h0 : npClip 0 (-Vehicle.MAX_STEERING_ANGLE) Vehicle.MAX_STEERING_ANGLE = 0 := by
      have : 0 < Vehicle.MAX_STEERING_ANGLE := by unfold Vehicle.MAX_STEERING_ANGLE; positivity
      exact npClip_of_mem (by linarith) this.le
    rw [h0]
    exact ⟨_, rfl⟩
  refine ⟨⟨v, [{ own := false, route := [stepB], data := data }]⟩, ⟨driver ⟨"1", "2", 0⟩ [stepB] 0 acc, [{ own := false, route := [stepB], data := out }]⟩, _, List.mem_singleton.2 rfl,
    ⟨⟨[], rfl⟩, hex⟩, hne, ?_, by simp [hv, driver]⟩
  refine FollowRun.act _ _ ⟨driver ⟨"1", "2", 0⟩ [stepB] 0 acc, [{ own := false, route := [stepB], data := out }]⟩ alone alone.rng _ (.refl _) ?_ rfl rfl ?_ rfl
  · intro lane hl
    have : lane = laneB := Except.ok.inj (hl.symm.trans hB')
    rw [this]
    exact endB
  · unfold MultiModel.act
    rw [hup]
    simp only [bind, Except.bind, hcol, hact, pure, Except.pure]

end HighwayEnv.Props
