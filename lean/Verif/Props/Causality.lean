import Verif.Spec.Causality
import Verif.Props.Chance
import Verif.Props.Platoon

/-!
# C117: traffic that keeps its lane looks only ahead
-/

noncomputable section
open Classical
namespace HighwayEnv.Props
open HighwayEnv Spec

namespace Causality

/-! ## The front neighbour -/

theorem front_only {lane : Lane} {s : ℝ} {self : ℕ} (es : List Entity) : ∀ {st st' : Road.NbState}, st.front = st'.front →
    (es.foldl (Road.nbStep lane s self) st).front = (es.foldl (Road.nbStep lane s self) st').front := by
  induction es with
  | nil => intro st st' h; exact h
  | cons e es ih =>
    intro st st' h
    rw [List.foldl_cons, List.foldl_cons]
    refine ih ?_
    rw [nbStep_eq, nbStep_eq]
    by_cases hq : OnQueriedLane lane self e
    · rw [if_pos hq, if_pos hq]; dsimp only; rw [h]
    · rw [if_neg hq, if_neg hq]; exact h

theorem front_skip {lane : Lane} {s : ℝ} {self : ℕ} (es : List Entity) (hn : ∀ e ∈ es, ¬ (OnQueriedLane lane self e ∧ s ≤ along lane e)) : ∀ {st : Road.NbState},
    (es.foldl (Road.nbStep lane s self) st).front = st.front := by
  induction es with
  | nil => intro st; rfl
  | cons e es ih =>
    intro st
    rw [List.foldl_cons, ih (fun e he => hn e (List.mem_cons_of_mem _ he)), nbStep_eq]
    by_cases hq : OnQueriedLane lane self e
    · rw [if_pos hq]
      dsimp only
      rw [if_neg fun h => hn e List.mem_cons_self ⟨hq, h.1⟩]
    · rw [if_neg hq]

theorem behind_body {m : ℕ} {r s : Road} (hb : Pointwise SameBody r.vehicles s.vehicles) (hn : s.network = r.network) (h : OthersBehind m r) : OthersBehind m s := by
  intro x hx y hy ⟨lane, h1, h2, h3, h4, h5, h6⟩
  obtain ⟨j, hj⟩ := List.getElem?_of_mem hx
  obtain ⟨k, hk⟩ := List.getElem?_of_mem hy
  rw [List.getElem?_take] at hj
  split at hj
  swap
  · cases hj
  rename_i hjm
  rw [List.getElem?_drop] at hk
  have hjl := (List.getElem?_eq_some_iff.1 hj).1
  have hkl := (List.getElem?_eq_some_iff.1 hk).1
  rw [hb.1] at hjl hkl
  obtain ⟨x', hx', bx⟩ := hb.2 j _ (List.getElem?_eq_getElem hjl)
  obtain ⟨y', hy', by'⟩ := hb.2 (m + k) _ (List.getElem?_eq_getElem hkl)
  have e1 : x' = x := Option.some.inj (hx'.symm.trans hj)
  have e2 : y' = y := Option.some.inj (hy'.symm.trans hk)
  subst e1 e2
  refine h r.vehicles[j] ?_ r.vehicles[m + k] ?_ ⟨lane, ?_, ?_, ?_, ?_, ?_, ?_⟩
  · exact List.mem_of_getElem? (i := j) (by rw [List.getElem?_take, if_pos hjm, List.getElem?_eq_getElem hjl])
  · exact List.mem_of_getElem? (i := k) (by rw [List.getElem?_drop, List.getElem?_eq_getElem hkl])
  · rw [← hn, ← bx.laneIndex]; exact h1
  · rw [← bx.uid, ← by'.uid]; exact h2
  · rw [← by'.pos]; exact h3
  · rw [← by'.pos]; exact h4
  · rw [← by'.pos]; exact h5
  · rw [← by'.pos, ← bx.pos]; exact h6

theorem SameFirst.symm {m : ℕ} {r r' : Road} (h : SameFirst m r r') : SameFirst m r' r :=
  ⟨h.network.symm, h.recordHistory.symm, h.free.symm, h.empty.symm, h.enough.symm, h.first.symm, by rw [h.first]; exact h.keep⟩

theorem entities_split {m : ℕ} {r : Road} (h : r.objects = []) : r.entities = (r.vehicles.take m).map .veh ++ (r.vehicles.drop m).map .veh := by
  unfold Road.entities
  rw [h, List.map_nil, List.append_nil, ← List.map_append, List.take_append_drop]

theorem same_front {m : ℕ} {r r' : Road} (h : SameFirst m r r') (hb : OthersBehind m r) (hb' : OthersBehind m r') {v : Vehicle} (hv : v ∈ r.vehicles.take m)
    {f b f' b' : Option Entity} (hf : r.neighbourVehicles v = .ok (f, b)) (hf' : r'.neighbourVehicles v = .ok (f', b')) : f = f' := by
  unfold Road.neighbourVehicles at hf hf'
  dsimp only [Option.getD_none] at hf hf'
  obtain ⟨lane, hl, hf⟩ := bind_ok hf
  obtain ⟨lane', hl', hf'⟩ := bind_ok hf'
  rw [h.network, hl] at hl'
  have : lane = lane' := Except.ok.inj hl'
  subst this
  have q : ∀ {s : Road}, s.network = r.network → v ∈ s.vehicles.take m → OthersBehind m s → s.objects = [] →
      (s.entities.foldl (Road.nbStep lane (lane.localCoordinates v.pos).1 v.uid) {}).front =
        (((s.vehicles.take m).map Entity.veh).foldl (Road.nbStep lane (lane.localCoordinates v.pos).1 v.uid) {}).front := by
    intro s hn hv hs he
    rw [entities_split (m := m) he, List.foldl_append, front_skip]
    intro e he ⟨h1, h2⟩
    obtain ⟨y, hy, rfl⟩ := List.mem_map.1 he
    exact hs v hv y hy ⟨lane, by rw [hn]; exact hl, h1.1, h1.2.2.1, h1.2.2.2.1, h1.2.2.2.2, h2⟩
  have e1 := congrArg Prod.fst (Except.ok.inj hf)
  have e2 := congrArg Prod.fst (Except.ok.inj hf')
  dsimp only at e1 e2
  rw [q rfl hv hb h.empty.1] at e1
  rw [q h.network (by rw [h.first]; exact hv) hb' h.empty.2, h.first] at e2
  rw [← e1, ← e2]

/-! ## Decisions -/

theorem twin_ok {α β : Type} {R : α → β → Prop} {a : α} {b : β} (h : Twin R (.ok a) (.ok b)) : R a b := by
  cases h with
  | ok h => exact h

theorem same_decision {m : ℕ} {r r' : Road} (hg : NoForks r.network) (h : SameFirst m r r') (hb : OthersBehind m r) (hb' : OthersBehind m r') {v w w' : Vehicle}
    (hv : v ∈ r.vehicles.take m) {G : Globals} {a : VAction} {rng rng' : Rng} (ha : v.act G r a = .ok (w, rng)) (ha' : v.act G r' a = .ok (w', rng')) : w = w' := by
  by_cases hk : v.kind.isIDM = true
  · have hi := Vehicle.act_idm hk ha
    have hi' := Vehicle.act_idm hk ha'
    unfold Vehicle.idmAct at hi hi'
    by_cases hc : v.crashed = true
    · rw [if_pos hc] at hi hi'
      have e1 := congrArg Prod.fst (Except.ok.inj hi)
      have e2 := congrArg Prod.fst (Except.ok.inj hi')
      exact e1.symm.trans e2
    · rw [if_neg hc] at hi hi'
      obtain ⟨⟨f, b⟩, h1, hi⟩ := bind_ok hi
      obtain ⟨⟨f', b'⟩, h1', hi'⟩ := bind_ok hi'
      have hff := same_front h hb hb' hv h1 h1'
      subst hff
      obtain ⟨⟨u, g1⟩, h2, hi⟩ := bind_ok hi
      obtain ⟨⟨u', g1'⟩, h2', hi'⟩ := bind_ok hi'
      rw [h.network] at h2'
      have huu : u = u' := by
        have := Chance.followRoad hg v r.rng r'.rng
        rw [h2, h2'] at this
        exact twin_ok (R := fun x y : Vehicle × Rng => x.1 = y.1) this
      subst huu
      have hen : u.enableLaneChange = false := by
        obtain ⟨t, ro, e⟩ := Vehicle.followRoad_shape h2
        rw [e]
        exact h.keep v hv hk
      dsimp only at hi hi'
      have hm : ∀ q : Road, u.maybeChangeLane G q = .ok u := by
        intro q
        unfold Vehicle.maybeChangeLane
        rw [if_neg (by simp [hen])]
      rw [hm] at hi hi'
      obtain ⟨_, hx, hi⟩ := bind_ok hi
      cases hx
      obtain ⟨_, hx, hi'⟩ := bind_ok hi'
      cases hx
      obtain ⟨st, h3, hi⟩ := bind_ok hi
      obtain ⟨st', h3', hi'⟩ := bind_ok hi'
      rw [h.network, h3] at h3'
      have : st = st' := Except.ok.inj h3'
      subst this
      obtain ⟨ac, h4, hi⟩ := bind_ok hi
      obtain ⟨ac', h4', hi'⟩ := bind_ok hi'
      rw [h4] at h4'
      have : ac = ac' := Except.ok.inj h4'
      subst this
      exact (congrArg Prod.fst (Except.ok.inj hi)).symm.trans (congrArg Prod.fst (Except.ok.inj hi'))
  · unfold Vehicle.act at ha ha'
    rw [h.network] at ha'
    revert hk ha ha'
    cases v.kind
    case controlled =>
      intro ha ha' _
      have := Chance.controlledAct hg v a r.rng r'.rng
      dsimp only at ha ha'
      rw [ha, ha'] at this
      exact twin_ok (R := fun x y : Vehicle × Rng => x.1 = y.1) this
    case mdp =>
      intro ha ha' _
      have := Chance.mdpAct hg G v a r.rng r'.rng
      dsimp only at ha ha'
      rw [ha, ha'] at this
      exact twin_ok (R := fun x y : Vehicle × Rng => x.1 = y.1) this
    case plain =>
      intro ha ha' _
      cases a <;> first
        | cases ha
          done
        | exact (congrArg Prod.fst (Except.ok.inj ha)).symm.trans (congrArg Prod.fst (Except.ok.inj ha'))
    case bicycle =>
      intro ha ha' _
      cases a <;> first
        | cases ha
          done
        | exact (congrArg Prod.fst (Except.ok.inj ha)).symm.trans (congrArg Prod.fst (Except.ok.inj ha'))
    all_goals
      intro _ _ hk
      exact absurd rfl hk

theorem act_keeps {G : Globals} {r : Road} {v w : Vehicle} {a : VAction} {rng : Rng} (h : v.act G r a = .ok (w, rng)) (hv : NoLaneChange v) : NoLaneChange w := by
  intro hk
  have hk' : v.kind.isIDM = true := by rw [← (Vehicle.act_body h).kind]; exact hk
  have hi := Vehicle.act_idm hk' h
  by_cases hc : v.crashed = true
  · unfold Vehicle.idmAct at hi
    rw [if_pos hc] at hi
    have : v = w := congrArg Prod.fst (Except.ok.inj hi)
    rw [← this]; exact hv hk'
  · obtain ⟨u, t, tm, st, acc, front, rear, h1, -, -, -, rfl⟩ := Vehicle.idmAct_shape (by simpa using hc) hi
    obtain ⟨t1, ro, rfl⟩ := Vehicle.followRoad_shape h1
    exact hv hk'

/-! ## Commands to a vehicle -/

theorem one_sided {m : ℕ} {r r' s : Road} (h : SameFirst m r r') {G : Globals} {a : VAction} {i : ℕ} (hi : m ≤ i) (ha : r.actAt G a i = .ok s) : SameFirst m s r' := by
  obtain ⟨hb, hs⟩ := Road.actAt_frame ha
  have ht : s.vehicles.take m = r.vehicles.take m := by
    unfold Road.actAt at ha
    split at ha
    · cases ha; rfl
    · obtain ⟨⟨w, g⟩, -, ha⟩ := bind_ok ha
      cases ha
      exact List.take_set_of_le hi
  exact ⟨h.network.trans hs.network.symm, h.recordHistory.trans hs.recordHistory.symm, ⟨hs.regulated.trans h.free.1, h.free.2⟩, ⟨hs.objects.trans h.empty.1, h.empty.2⟩,
    ⟨by rw [hb.1]; exact h.enough.1, h.enough.2⟩, by rw [ht]; exact h.first, by rw [ht]; exact h.keep⟩

theorem both_sides {m : ℕ} {r r' s s' : Road} (hg : NoForks r.network) (h : SameFirst m r r') (hb : OthersBehind m r) (hb' : OthersBehind m r') {G : Globals} {a : VAction} {i : ℕ}
    (hi : i < m) (ha : r.actAt G a i = .ok s) (ha' : r'.actAt G a i = .ok s') : SameFirst m s s' := by
  obtain ⟨b1, hs⟩ := Road.actAt_frame ha
  obtain ⟨b2, hs'⟩ := Road.actAt_frame ha'
  have hl : i < r.vehicles.length := lt_of_lt_of_le hi h.enough.1
  have hv : r.vehicles[i]? = some r.vehicles[i] := List.getElem?_eq_getElem hl
  have hv' : r'.vehicles[i]? = some r.vehicles[i] := by
    have := congrArg (fun l => l[i]?) h.first
    simp only [List.getElem?_take, if_pos hi] at this
    rw [this, hv]
  have hmem : r.vehicles[i] ∈ r.vehicles.take m := List.mem_of_getElem? (i := i) (by rw [List.getElem?_take, if_pos hi, hv])
  generalize r.vehicles[i] = v at hv hv' hmem
  unfold Road.actAt at ha ha'
  rw [hv] at ha
  rw [hv'] at ha'
  dsimp only at ha ha'
  obtain ⟨⟨w, g⟩, hw, ha⟩ := bind_ok ha
  obtain ⟨⟨w', g'⟩, hw', ha'⟩ := bind_ok ha'
  have hww := same_decision hg h hb hb' hmem hw hw'
  subst hww
  cases ha
  cases ha'
  refine ⟨h.network, h.recordHistory, h.free, h.empty, ⟨by rw [List.length_set]; exact h.enough.1, by rw [List.length_set]; exact h.enough.2⟩, ?_, ?_⟩
  · dsimp only
    rw [List.take_set, List.take_set, h.first]
  · intro x hx
    rw [List.take_set] at hx
    rcases List.mem_or_eq_of_mem_set hx with hx | rfl
    · exact h.keep x hx
    · exact act_keeps hw (h.keep v hmem)

/-- The situation during the decisions of a frame. -/
structure Situation (m : ℕ) (r r' : Road) : Prop where
  forks : NoForks r.network
  same : SameFirst m r r'
  behind : OthersBehind m r
  behind' : OthersBehind m r'

theorem Situation.symm {m : ℕ} {r r' : Road} (h : Situation m r r') : Situation m r' r :=
  ⟨by rw [h.same.network]; exact h.forks, Causality.SameFirst.symm h.same, h.behind', h.behind⟩

theorem Situation.one {m : ℕ} {r r' s : Road} (h : Situation m r r') {G : Globals} {a : VAction} {i : ℕ} (hi : m ≤ i) (ha : r.actAt G a i = .ok s) : Situation m s r' := by
  obtain ⟨hb, hs⟩ := Road.actAt_frame ha
  exact ⟨by rw [hs.network]; exact h.forks, one_sided h.same hi ha, behind_body hb hs.network h.behind, h.behind'⟩

theorem Situation.both {m : ℕ} {r r' s s' : Road} (h : Situation m r r') {G : Globals} {a : VAction} {i : ℕ} (hi : i < m) (ha : r.actAt G a i = .ok s)
    (ha' : r'.actAt G a i = .ok s') : Situation m s s' := by
  obtain ⟨hb, hs⟩ := Road.actAt_frame ha
  obtain ⟨hb', hs'⟩ := Road.actAt_frame ha'
  exact ⟨by rw [hs.network]; exact h.forks, both_sides h.forks h.same h.behind h.behind' hi ha ha', behind_body hb hs.network h.behind, behind_body hb' hs'.network h.behind'⟩

theorem fold_same {m : ℕ} {G : Globals} : ∀ (cs cs' : List (ℕ × VAction)), (cs.filter fun c => decide (c.1 < m)) = (cs'.filter fun c => decide (c.1 < m)) →
    ∀ {r r' s s' : Road}, Situation m r r' → cs.foldlM (fun r c => r.actAt G c.2 c.1) r = .ok s → cs'.foldlM (fun r c => r.actAt G c.2 c.1) r' = .ok s' → Situation m s s' := by
  have right : ∀ (cs' : List (ℕ × VAction)), (cs'.filter fun c => decide (c.1 < m)) = [] → ∀ {r r' s' : Road}, Situation m r r' →
      cs'.foldlM (fun r c => r.actAt G c.2 c.1) r' = .ok s' → Situation m r s' := by
    intro cs'
    induction cs' with
    | nil => intro _ r r' s' h hs; rw [List.foldlM_nil] at hs; cases hs; exact h
    | cons c cs' ih =>
      intro he r r' s' h hs
      rw [List.foldlM_cons] at hs
      obtain ⟨q, hq, hs⟩ := bind_ok hs
      have hc : m ≤ c.1 := by
        by_contra hlt
        rw [List.filter_cons_of_pos (by simpa using hlt)] at he
        cases he
      rw [List.filter_cons_of_neg (by simpa using hc)] at he
      exact ih he (h.symm.one hc hq).symm hs
  intro cs
  induction cs with
  | nil =>
    intro cs' he r r' s s' h hs hs'
    rw [List.foldlM_nil] at hs; cases hs
    exact right cs' (by rw [← he]; rfl) h hs'
  | cons c cs ih =>
    intro cs' he r r' s s' h hs hs'
    rw [List.foldlM_cons] at hs
    obtain ⟨q, hq, hs⟩ := bind_ok hs
    by_cases hc : c.1 < m
    · rw [List.filter_cons_of_pos (by simpa using hc)] at he
      induction cs' generalizing r' with
      | nil => cases he
      | cons c' cs' ih' =>
        rw [List.foldlM_cons] at hs'
        obtain ⟨q', hq', hs''⟩ := bind_ok hs'
        by_cases hc' : c'.1 < m
        · rw [List.filter_cons_of_pos (by simpa using hc')] at he
          have e1 : c = c' := (List.cons.inj he).1
          subst e1
          exact ih cs' (List.cons.inj he).2 (h.both hc hq hq') hs hs''
        · rw [List.filter_cons_of_neg (by simpa using hc')] at he
          exact ih' he (h.symm.one (not_lt.1 hc') hq').symm hs''
    · rw [List.filter_cons_of_neg (by simpa using hc)] at he
      exact ih cs' he (h.one (not_lt.1 hc) hq) hs hs'

theorem roadAct_same {m : ℕ} {G : Globals} {r r' s s' : Road} (h : Situation m r r') (ha : r.act G = .ok s) (ha' : r'.act G = .ok s') : Situation m s s' := by
  have hrange : ∀ n, m ≤ n → (((List.range n).map fun i => (i, VAction.none)).filter fun c => decide (c.1 < m)) = (List.range m).map fun i => (i, VAction.none) := by
    intro n hn
    obtain ⟨k, rfl⟩ := Nat.exists_eq_add_of_le hn
    rw [List.range_add, List.map_append, List.filter_append]
    rw [List.filter_eq_self.2 (by simp), List.filter_eq_nil_iff.2 (by simp), List.append_nil]
  have conv : ∀ q : Road, q.act G = ((List.range q.vehicles.length).map fun i => (i, VAction.none)).foldlM (fun r c => r.actAt G c.2 c.1) q := by
    intro q
    unfold Road.act
    rw [List.foldlM_map]
  rw [conv] at ha ha'
  exact fold_same _ _ ((hrange _ h.same.enough.1).trans (hrange _ h.same.enough.2).symm) h ha ha'

/-! ## Frames -/

theorem stepped {m : ℕ} {r r' s s' : Road} {dt : ℝ} (h : SameFirst m r r') (hs : r.step dt = .ok s) (hs' : r'.step dt = .ok s')
    (hc : ∀ x ∈ s.vehicles.take m, x.crashed = false) (hc' : ∀ x ∈ s'.vehicles.take m, x.crashed = false) : SameFirst m s s' := by
  unfold Road.step at hs hs'
  rw [if_neg (by rw [h.free.1]; decide)] at hs
  rw [if_neg (by rw [h.free.2]; decide)] at hs'
  obtain ⟨p, n1, n2, n3, -, -, o⟩ := Road.stepBase_frame hs
  obtain ⟨p', n1', n2', n3', -, -, o'⟩ := Road.stepBase_frame hs'
  rw [h.empty.1] at o
  rw [h.empty.2] at o'
  rw [h.network, h.recordHistory] at p'
  have eo : s.objects = [] := by
    generalize s.objects = os at o; cases o; rfl
  have eo' : s'.objects = [] := by
    generalize s'.objects = os at o'; cases o'; rfl
  have key : ∀ k < m, ∃ v w u, r.vehicles[k]? = some v ∧ s.vehicles[k]? = some w ∧ s'.vehicles[k]? = some w ∧ v.step r.network r.recordHistory dt = .ok u ∧ w = u := by
    intro k hk
    have hl : k < r.vehicles.length := lt_of_lt_of_le hk h.enough.1
    have hv : r.vehicles[k]? = some r.vehicles[k] := List.getElem?_eq_getElem hl
    have hv' : r'.vehicles[k]? = some r.vehicles[k] := by
      have := congrArg (fun l => l[k]?) h.first
      simp only [List.getElem?_take, if_pos hk] at this
      rw [this, hv]
    generalize r.vehicles[k] = v at hv hv'
    obtain ⟨w, hw, u, hu, _, _, d, -, -, e⟩ := p.2 k v hv
    obtain ⟨w', hw', u', hu', _, _, d', -, -, e'⟩ := p'.2 k v hv'
    rw [hu] at hu'
    have : u = u' := Except.ok.inj hu'
    subst this
    have q := hc w (List.mem_of_getElem? (i := k) (by rw [List.getElem?_take, if_pos hk, hw]))
    have q' := hc' w' (List.mem_of_getElem? (i := k) (by rw [List.getElem?_take, if_pos hk, hw']))
    have e1 : w = u := by
      rcases e with e | ⟨-, e⟩
      · exact e
      · rw [d] at q; exact absurd (e.symm.trans q) (by decide)
    have e2 : w' = u := by
      rcases e' with e | ⟨-, e⟩
      · exact e
      · rw [d'] at q'; exact absurd (e.symm.trans q') (by decide)
    subst e1
    subst e2
    exact ⟨v, w', w', hv, hw, hw', hu, rfl⟩
  refine ⟨by rw [n1, n1', h.network], by rw [n2, n2', h.recordHistory], ⟨n3.trans h.free.1, n3'.trans h.free.2⟩, ⟨eo, eo'⟩, ⟨by rw [p.1]; exact h.enough.1, by rw [p'.1]; exact h.enough.2⟩, ?_, ?_⟩
  · refine List.ext_getElem? fun k => ?_
    rw [List.getElem?_take, List.getElem?_take]
    by_cases hk : k < m
    · rw [if_pos hk, if_pos hk]
      obtain ⟨v, w, u, -, h1, h2, -⟩ := key k hk
      rw [h1, h2]
    · rw [if_neg hk, if_neg hk]
  · intro x hx
    obtain ⟨k, hk⟩ := List.getElem?_of_mem hx
    rw [List.getElem?_take] at hk
    split at hk
    swap
    · cases hk
    rename_i hkm
    obtain ⟨v, w, u, h0, h1, h2, h3, rfl⟩ := key k hkm
    have : w = x := Option.some.inj (h1.symm.trans hk)
    subst this
    have mind := Vehicle.step_mind h3
    intro hi
    rw [mind.enableLaneChange]
    exact h.keep v (List.mem_of_getElem? (i := k) (by rw [List.getElem?_take, if_pos hkm, h0])) (by rw [← mind.kind]; exact hi)

end Causality

/-- **C117**, one frame.  Two roads on a map without forks have the same first `m` vehicles, whose traffic keeps its lane, and none of the first `m` sees one of the others ahead of it on its lane.  Whatever the
other vehicles are and whatever they are told to do, after the frame the first `m` vehicles are the same on both roads in every respect, unless one of them collided. -/
theorem ahead_frame {m : ℕ} {r r' s s' : Road} (hg : NoForks r.network) (h : SameFirst m r r') (hb : OthersBehind m r) (hb' : OthersBehind m r') (G : Globals) (dt : ℝ)
    (cmds cmds' : List (ℕ × VAction)) (hcmds : (cmds.filter fun c => decide (c.1 < m)) = (cmds'.filter fun c => decide (c.1 < m)))
    (hs : frame G dt r cmds = .ok s) (hs' : frame G dt r' cmds' = .ok s')
    (hc : ∀ x ∈ s.vehicles.take m, x.crashed = false) (hc' : ∀ x ∈ s'.vehicles.take m, x.crashed = false) :
    SameFirst m s s' ∧ s.network = r.network := by
  have hnet : s.network = r.network := run_network (Road.frame_run hs)
  unfold frame at hs hs'
  obtain ⟨a, ha, hs⟩ := bind_ok hs
  obtain ⟨a', ha', hs'⟩ := bind_ok hs'
  obtain ⟨b, hb1, hs⟩ := bind_ok hs
  obtain ⟨b', hb1', hs'⟩ := bind_ok hs'
  have S := Causality.roadAct_same (Causality.fold_same cmds cmds' hcmds ⟨hg, h, hb, hb'⟩ ha ha') hb1 hb1'
  exact ⟨Causality.stepped S.same hs hs' hc hc', hnet⟩

/-- **C117.**  Two simulations, of any length, on a map without forks start with the same first `m` vehicles, whose traffic keeps its lane, and give these vehicles the same commands; everything else (the number and the
kinds of the other vehicles, where and how fast they are, the commands they receive, the random numbers) may differ.  As long as none of the first `m` vehicles sees one of the others ahead of it on its lane or
collides, the first `m` vehicles are the same in both simulations in every respect: what happens behind has no influence on what happens ahead. -/
theorem only_ahead (m : ℕ) (G : Globals) (dt : ℝ) (s s' : ℕ → Road) (cmds cmds' : ℕ → List (ℕ × VAction)) (n : ℕ)
    (hrun : ∀ t < n, frame G dt (s t) (cmds t) = .ok (s (t + 1))) (hrun' : ∀ t < n, frame G dt (s' t) (cmds' t) = .ok (s' (t + 1)))
    (hg : NoForks (s 0).network) (h0 : SameFirst m (s 0) (s' 0))
    (hcmds : ∀ t < n, ((cmds t).filter fun c => decide (c.1 < m)) = ((cmds' t).filter fun c => decide (c.1 < m)))
    (hb : ∀ t < n, OthersBehind m (s t)) (hb' : ∀ t < n, OthersBehind m (s' t))
    (hc : ∀ t ≤ n, ∀ x ∈ (s t).vehicles.take m, x.crashed = false) (hc' : ∀ t ≤ n, ∀ x ∈ (s' t).vehicles.take m, x.crashed = false) :
    ∀ t ≤ n, (s' t).vehicles.take m = (s t).vehicles.take m := by
  have H : ∀ t ≤ n, SameFirst m (s t) (s' t) ∧ (s t).network = (s 0).network := by
    intro t
    induction t with
    | zero => intro _; exact ⟨h0, rfl⟩
    | succ t ih =>
      intro ht
      obtain ⟨h1, h2⟩ := ih (by omega)
      obtain ⟨h3, h4⟩ := ahead_frame (by rw [h2]; exact hg) h1 (hb t (by omega)) (hb' t (by omega)) G dt _ _ (hcmds t (by omega)) (hrun t (by omega)) (hrun' t (by omega)) (hc _ ht) (hc' _ ht)
      exact ⟨h3, h4.trans h2⟩
  exact fun t ht => (H t ht).1.first

/-- Every decision of a traffic vehicle that keeps its lane is determined by what it sees ahead. -/
theorem decides_from_ahead {m : ℕ} {r r' : Road} (hg : NoForks r.network) (h : SameFirst m r r') (hb : OthersBehind m r) (hb' : OthersBehind m r') (v w w' : Vehicle)
    (hv : v ∈ r.vehicles.take m) (G : Globals) (a : VAction) (rng rng' : Rng) (ha : v.act G r a = .ok (w, rng)) (ha' : v.act G r' a = .ok (w', rng')) : w' = w :=
  (Causality.same_decision hg h hb hb' hv ha ha').symm

/-- A queue of traffic vehicles on a single lane, any number of them: the motion of the first `m` is the same with any other vehicles behind them, and with none.  (Vehicles that start at safe distances from each other
do not collide, `no_rear_end`, so no hypothesis about collisions is left.) -/
theorem queue_only_ahead (m : ℕ) (G : Globals) (dt : ℝ) (hG : G.comfortAccMax .idm = 3 ∧ G.comfortAccMin .idm = -5 ∧ G.distanceWanted .idm = 10)
    (h0 : 0 < dt) (h1 : dt ≤ 1 / 10) (i : LaneIndex) (l : Lane) (s s' : ℕ → Road) (n : ℕ)
    (hrun : ∀ t < n, frame G dt (s t) [] = .ok (s (t + 1))) (hrun' : ∀ t < n, frame G dt (s' t) [] = .ok (s' (t + 1)))
    (hroad : SingleLane (s 0) i l) (hids : ((s 0).vehicles.map Vehicle.uid).Nodup) (hgaps : SafeGaps dt l (s 0).vehicles)
    (hdrive : ∀ v ∈ (s 0).vehicles, DrivesOn dt i l v) (hsound : ∀ v ∈ (s 0).vehicles, v.crashed = false)
    (hvis : ∀ t ≤ n, ∀ (k : ℕ) (v : Vehicle), k + 1 < (s t).vehicles.length → (s t).vehicles[k]? = some v → Visible l v)
    (hroad' : SingleLane (s' 0) i l) (hids' : ((s' 0).vehicles.map Vehicle.uid).Nodup) (hgaps' : SafeGaps dt l (s' 0).vehicles)
    (hdrive' : ∀ v ∈ (s' 0).vehicles, DrivesOn dt i l v) (hsound' : ∀ v ∈ (s' 0).vehicles, v.crashed = false)
    (hvis' : ∀ t ≤ n, ∀ (k : ℕ) (v : Vehicle), k + 1 < (s' t).vehicles.length → (s' t).vehicles[k]? = some v → Visible l v)
    (hhist : (s' 0).recordHistory = (s 0).recordHistory) (hm : m ≤ (s 0).vehicles.length ∧ m ≤ (s' 0).vehicles.length)
    (hfirst : (s' 0).vehicles.take m = (s 0).vehicles.take m) (hkeep : ∀ v ∈ (s 0).vehicles.take m, v.enableLaneChange = false) :
    ∀ t ≤ n, (s' t).vehicles.take m = (s t).vehicles.take m := by
  have hq := Platoon.queues hG h0 h1 hrun hroad hids hgaps hdrive hsound hvis
  have hq' := Platoon.queues hG h0 h1 hrun' hroad' hids' hgaps' hdrive' hsound' hvis'
  have behind : ∀ r : Road, Platoon.Queue dt i l r → OthersBehind m r := by
    rintro r q x hx y hy ⟨lane, e1, -, -, -, -, e2⟩
    obtain ⟨j, hj⟩ := List.getElem?_of_mem hx
    obtain ⟨k, hk⟩ := List.getElem?_of_mem hy
    rw [List.getElem?_take] at hj
    split at hj
    swap
    · cases hj
    rw [List.getElem?_drop] at hk
    have : l = lane := by
      rw [q.road.network, (q.on x (List.mem_of_getElem? hj)).laneIndex, Platoon.net_get q.road.id] at e1
      exact Except.ok.inj e1
    subst this
    have := Platoon.spread' q.gaps5 (by omega) hj hk
    unfold station at this
    linarith
  refine only_ahead m G dt s s' (fun _ => []) (fun _ => []) n hrun hrun' ?_ ⟨?_, hhist, ⟨hroad.regulated, hroad'.regulated⟩, ⟨hroad.objects, hroad'.objects⟩, hm, hfirst, fun v hv _ => hkeep v hv⟩
    (fun _ _ => rfl) (fun t ht => behind _ (hq t ht.le).1) (fun t ht => behind _ (hq' t ht.le).1) (fun t ht x hx => (hq t ht).1.sound x (List.mem_of_mem_take hx))
    (fun t ht x hx => (hq' t ht).1.sound x (List.mem_of_mem_take hx))
  · rw [hroad.network]
    intro node roads h
    unfold Dict.get? at h
    by_cases e : i.src = node
    · simp [e] at h; rw [← h]; simp
    · simp [e, Dict.get?] at h
  · rw [hroad.network, hroad'.network]

/-- A vehicle that is followed at a safe distance drives exactly as if it were alone on the road. -/
theorem leader_as_if_alone (G : Globals) (dt : ℝ) (hG : G.comfortAccMax .idm = 3 ∧ G.comfortAccMin .idm = -5 ∧ G.distanceWanted .idm = 10)
    (h0 : 0 < dt) (h1 : dt ≤ 1 / 10) (i : LaneIndex) (l : Lane) (s s' : ℕ → Road) (n : ℕ) (w v : Vehicle)
    (hrun : ∀ t < n, frame G dt (s t) [] = .ok (s (t + 1))) (hrun' : ∀ t < n, frame G dt (s' t) [] = .ok (s' (t + 1)))
    (hroad : SingleLane (s 0) i l) (hroad' : SingleLane (s' 0) i l) (hcars : (s 0).vehicles = [w, v]) (halone : (s' 0).vehicles = [w])
    (hhist : (s' 0).recordHistory = (s 0).recordHistory)
    (hids : w.uid ≠ v.uid) (hw : DrivesOn dt i l w) (hv : DrivesOn dt i l v) (hkeep : w.enableLaneChange = false) (hcw : w.crashed = false) (hcv : v.crashed = false)
    (hgap : safeDistance dt v.speed w.speed < station l w - station l v) (hsp : 0 ≤ w.speed)
    (hx : -5 ≤ station l w) (hlong : station l w + 30 * dt * n < l.length + 5) :
    ∀ t ≤ n, ∃ v', (s t).vehicles = (s' t).vehicles ++ [v'] := by
  have hq := Platoon.pair_queues hG h0 h1 hrun hroad hcars hids hw hv hcw hcv hgap hsp hx hlong
  have len' : ∀ t ≤ n, (s' t).vehicles.length = 1 := by
    intro t
    induction t with
    | zero => intro _; rw [halone]; rfl
    | succ t ih =>
      intro ht
      have h := Road.frame_run (hrun' t (by omega))
      have := congrArg List.length (Road.uids_run h)
      unfold Road.uids at this
      rw [List.length_map, List.length_map, ih (by omega)] at this
      exact this
  have T := queue_only_ahead 1 G dt hG h0 h1 i l s s' n hrun hrun' hroad ?_ ?_ ?_ ?_ ?_ hroad' ?_ ?_ ?_ ?_ ?_ hhist ?_ ?_ ?_
  · intro t ht
    obtain ⟨-, a, b, hab, -⟩ := hq t ht
    have := T t ht
    rw [hab, List.take_of_length_le (len' t ht).le] at this
    exact ⟨b, by rw [this, hab]; rfl⟩
  · rw [hcars]; simpa using hids
  · exact (hq 0 (by omega)).1.gaps
  · rw [hcars]; simp [hw, hv]
  · rw [hcars]; simp [hcw, hcv]
  · intro t ht k x hk hxk
    obtain ⟨-, a, b, hab, hd, e1, e2, e3⟩ := hq t ht
    rw [hab] at hk hxk
    obtain rfl : k = 0 := by simpa using hk
    simp at hxk; subst hxk
    refine ⟨hsp.trans e1, hx.trans e2, lt_of_le_of_lt e3 (lt_of_le_of_lt ?_ hlong)⟩
    have : (t : ℝ) ≤ n := by exact_mod_cast ht
    nlinarith
  · rw [halone]; simp
  · rw [halone]; intro k a b _ hb; simp at hb
  · rw [halone]; simpa using hw
  · rw [halone]; simpa using hcw
  · intro t ht k x hk
    rw [len' t ht] at hk; omega
  · rw [hcars, halone]; simp
  · rw [hcars, halone]; rfl
  · rw [hcars]; simpa using hkeep

namespace Causality

/-- The first car of the example of C95, which keeps its lane. -/
def lead : Vehicle := { Platoon.car 0 160 10 12 with enableLaneChange := false }

def pair : Road := { Platoon.road with vehicles := [lead, Platoon.car 1 100 25 30] }
def alone : Road := { Platoon.road with vehicles := [lead] }

end Causality

/-- The first car of the example drives for five minutes as if nobody followed it: all hypotheses of `leader_as_if_alone`, `queue_only_ahead` and `only_ahead` hold. -/
example (n : ℕ) (hn : n ≤ 4500) : ∃ s s' : ℕ → Road, s 0 = Causality.pair ∧ s' 0 = Causality.alone ∧ (∀ t, frame {} (1 / 15) (s t) [] = .ok (s (t + 1))) ∧
    (∀ t, frame {} (1 / 15) (s' t) [] = .ok (s' (t + 1))) ∧ ∃ v', (s n).vehicles = (s' n).vehicles ++ [v'] := by
  have hv : ∀ v : Vehicle, (v = Causality.lead ∨ v = Platoon.car 1 100 25 30) → Attached Platoon.road.network v := by
    rintro v (rfl | rfl) <;>
      exact ⟨⟨0, _, rfl, Platoon.net_has _ _ _⟩, Graph.getLane_of_hasLane (k := 0) (Platoon.net_py _ _ _) rfl (Platoon.net_has _ _ _), ⟨0, _, rfl, Platoon.net_has _ _ _⟩⟩
  have hst : ∀ u x v T, station Platoon.longLane (Platoon.car u x v T) = x := by
    intro u x v T; simp [station, Platoon.car, Platoon.longLane_local]
  have hst' : station Platoon.longLane Causality.lead = 160 := by simp [station, Causality.lead, Platoon.car, Platoon.longLane_local]
  have healthy : Healthy Causality.pair ∧ Healthy Causality.alone := by
    constructor
    · refine ⟨Platoon.net_wf _ _ _, ?_, ?_, ?_⟩
      all_goals first | (intro v hm; simp only [Causality.pair, List.mem_cons, List.not_mem_nil, or_false] at hm; refine ⟨hv v hm, ?_⟩; rcases hm with rfl | rfl <;> simp [RouteExists, Causality.lead, Platoon.car]) | simp [Causality.pair, Platoon.road, Causality.lead, Platoon.car, VKind.isLinear, VKind.isControlled]
    · refine ⟨Platoon.net_wf _ _ _, ?_, ?_, ?_⟩
      all_goals first | (intro v hm; simp only [Causality.alone, List.mem_cons, List.not_mem_nil, or_false] at hm; refine ⟨hv v (.inl hm), ?_⟩; subst hm; simp [RouteExists, Causality.lead, Platoon.car]) | simp [Causality.alone, Platoon.road, Causality.lead, Platoon.car, VKind.isLinear, VKind.isControlled]
  obtain ⟨s, h0, hs⟩ := runs_for_ever {} (1 / 15) Causality.pair healthy.1 rfl
  obtain ⟨s', h0', hs'⟩ := runs_for_ever {} (1 / 15) Causality.alone healthy.2 rfl
  refine ⟨s, s', h0, h0', hs, hs', ?_⟩
  have single : ∀ vs, SingleLane { Platoon.road with vehicles := vs } ⟨"0", "1", 0⟩ Platoon.longLane := fun vs =>
    ⟨Platoon.road_single.network, rfl, Platoon.road_single.oneWay, Platoon.road_single.straight, Platoon.road_single.width, rfl, rfl⟩
  have hd := Platoon.car_drives 0 160 10 12 (by norm_num) (by norm_num) (by norm_num)
  refine leader_as_if_alone {} (1 / 15) ⟨rfl, rfl, rfl⟩ (by norm_num) (by norm_num) ⟨"0", "1", 0⟩ Platoon.longLane s s' n Causality.lead (Platoon.car 1 100 25 30)
    (fun t _ => hs t) (fun t _ => hs' t) (by rw [h0]; exact single _) (by rw [h0']; exact single _) (by rw [h0]; rfl) (by rw [h0']; rfl) (by rw [h0, h0']; rfl)
    (by simp [Causality.lead, Platoon.car]) ⟨⟨hd.lateral, hd.heading, hd.laneIndex, hd.lane⟩, hd.kind, hd.targetLane, hd.notSpeeding, hd.limit, hd.positive, hd.notTiny⟩
    (Platoon.car_drives _ _ _ _ (by norm_num) (by norm_num) (by norm_num)) rfl rfl rfl
    (by rw [hst, hst']; norm_num [safeDistance, Platoon.car, Causality.lead]) (by norm_num [Platoon.car, Causality.lead]) (by rw [hst']; norm_num)
    (by
      rw [hst', Platoon.longLane_length]
      have : (n : ℝ) ≤ 4500 := by exact_mod_cast hn
      linarith) n le_rfl

end HighwayEnv.Props
