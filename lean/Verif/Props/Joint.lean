import Verif.Spec.Joint
import Verif.Props.Chance
import Verif.Props.Causality
import Verif.Props.Highway

/-!
# C118: the actions of several agents are simultaneous
-/

noncomputable section
open Classical
namespace HighwayEnv.Props
open HighwayEnv Spec

namespace Joint

theorem nextFromRoute_truthy {v : Vehicle} (h : RouteContinues v) : Graph.strTruthy (Graph.nextFromRoute v.targetLane v.route).2 = true := by
  obtain ⟨first, next, rest, h1, h2, ⟨h3, h4, h5⟩ | ⟨h3, h4⟩⟩ := h
  · rw [h3]
    simp only [Graph.nextFromRoute, h4, h5, and_self, if_true, h1]
    simp [Graph.strTruthy, h2]
  · rw [h3]
    have h4' : ¬ (v.targetLane.dst = v.targetLane.src ∧ next.dst = v.targetLane.dst) := by rwa [h1] at h4
    simp only [Graph.nextFromRoute, h1, if_neg h4', if_true]
    simp [Graph.strTruthy, h2]

theorem followRoad {g : Graph} {v : Vehicle}
    (h : (∀ l, g.getLane v.targetLane = .ok l → l.afterEnd v.pos = false) ∨
       (∀ roads, Dict.get? g v.targetLane.dst = some roads → roads.length ≤ 1) ∨ RouteContinues v) (a b : Rng) :
    Twin (fun x y => x.1 = y.1) (v.followRoad g a) (v.followRoad g b) := by
  unfold Vehicle.followRoad
  cases hl : g.getLane v.targetLane with
  | error e => exact .error e
  | ok l =>
    simp only [bind, Except.bind]
    by_cases ha : l.afterEnd v.pos = true
    · rw [if_pos ha, if_pos ha]
      refine Chance.Twin.bind (R := fun x y => x.1 = y.1 ∧ x.2.1 = y.2.1) ?_ ?_
      · unfold Graph.nextLane
        cases hq : Graph.nextFromRoute v.targetLane v.route with
        | mk ro nt =>
        dsimp only
        by_cases ht : Graph.strTruthy nt = true
        · rw [if_pos ht, if_pos ht]
          exact Chance.Twin.bind (Chance.Twin.same _) fun _ _ h => .ok ⟨h, rfl⟩
        · rw [if_neg ht, if_neg ht]
          have h' : ∀ roads, Dict.get? g v.targetLane.dst = some roads → roads.length ≤ 1 := by
            rcases h with h | h | h
            · rw [h l hl] at ha; cases ha
            · exact h
            · have := nextFromRoute_truthy h
              rw [hq] at this
              exact absurd this ht
          cases hd : Dict.get? g v.targetLane.dst with
          | none => exact .ok ⟨rfl, rfl⟩
          | some d =>
            dsimp only
            refine Chance.Twin.bind (R := fun x y => x.1 = y.1) ?_ ?_
            · have h1 := h' _ hd
              unfold Rng.randint
              by_cases h0 : d.length = 0
              · rw [if_pos h0, if_pos h0]; exact .error _
              · rw [if_neg h0, if_neg h0]
                refine .ok ?_
                have : d.length = 1 := by omega
                rw [this]
                dsimp only
                rw [Nat.mod_one, Nat.mod_one]
            · rintro ⟨k, a'⟩ ⟨k', b'⟩ h
              dsimp only at h
              subst h
              exact Chance.Twin.bind (Chance.Twin.same _) fun _ _ h => .ok ⟨h, rfl⟩
      · rintro ⟨i, ro, a'⟩ ⟨i', ro', b'⟩ ⟨h1, h2⟩
        dsimp only at h1 h2
        subst h1 h2
        exact .ok rfl
    · rw [if_neg ha, if_neg ha]; exact .ok rfl

theorem controlledAct {g : Graph} {v : Vehicle}
    (h : (∀ l, g.getLane v.targetLane = .ok l → l.afterEnd v.pos = false) ∨
       (∀ roads, Dict.get? g v.targetLane.dst = some roads → roads.length ≤ 1) ∨ RouteContinues v) (c : VAction) (a b : Rng) :
    Twin (fun x y => x.1 = y.1) (v.controlledAct g a c) (v.controlledAct g b c) := by
  unfold Vehicle.controlledAct
  refine Chance.Twin.bind (followRoad h a b) ?_
  rintro ⟨v1, a'⟩ ⟨v2, b'⟩ h
  dsimp only at h
  subst h
  refine Chance.Twin.bind (Chance.Twin.same _) ?_
  rintro w _ rfl
  refine Chance.Twin.bind (Chance.Twin.same _) ?_
  rintro st _ rfl
  exact .ok rfl

/-- Executing a command on two roads with the same map. -/
theorem act {r s : Road} (hs : s.network = r.network) {v : Vehicle} (h : KnowsWay r.network v) (G : Globals) (c : VAction) :
    Twin (fun x y => x.1 = y.1) (v.act G r c) (v.act G s c) := by
  unfold Vehicle.act
  rw [hs]
  rcases h with h | h | ⟨h | h, hw⟩
  · rw [h]; cases c <;> first | exact .ok rfl | exact .error _
  · rw [h]; cases c <;> first | exact .ok rfl | exact .error _
  · rw [h]; exact controlledAct hw c _ _
  · rw [h]
    dsimp only
    unfold Vehicle.mdpAct
    cases c <;> first | exact controlledAct hw _ _ _ | exact controlledAct (v := v.setSpeedIndex G _) hw .none _ _

/-- One agent acts alone on two roads with the same map and identities that agree on this agent. -/
theorem agentAct {G : Globals} {t : AgentType} {r s : Road} (hd : r.uids.Nodup) (hu : s.uids = r.uids) (hs : s.network = r.network) {x : AgentAction} {uid : ℕ}
    (hk : ∀ (i : ℕ) (v : Vehicle), r.vehicles[i]? = some v → v.uid = uid → KnowsWay r.network v ∧ s.vehicles[i]? = some v) {r1 : Road} (h : r.agentAct G t uid x = .ok r1) :
    ∃ s1, s.agentAct G t uid x = .ok s1 := by
  unfold Road.agentAct at h ⊢
  obtain ⟨c, hc, h⟩ := bind_ok h
  rw [hc]
  simp only [bind, Except.bind]
  rw [Road.indexOf_uids] at h ⊢
  rw [hu]
  cases hi : r.uids.findIdx? (fun u => decide (u = uid)) with
  | none => exact ⟨s, rfl⟩
  | some i =>
    rw [hi] at h
    dsimp only at h ⊢
    have hlt := (List.findIdx?_eq_some_iff_getElem.1 hi).1
    have hui := (List.findIdx?_eq_some_iff_getElem.1 hi).2.1
    have hlt' : i < r.vehicles.length := by simpa [Road.uids] using hlt
    have hv := List.getElem?_eq_getElem hlt'
    generalize r.vehicles[i] = v at hv
    have hvu : v.uid = uid := by
      have : r.uids[i]? = some v.uid := by simp [Road.uids, hv]
      rw [List.getElem?_eq_getElem hlt] at this
      simp only [decide_eq_true_eq] at hui
      rw [← hui]
      exact (Option.some.inj this).symm
    obtain ⟨hw, hv'⟩ := hk i v hv hvu
    unfold Road.actAt at h ⊢
    rw [hv] at h
    rw [hv']
    dsimp only at h ⊢
    obtain ⟨⟨w, rng⟩, hw1, _⟩ := bind_ok h
    have := act hs hw G c
    rw [hw1] at this
    cases h2 : v.act G s c with
    | error e => rw [h2] at this; cases this
    | ok y => exact ⟨_, rfl⟩

theorem agentAct_rest {G : Globals} {t : AgentType} {r r' : Road} {uid : ℕ} {x : AgentAction} (h : r.agentAct G t uid x = .ok r') :
    r' = { r with vehicles := r'.vehicles, rng := r'.rng } := by
  unfold Road.agentAct at h
  obtain ⟨c, hc, h⟩ := bind_ok h
  cases hi : r.indexOf uid with
  | none => rw [hi] at h; cases h; rfl
  | some i =>
    rw [hi] at h
    dsimp only at h
    unfold Road.actAt at h
    cases hv : r.vehicles[i]? with
    | none => rw [hv] at h; cases h; rfl
    | some v =>
      rw [hv] at h
      dsimp only at h
      obtain ⟨⟨w, rng⟩, _, h⟩ := bind_ok h
      cases h; rfl

theorem fold {G : Globals} {t : AgentType} (l : List (AgentAction × ℕ)) : ∀ (r : Road), r.uids.Nodup → (l.map Prod.snd).Nodup →
    (∀ v ∈ r.vehicles, v.uid ∈ l.map Prod.snd → KnowsWay r.network v) →
    ((∀ p ∈ l, ∃ r1, r.agentAct G t p.2 p.1 = .ok r1) → ∃ r', l.foldlM (fun r au => r.agentAct G t au.2 au.1) r = .ok r') ∧
    (∀ r', l.foldlM (fun r au => r.agentAct G t au.2 au.1) r = .ok r' →
      r'.uids = r.uids ∧ r' = { r with vehicles := r'.vehicles, rng := r'.rng } ∧ (∀ p ∈ l, ∃ r1, r.agentAct G t p.2 p.1 = .ok r1) ∧
      ∀ (i : ℕ) (v : Vehicle), r.vehicles[i]? = some v → (v.uid ∉ l.map Prod.snd → r'.vehicles[i]? = some v) ∧
        ∀ x, (x, v.uid) ∈ l → ∃ c w rng, t.command x = .ok c ∧ v.act G r c = .ok (w, rng) ∧ r'.vehicles[i]? = some w) := by
  induction l with
  | nil =>
    intro r _ _ _
    refine ⟨fun _ => ⟨r, rfl⟩, fun r' h => ?_⟩
    rw [List.foldlM_nil] at h; cases h
    exact ⟨rfl, rfl, by simp, fun i v hv => ⟨fun _ => hv, by simp⟩⟩
  | cons au l ih =>
    intro r hd hl hk
    rw [List.map_cons, List.nodup_cons] at hl
    -- what the first agent leaves to the others
    have key : ∀ r1, r.agentAct G t au.2 au.1 = .ok r1 → r1.network = r.network ∧ r1.uids = r.uids ∧
        (∀ v ∈ r1.vehicles, v.uid ∈ l.map Prod.snd → KnowsWay r1.network v) ∧
        (∀ (i : ℕ) (v : Vehicle), r.vehicles[i]? = some v → v.uid ≠ au.2 → r1.vehicles[i]? = some v) ∧
        (∀ (i : ℕ) (v : Vehicle), r1.vehicles[i]? = some v → v.uid ≠ au.2 → r.vehicles[i]? = some v) := by
      intro r1 h1
      obtain ⟨n1, n2, n3⟩ := agentAct_eff hd h1
      have back : ∀ (i : ℕ) (v : Vehicle), r1.vehicles[i]? = some v → v.uid ≠ au.2 → r.vehicles[i]? = some v := by
        intro i v hv hne
        have hlen : r1.vehicles.length = r.vehicles.length := by
          have := congrArg List.length n2
          simpa [Road.uids] using this
        have hi := (List.getElem?_eq_some_iff.1 hv).1
        rw [hlen] at hi
        have hu := List.getElem?_eq_getElem hi
        generalize r.vehicles[i] = u at hu
        have huu : u.uid = v.uid := by
          have e1 : r1.uids[i]? = some v.uid := by simp [Road.uids, hv]
          have e2 : r.uids[i]? = some u.uid := by simp [Road.uids, hu]
          rw [n2, e2] at e1
          exact Option.some.inj e1
        have := (n3 i u hu).1 (by rw [huu]; exact hne)
        rw [hv] at this
        rw [hu, Option.some.inj this]
      refine ⟨n1, n2, ?_, fun i v hv hne => (n3 i v hv).1 hne, back⟩
      intro v hv hm
      obtain ⟨i, hi⟩ := List.mem_iff_getElem?.1 hv
      have hne : v.uid ≠ au.2 := by
        intro he; rw [he] at hm; exact hl.1 hm
      rw [n1]
      exact hk v (List.mem_of_getElem? (back i v hi hne)) (by rw [List.map_cons]; exact List.mem_cons_of_mem _ hm)
    have others : ∀ r1, r.agentAct G t au.2 au.1 = .ok r1 → ∀ p ∈ l, ((∃ s, r.agentAct G t p.2 p.1 = .ok s) ↔ ∃ s, r1.agentAct G t p.2 p.1 = .ok s) := by
      intro r1 h1 p hp
      obtain ⟨k1, k2, k3, k4, k5⟩ := key r1 h1
      have hpm : p.2 ∈ l.map Prod.snd := List.mem_map.2 ⟨p, hp, rfl⟩
      have hne : p.2 ≠ au.2 := by
        intro he; rw [he] at hpm; exact hl.1 hpm
      constructor
      · rintro ⟨s, hs⟩
        exact agentAct hd k2 k1 (fun i v hv hu => ⟨hk v (List.mem_of_getElem? hv) (by rw [hu, List.map_cons]; exact List.mem_cons_of_mem _ hpm),
          k4 i v hv (by rw [hu]; exact hne)⟩) hs
      · rintro ⟨s, hs⟩
        exact agentAct (by rw [k2]; exact hd) k2.symm k1.symm (fun i v hv hu => ⟨k3 v (List.mem_of_getElem? hv) (by rw [hu]; exact hpm),
          k5 i v hv (by rw [hu]; exact hne)⟩) hs
    constructor
    · intro hall
      obtain ⟨r1, h1⟩ := hall au (List.mem_cons_self ..)
      obtain ⟨k1, k2, k3, k4, k5⟩ := key r1 h1
      obtain ⟨r', h'⟩ := (ih r1 (by rw [k2]; exact hd) hl.2 k3).1 fun p hp => (others r1 h1 p hp).1 (hall p (List.mem_cons_of_mem _ hp))
      exact ⟨r', by rw [List.foldlM_cons, h1]; exact h'⟩
    · intro r' h
      rw [List.foldlM_cons] at h
      obtain ⟨r1, h1, h⟩ := bind_ok h
      obtain ⟨k1, k2, k3, k4, k5⟩ := key r1 h1
      obtain ⟨n1, n2, n3⟩ := agentAct_eff hd h1
      obtain ⟨i1, i2, i3, i4⟩ := (ih r1 (by rw [k2]; exact hd) hl.2 k3).2 r' h
      refine ⟨i1.trans k2, ?_, ?_, ?_⟩
      · rw [i2, agentAct_rest h1]
      · intro p hp
        rcases List.mem_cons.1 hp with rfl | hp
        · exact ⟨r1, h1⟩
        · exact (others r1 h1 p hp).2 (i3 p hp)
      · intro i v hv
        constructor
        · intro hm
          rw [List.map_cons, List.mem_cons, not_or] at hm
          exact (i4 i v (k4 i v hv hm.1)).1 hm.2
        · intro x hx
          rcases List.mem_cons.1 hx with hx | hx
          · obtain ⟨c, w, rng, hc, hw, hr1⟩ := (n3 i v hv).2 (by rw [← hx])
            have hwu : w.uid = v.uid := (Vehicle.act_body hw).uid
            have hvu : v.uid = au.2 := by rw [← hx]
            refine ⟨c, w, rng, by rw [← hx] at hc; exact hc, hw, (i4 i w hr1).1 ?_⟩
            rw [hwu, hvu]; exact hl.1
          · have hm : v.uid ∈ l.map Prod.snd := List.mem_map.2 ⟨_, hx, rfl⟩
            have hne : v.uid ≠ au.2 := by
              intro he; rw [he] at hm; exact hl.1 hm
            obtain ⟨c, w, rng, hc, hw, hr⟩ := (i4 i v (k4 i v hv hne)).2 x hx
            have := act k1 (hk v (List.mem_of_getElem? hv) (by rw [List.map_cons]; exact List.mem_cons_of_mem _ hm)) G c
            rw [hw] at this
            cases h2 : v.act G r c with
            | error e => rw [h2] at this; cases this
            | ok y =>
              rw [h2] at this
              have := Causality.twin_ok this
              dsimp only at this
              exact ⟨c, w, y.2, hc, by rw [h2, ← this], hr⟩

theorem zip_snd (as : List AgentAction) (ctl : List ℕ) : (as.zip ctl).map Prod.snd = ctl.take as.length := by
  induction as generalizing ctl with
  | nil => simp
  | cons a as ih =>
    cases ctl with
    | nil => simp
    | cons u ctl => simp [ih ctl]

end Joint

/-- **C118.**  The actions of several agents are simultaneous: if no agent has to draw its road at random, each agent ends up exactly as if it had acted alone on the scene at the
beginning, and everything that is not an agent's vehicle is untouched. -/
theorem joint_simultaneous (G : Globals) (t : AgentType) (ctl : List ℕ) (r r' : Road) (as : List AgentAction) (hd : (r.vehicles.map (·.uid)).Nodup) (hctl : ctl.Nodup)
    (hk : ∀ v ∈ r.vehicles, v.uid ∈ ctl → KnowsWay r.network v) (h : r.envAct G (.multi t) ctl (.tuple as) = .ok r') :
    (∃ vs rng, r' = { r with vehicles := vs, rng := rng } ∧ vs.length = r.vehicles.length) ∧
    (∀ (i : ℕ) (v : Vehicle), r.vehicles[i]? = some v → v.uid ∉ ctl → r'.vehicles[i]? = some v) ∧
    ∀ (j uid : ℕ) (x : AgentAction), ctl[j]? = some uid → as[j]? = some x →
      ∃ r1, r.envAct G (.single t) [uid] x = .ok r1 ∧ ∀ (i : ℕ) (v : Vehicle), r.vehicles[i]? = some v → v.uid = uid → r'.vehicles[i]? = r1.vehicles[i]? := by
  have hsub : ∀ u ∈ (as.zip ctl).map Prod.snd, u ∈ ctl := by
    intro u hu
    rw [Joint.zip_snd] at hu
    exact List.mem_of_mem_take hu
  obtain ⟨h1, h2, h3, h4⟩ := (Joint.fold (G := G) (t := t) (as.zip ctl) r hd (by rw [Joint.zip_snd]; exact hctl.sublist (List.take_sublist _ _))
    (fun v hv hm => hk v hv (hsub _ hm))).2 r' h
  refine ⟨⟨r'.vehicles, r'.rng, h2, ?_⟩, fun i v hv hm => (h4 i v hv).1 fun hc => hm (hsub _ hc), ?_⟩
  · have := congrArg List.length h1
    simpa [Road.uids] using this
  · intro j uid x hj hx
    have hm : (x, uid) ∈ as.zip ctl := List.mem_of_getElem? (i := j) (List.getElem?_zip_eq_some.2 ⟨hx, hj⟩)
    obtain ⟨r1, hr1⟩ := h3 _ hm
    refine ⟨r1, hr1, ?_⟩
    rintro i v hv rfl
    obtain ⟨c, w, rng, hc, hw, hr⟩ := (h4 i v hv).2 x hm
    obtain ⟨c', w', rng', hc', hw', hr'⟩ := ((agentAct_eff hd hr1).2.2 i v hv).2 rfl
    dsimp only at hc'
    rw [hc] at hc'; cases hc'
    rw [hw] at hw'; cases hw'
    rw [hr, hr']

/-- **C118, order.**  The order of the agents does not matter: giving the same actions to the same agents in another order succeeds whenever the first order does, and
yields the same scene up to the state of the random generator. -/
theorem joint_order (G : Globals) (t : AgentType) (ctl ctl' : List ℕ) (r r' : Road) (as as' : List AgentAction) (hd : (r.vehicles.map (·.uid)).Nodup) (hctl : ctl.Nodup)
    (hk : ∀ v ∈ r.vehicles, v.uid ∈ ctl → KnowsWay r.network v) (hp : (as.zip ctl).Perm (as'.zip ctl')) (h : r.envAct G (.multi t) ctl (.tuple as) = .ok r') :
    ∃ rng, r.envAct G (.multi t) ctl' (.tuple as') = .ok { r' with rng := rng } := by
  have hn : ((as.zip ctl).map Prod.snd).Nodup := by rw [Joint.zip_snd]; exact hctl.sublist (List.take_sublist _ _)
  have hsub : ∀ u ∈ (as.zip ctl).map Prod.snd, u ∈ ctl := by
    intro u hu
    rw [Joint.zip_snd] at hu
    exact List.mem_of_mem_take hu
  have hpm := hp.map Prod.snd
  have hk1 : ∀ v ∈ r.vehicles, v.uid ∈ (as.zip ctl).map Prod.snd → KnowsWay r.network v := fun v hv hm => hk v hv (hsub _ hm)
  obtain ⟨h1, h2, h3, h4⟩ := (Joint.fold (G := G) (t := t) (as.zip ctl) r hd hn hk1).2 r' h
  have F := Joint.fold (G := G) (t := t) (as'.zip ctl') r hd (hpm.nodup_iff.1 hn) (fun v hv hm => hk1 v hv (hpm.mem_iff.2 hm))
  obtain ⟨s, hs⟩ := F.1 fun p hq => h3 p (hp.mem_iff.2 hq)
  obtain ⟨k1, k2, k3, k4⟩ := F.2 s hs
  refine ⟨s.rng, ?_⟩
  have hvs : s.vehicles = r'.vehicles := by
    have hlen : s.vehicles.length = r'.vehicles.length := by
      have := congrArg List.length (k1.trans h1.symm)
      simpa [Road.uids] using this
    have hlen' : r'.vehicles.length = r.vehicles.length := by
      have := congrArg List.length h1
      simpa [Road.uids] using this
    apply List.ext_getElem? 
    intro i
    by_cases hi : i < r.vehicles.length
    · have hv := List.getElem?_eq_getElem hi
      generalize r.vehicles[i] = v at hv
      by_cases hm : v.uid ∈ (as.zip ctl).map Prod.snd
      · obtain ⟨⟨x, u⟩, hx, hu⟩ := List.mem_map.1 hm
        dsimp only at hu; subst hu
        obtain ⟨c, w, rng, hc, hw, hr⟩ := (h4 i v hv).2 x hx
        obtain ⟨c', w', rng', hc', hw', hr'⟩ := (k4 i v hv).2 x (hp.mem_iff.1 hx)
        rw [hc] at hc'; cases hc'
        rw [hw] at hw'; cases hw'
        rw [hr, hr']
      · rw [(h4 i v hv).1 hm, (k4 i v hv).1 fun hc => hm (hpm.mem_iff.2 hc)]
    · rw [List.getElem?_eq_none (by omega), List.getElem?_eq_none (by omega)]
  have : s = { r' with rng := s.rng } := by
    rw [k2, hvs, h2]
  rw [← this]
  exact hs

/-- **C118, frames.**  On a map without forks the scene at the end of the frame, after the traffic has decided and everything has moved, does not depend on the order of the agents
either. -/
theorem joint_frame (G : Globals) (t : AgentType) (dt : ℝ) (ctl ctl' : List ℕ) (r r1 r2 r3 : Road) (as as' : List AgentAction) (hg : NoForks r.network)
    (hd : (r.vehicles.map (·.uid)).Nodup) (hctl : ctl.Nodup) (hk : ∀ v ∈ r.vehicles, v.uid ∈ ctl → v.kind = t.vehicleClass) (hp : (as.zip ctl).Perm (as'.zip ctl'))
    (h1 : r.envAct G (.multi t) ctl (.tuple as) = .ok r1) (h2 : r1.act G = .ok r2) (h3 : r2.step dt = .ok r3) :
    ∃ s1 s2 rng, r.envAct G (.multi t) ctl' (.tuple as') = .ok s1 ∧ s1.act G = .ok s2 ∧ s2.step dt = .ok { r3 with rng := rng } := by
  have hk' : ∀ v ∈ r.vehicles, v.uid ∈ ctl → KnowsWay r.network v := by
    intro v hv hm
    rcases vehicleClass_cases t with ht | ht | ht
    · exact .inl ((hk v hv hm).trans ht)
    · exact .inr (.inl ((hk v hv hm).trans ht))
    · exact .inr (.inr ⟨.inr ((hk v hv hm).trans ht), .inr (.inl fun roads hr => hg _ _ hr)⟩)
  obtain ⟨⟨vs, rg, he, _⟩, _⟩ := joint_simultaneous G t ctl r r1 as hd hctl hk' h1
  obtain ⟨b, hb⟩ := joint_order G t ctl ctl' r r1 as as' hd hctl hk' hp h1
  have hnet : r1.network = r.network := by rw [he]
  have A1 : Chance.Alike r.network r1 { r1 with rng := b } := ⟨hnet, rfl⟩
  have T := Chance.roadAct hg G A1
  rw [h2] at T
  cases hs2 : Road.act G { r1 with rng := b } with
  | error e => rw [hs2] at T; cases T
  | ok s2 =>
    rw [hs2] at T
    have T2 := Chance.step dt (Causality.twin_ok T)
    rw [h3] at T2
    cases hs3 : s2.step dt with
    | error e => rw [hs3] at T2; cases T2
    | ok s3 =>
      rw [hs3] at T2
      have := (Causality.twin_ok T2).2
      exact ⟨_, s2, s3.rng, hb, hs2, by rw [hs3, ← this]⟩

namespace Joint

/-- A car at the end of the southern access of the intersection, without a route. -/
def lost (uid : ℕ) : Vehicle := { Sample.car uid .mdp 0 0 10 with pos := ⟨2, 11⟩, laneIndex := ⟨"o0", "ir0", 0⟩, targetLane := ⟨"o0", "ir0", 0⟩, route := none }

/-- The `n`-th state of a generator that draws 0, 1, 2, … -/
def counting (n : ℕ) : Rng := { ints := fun k => k, reals := fun _ => 0, ipos := n }

theorem lost_end (uid : ℕ) : (roadLane ⟨2, 111⟩ ⟨2, 11⟩ 1).afterEnd (lost uid).pos = true := by
  obtain ⟨p1, p2, _, _, p5⟩ := access_point 0 100
  have e : (lost uid).pos = (accessLane 0).position 100 0 := by rw [p1]; show (⟨2, 11⟩ : Vec2) = ⟨2, 111 - 100⟩; norm_num
  show (accessLane 0).afterEnd (lost uid).pos = true
  rw [e]
  unfold Lane.afterEnd
  rw [p5, p2]
  norm_num [Lane.optTruthy, Lane.VEHICLE_LENGTH]

theorem lost_next0 (uid : ℕ) : Graph.nextLane interNet (lost uid).targetLane (lost uid).route (lost uid).pos (counting 0) = .ok (⟨"ir0", "il3", 0⟩, none, counting 1) := rfl
theorem lost_next1 (uid : ℕ) : Graph.nextLane interNet (lost uid).targetLane (lost uid).route (lost uid).pos (counting 1) = .ok (⟨"ir0", "il1", 0⟩, none, counting 2) := rfl

theorem lost_act {uid n : ℕ} {i : LaneIndex} (h : Graph.nextLane interNet (lost uid).targetLane (lost uid).route (lost uid).pos (counting n) = .ok (i, none, counting (n + 1)))
    {l : Lane} (hi : interNet.getLane i = .ok l) (r : Road) (hr : r.network = interNet) (hn : r.rng = counting n) :
    ∃ w, (lost uid).act {} r .idle = .ok (w, counting (n + 1)) ∧ w.targetLane = i := by
  have hf : (lost uid).followRoad interNet (counting n) = .ok ({ lost uid with targetLane := i, route := none }, counting (n + 1)) := by
    unfold Vehicle.followRoad
    have hl : interNet.getLane (lost uid).targetLane = .ok (roadLane ⟨2, 111⟩ ⟨2, 11⟩ 1) := rfl
    rw [hl]
    simp only [bind, Except.bind]
    rw [if_pos (lost_end uid), h]
    rfl
  have hk : (lost uid).kind = .mdp := rfl
  unfold Vehicle.act
  rw [hk, hr, hn]
  dsimp only
  unfold Vehicle.mdpAct
  dsimp only
  unfold Vehicle.controlledAct
  rw [hf]
  simp only [bind, Except.bind, Vehicle.applyMeta, Vehicle.steeringControl, hi]
  exact ⟨_, rfl, rfl⟩

theorem two {a b : ℕ} {i0 i1 : ℕ} {l0 l1 : LaneIndex} {r : Road} (hr : r.network = interNet) (hn : r.rng = counting 0)
    (h0 : r.indexOf a = some i0) (h1 : r.vehicles[i0]? = some (lost a)) (hv : r.indexOf b = some i1) (hne : i0 ≠ i1) (h2 : r.vehicles[i1]? = some (lost b))
    (e0 : l0 = ⟨"ir0", "il3", 0⟩) (e1 : l1 = ⟨"ir0", "il1", 0⟩) (hd : r.uids.Nodup) :
    ∃ r', r.envAct {} (.multi (.discrete true true)) [a, b] (.tuple [.index 1, .index 1]) = .ok r' ∧
      (r'.vehicles[i0]?).map (·.targetLane) = some l0 ∧ (r'.vehicles[i1]?).map (·.targetLane) = some l1 := by
  subst e0 e1
  obtain ⟨w0, a0, t0⟩ := lost_act (lost_next0 a) (l := turnLane ⟨11, 11⟩ 9 180 270 true 1) rfl r hr hn
  have hc : AgentType.command (.discrete true true) (.index 1) = .ok .idle := rfl
  have s0 : r.agentAct {} (.discrete true true) a (.index 1) = .ok { r with vehicles := r.vehicles.set i0 w0, rng := counting 1 } := by
    unfold Road.agentAct Road.actAt
    rw [hc]
    simp only [bind, Except.bind, h0, h1, a0]
    rfl
  set r1 : Road := { r with vehicles := r.vehicles.set i0 w0, rng := counting 1 } with hr1
  have hu : r1.uids = r.uids := (agentAct_eff hd s0).2.1
  obtain ⟨w1, a1, t1⟩ := lost_act (lost_next1 b) (l := turnLane ⟨-11, 11⟩ 13 0 (-90) false 0) rfl r1 hr rfl
  have hv' : r1.indexOf b = some i1 := by rw [Road.indexOf_uids, hu, ← Road.indexOf_uids]; exact hv
  have h2' : r1.vehicles[i1]? = some (lost b) := by
    show (r.vehicles.set i0 w0)[i1]? = _
    rw [List.getElem?_set_ne hne]; exact h2
  have s1 : r1.agentAct {} (.discrete true true) b (.index 1) = .ok { r1 with vehicles := r1.vehicles.set i1 w1, rng := counting 2 } := by
    unfold Road.agentAct Road.actAt
    rw [hc]
    simp only [bind, Except.bind, hv', h2', a1]
    rfl
  refine ⟨{ r1 with vehicles := r1.vehicles.set i1 w1, rng := counting 2 }, ?_, ?_, ?_⟩
  · show [(AgentAction.index 1, a), (.index 1, b)].foldlM (fun r au => Road.agentAct {} (.discrete true true) r au.2 au.1) r = _
    rw [List.foldlM_cons, s0]
    simp only [bind, Except.bind]
    rw [List.foldlM_cons, s1]
    rfl
  · show ((r1.vehicles.set i1 w1)[i0]?).map _ = _
    rw [List.getElem?_set_ne hne.symm]
    show ((r.vehicles.set i0 w0)[i0]?).map _ = _
    rw [List.getElem?_set_self (List.getElem?_eq_some_iff.1 h1).1, Option.map_some, t0]
  · show ((r1.vehicles.set i1 w1)[i1]?).map _ = _
    rw [List.getElem?_set_self (List.getElem?_eq_some_iff.1 h2').1, Option.map_some, t1]

end Joint

/-- **C118, at a fork.**  The hypothesis is needed: two agents without a route at the same fork draw their roads in turn from the generator of the road, and exchanging them
exchanges the roads they take. -/
theorem joint_fork : ∃ (r r' r'' : Road), (r.vehicles.map (·.uid)).Nodup ∧
    r.envAct {} (.multi (.discrete true true)) [0, 1] (.tuple [.index 1, .index 1]) = .ok r' ∧
    r.envAct {} (.multi (.discrete true true)) [1, 0] (.tuple [.index 1, .index 1]) = .ok r'' ∧
    (r'.vehicles[0]?).map (·.targetLane) = some ⟨"ir0", "il3", 0⟩ ∧ (r''.vehicles[0]?).map (·.targetLane) = some ⟨"ir0", "il1", 0⟩ := by
  set r : Road := { network := interNet, vehicles := [Joint.lost 0, Joint.lost 1], rng := Joint.counting 0 } with hr
  have hd : r.uids.Nodup := by simp [hr, Road.uids, Joint.lost, Sample.car]
  have i0 : r.indexOf 0 = some 0 := Road.indexOf_at hd ⟨_, rfl, rfl⟩
  have i1 : r.indexOf 1 = some 1 := Road.indexOf_at hd ⟨_, rfl, rfl⟩
  obtain ⟨r', h1, h2, _⟩ := Joint.two (r := r) (a := 0) (b := 1) rfl rfl i0 rfl i1 (by norm_num) rfl rfl rfl hd
  obtain ⟨r'', h3, _, h4⟩ := Joint.two (r := r) (a := 1) (b := 0) rfl rfl i1 rfl i0 (by norm_num) rfl rfl rfl hd
  exact ⟨r, r', r'', hd, h1, h3, h2, h4⟩

/-- Two agents of the default highway, at reset: all hypotheses of `joint_frame`, `joint_order` and `joint_simultaneous` hold, for every seed and every pair of meta-actions. -/
example (rng : Rng) (a b : Int) (ha : 0 ≤ a ∧ a < 5) (hb : 0 ≤ b ∧ b < 5) :
    ∃ e r1 r2 r3 s1 s2 rng', Highway.reset {} { controlledVehicles := 2, sim := { action := .multi (.discrete true true) } } rng = .ok e ∧
      e.controlled.length = 2 ∧
      e.road.envAct {} (.multi (.discrete true true)) e.controlled (.tuple [.index a, .index b]) = .ok r1 ∧ r1.act {} = .ok r2 ∧ r2.step (1 / 15) = .ok r3 ∧
      e.road.envAct {} (.multi (.discrete true true)) e.controlled.reverse (.tuple [.index b, .index a]) = .ok s1 ∧ s1.act {} = .ok s2 ∧
      s2.step (1 / 15) = .ok { r3 with rng := rng' } := by
  have hok : HighwayOk { controlledVehicles := 2, sim := { action := .multi (.discrete true true) } } :=
    ⟨by norm_num, by norm_num, by simp, by norm_num, by norm_num, ⟨_, rfl⟩, by simp [VKind.isLinear]⟩
  obtain ⟨e, he, hready, hnet, hreg, hctl, -⟩ := highway_reset {} _ hok rng
  have hctl' : e.controlled = [0, 1] := hctl
  have hin : InEnvSpace (.multi (.discrete true true)) (.tuple [.index a, .index b]) := by
    intro x hx
    simp only [List.mem_cons, List.not_mem_nil, or_false] at hx
    rcases hx with rfl | rfl
    · exact ⟨ha.1, by simpa [AgentType.spaceSize, AgentType.actions] using ha.2⟩
    · exact ⟨hb.1, by simpa [AgentType.spaceSize, AgentType.actions] using hb.2⟩
  obtain ⟨r1, h1, run1⟩ := envAct_total (G := {}) hready hin
  have hR1 := ready_run e.time e.steps hready run1
  obtain ⟨r2, h2⟩ := roadAct_never_raises {} r1 hR1.healthy
  have hR2 := ready_run e.time e.steps hready (.tail run1 (.act h2))
  obtain ⟨r3, h3⟩ := roadStep_never_raises r2 hR2.healthy (1 / 15) (by simpa using hR2.dt)
  obtain ⟨s1, s2, rng', k1, k2, k3⟩ := joint_frame {} (.discrete true true) (1 / 15) e.controlled e.controlled.reverse e.road r1 r2 r3 [.index a, .index b] [.index b, .index a]
    (by rw [hnet]; exact (forks_of_maps _ _ 0).1) hready.manned.distinct (by rw [hctl']; decide) hready.fitted
    (by rw [hctl']; exact List.Perm.swap _ _ _) h1 h2 h3
  exact ⟨e, r1, r2, r3, s1, s2, rng', he, by rw [hctl']; rfl, h1, h2, h3, k1, k2, k3⟩

end HighwayEnv.Props
