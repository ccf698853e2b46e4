import Verif.Lemmas.Road
import Verif.Lemmas.Num
import Verif.Spec.Attached
import Verif.Props.Network

/-! What `act` does to the target lane, route and commands of one vehicle. -/

noncomputable section
namespace HighwayEnv
open Classical Spec Graph

theorem Graph.nextLane_route {g : Graph} {cur i : LaneIndex} {route route' : Option (List RouteStep)} {p : Vec2} {rng rng' : Rng}
    (h : g.nextLane cur route p rng = .ok (i, route', rng')) : route' = (nextFromRoute cur route).1 := by
  unfold nextLane at h
  simp only at h
  split at h
  · obtain ⟨j, _, h⟩ := bind_ok h
    cases h; rfl
  · split at h
    · cases h; rfl
    · obtain ⟨⟨k, rng1⟩, _, h⟩ := bind_ok h
      obtain ⟨j, _, h⟩ := bind_ok h
      cases h; rfl

theorem Graph.nextFromRoute_sub (cur : LaneIndex) (route : Option (List RouteStep)) :
    (nextFromRoute cur route).1.getD [] <:+ route.getD [] := by
  unfold nextFromRoute
  split
  · simp
  · simp
  · rename_i a rest
    dsimp only
    have key : (if a.src = cur.src ∧ a.dst = cur.dst then rest else a :: rest) <:+ a :: rest := by
      split
      · exact List.suffix_cons a rest
      · exact List.suffix_refl _
    split
    · simp
    · rename_i b rest' he
      split <;> simpa using key

theorem Spec.ValidIndex.edge {g : Graph} {i : LaneIndex} (h : ValidIndex g i) : Edge g i.src i.dst := by
  obtain ⟨k, l, _, ls, hr, _⟩ := h
  exact ⟨ls, hr⟩

theorem Lane.isReachableFrom_iff (l : Lane) (p : Vec2) : l.isReachableFrom p = true ↔
    l.forbidden = false ∧ |(l.localCoordinates p).2| ≤ 2 * l.width ∧ 0 ≤ (l.localCoordinates p).1 ∧
      (l.localCoordinates p).1 < l.length + 5 := by
  unfold Lane.isReachableFrom Lane.widthAt Lane.VEHICLE_LENGTH
  by_cases h : l.forbidden <;> simp [h]

theorem Lane.afterEnd_iff (l : Lane) (p : Vec2) : l.afterEnd p = true ↔ l.length - 5 / 2 < (l.localCoordinates p).1 := by
  unfold Lane.afterEnd Lane.optTruthy Lane.VEHICLE_LENGTH
  simp

namespace Vehicle

theorem followRoad_ok {g : Graph} (hg : WellFormed g) {v v' : Vehicle} {rng rng' : Rng} (ht : ValidIndex g v.targetLane)
    (h : v.followRoad g rng = .ok (v', rng')) :
    ∃ t route, v' = { v with targetLane := t, route := route } ∧ ValidIndex g t ∧ Continues g v.pos v.targetLane t ∧
      (route.getD [] <:+ v.route.getD []) := by
  unfold followRoad at h
  obtain ⟨l, hl, h⟩ := bind_ok h
  split at h
  · rename_i ha
    obtain ⟨⟨i, route, rng1⟩, hn, h⟩ := bind_ok h
    cases h
    obtain ⟨hv, hc⟩ := Props.nextLane_valid g hg _ ht _ _ _ _ _ _ hn
    refine ⟨i, route, rfl, hv, ?_, ?_⟩
    · rcases hc with ⟨h1, h2⟩ | ⟨h1, h2, _⟩
      · exact .inl ⟨h1, .inr h2⟩
      · exact .inr ⟨⟨l, hl, (Lane.afterEnd_iff ..).1 ha⟩, h1, h2⟩
    · rw [nextLane_route hn]; exact nextFromRoute_sub _ _
  · rename_i ha
    cases h
    refine ⟨v.targetLane, v.route, rfl, ht, .inl ⟨rfl, .inl ?_⟩, List.suffix_refl _⟩
    rintro ⟨l', hl', h⟩
    rw [hl] at hl'; cases hl'
    exact ha ((Lane.afterEnd_iff ..).2 h)

theorem followRoad_total {g : Graph} (hg : WellFormed g) {v : Vehicle} (rng : Rng) (ht : ValidIndex g v.targetLane)
    (hr : RouteExists g v.route) : ∃ p, v.followRoad g rng = .ok p := by
  unfold followRoad
  obtain ⟨l, hl⟩ := getLane_of_valid hg.toIsPyGraph ht
  rw [hl]
  simp only [bind, Except.bind]
  split
  · rcases hn : g.nextLane v.targetLane v.route v.pos rng with e | ⟨i, route, rng1⟩
    · exfalso
      obtain ⟨_, s, hs, h1, h2⟩ := Props.nextLane_error g hg _ ht _ _ _ _ hn
      apply h2
      apply hr
      unfold Props.plannedNext at hs
      split at hs
      · cases hs
      · rename_i hr
        split at hs
        · cases hs
        · rename_i r a rest
          rw [hr]
          split at hs
          · simp only [Option.getD_some, List.mem_cons]
            exact .inr (List.mem_of_head? hs)
          · cases hs; simp
    · exact ⟨_, rfl⟩
  · exact ⟨_, rfl⟩

theorem canEnter_iff {g : Graph} (hg : IsPyGraph g) {i : LaneIndex} {p : Vec2} {l : Lane} (hi : 0 ≤ i.id)
    (hl : g.getLane i = .ok l) : l.isReachableFrom p = true ↔ CanEnter g i.src i.dst i.id p := by
  rw [Lane.isReachableFrom_iff]
  rw [getLane_ok_iff hg] at hl
  obtain ⟨ls, hr, hl⟩ := hl
  rcases pyIndex_ok_iff.1 hl with ⟨_, hl⟩ | ⟨h, _⟩
  · constructor
    · rintro ⟨h1, h2⟩
      exact ⟨i.id.toNat, l, by omega, ⟨ls, hr, hl⟩, h1, h2⟩
    · rintro ⟨k, l', hk, ⟨ls', hr', hl'⟩, h⟩
      rw [RoadLanes.unique hg hr' hr] at hl'
      rw [hk] at hl
      simp only [Int.toNat_natCast] at hl
      rw [hl'] at hl; cases hl
      exact h
  · omega

/-- Exact effect of a lane-change command. -/
theorem changeLane_ok {g : Graph} (hg : WellFormed g) {v : Vehicle} (d : Int) (hd : d = 1 ∨ d = -1) (ht : ValidIndex g v.targetLane) :
    ∃ t, v.changeLane g d = .ok { v with targetLane := t } ∧ ValidIndex g t ∧
      t = (if CanEnter g v.targetLane.src v.targetLane.dst (v.targetLane.id + d) v.pos
        then { v.targetLane with id := v.targetLane.id + d } else v.targetLane) := by
  obtain ⟨k, l, hk, ls, hr, hl⟩ := id ht
  have hlen : k < ls.length := (List.getElem?_eq_some_iff.1 hl).1
  have hls := (lanesOf_ok_iff hg.toIsPyGraph).2 hr
  unfold changeLane
  rw [hls]
  simp only [bind, Except.bind]
  set c : Int := npClipInt (v.targetLane.id + d) 0 ((ls.length : Int) - 1) with hc
  have hc0 : 0 ≤ c := le_npClipInt (by omega)
  have hc1 : c ≤ (ls.length : Int) - 1 := npClipInt_le
  have hcl : c.toNat < ls.length := by omega
  have hvalid : ValidIndex g { v.targetLane with id := c } :=
    ⟨c.toNat, ls[c.toNat], by simp only; omega, ls, hr, List.getElem?_eq_getElem hcl⟩
  obtain ⟨lc, hlc⟩ := getLane_of_valid hg.toIsPyGraph hvalid
  rw [hlc]
  have hiff := canEnter_iff (p := v.pos) hg.toIsPyGraph (i := { v.targetLane with id := c }) hc0 hlc
  simp only at hiff ⊢
  -- clipped or not
  by_cases hin : 0 ≤ v.targetLane.id + d ∧ v.targetLane.id + d ≤ (ls.length : Int) - 1
  · have e : c = v.targetLane.id + d := by
      rw [hc]; unfold npClipInt; omega
    rw [e] at hvalid hiff ⊢
    by_cases hre : lc.isReachableFrom v.pos
    · exact ⟨{ v.targetLane with id := v.targetLane.id + d }, by rw [if_pos hre]; rfl, hvalid, by rw [if_pos (hiff.1 hre)]⟩
    · exact ⟨v.targetLane, by rw [if_neg hre]; rfl, ht, by rw [if_neg (fun h => hre (hiff.2 h))]⟩
  · have e : c = v.targetLane.id := by
      rw [hc]; unfold npClipInt; omega
    have hno : ¬ CanEnter g v.targetLane.src v.targetLane.dst (v.targetLane.id + d) v.pos := by
      rintro ⟨k', l', hk', ⟨ls', hr', hl'⟩, _⟩
      rw [RoadLanes.unique hg.toIsPyGraph hr' hr] at hl'
      have := (List.getElem?_eq_some_iff.1 hl').1
      exact hin ⟨by omega, by omega⟩
    rw [e]
    refine ⟨v.targetLane, ?_, ht, by rw [if_neg hno]⟩
    split <;> rfl

theorem steeringControl_total {g : Graph} (hg : WellFormed g) {v : Vehicle} {i : LaneIndex} (hi : ValidIndex g i) :
    ∃ s, v.steeringControl g i = .ok s := by
  unfold steeringControl
  obtain ⟨l, hl⟩ := getLane_of_valid hg.toIsPyGraph hi
  rw [hl]
  simp only [bind, Except.bind]
  split <;> exact ⟨_, rfl⟩

/-- Target lane, speed and commands after a high-level action. -/
theorem applyMeta_ok {g : Graph} (hg : WellFormed g) {v : Vehicle} (a : VAction) (ht : ValidIndex g v.targetLane) :
    ∃ t ts, v.applyMeta g a = .ok { v with targetLane := t, targetSpeed := ts } ∧ ValidIndex g t ∧
      t = laneAfter g v.pos a v.targetLane ∧ ts = speedAfter a v.targetSpeed := by
  unfold applyMeta
  split
  · exact ⟨_, _, rfl, ht, rfl, rfl⟩
  · exact ⟨_, _, rfl, ht, rfl, rfl⟩
  · obtain ⟨t, h1, h2, h3⟩ := changeLane_ok hg 1 (.inl rfl) ht
    exact ⟨t, _, h1, h2, h3, rfl⟩
  · obtain ⟨t, h1, h2, h3⟩ := changeLane_ok hg (-1) (.inr rfl) ht
    exact ⟨t, _, h1, h2, h3, rfl⟩
  · refine ⟨v.targetLane, v.targetSpeed, rfl, ht, ?_, ?_⟩
    · unfold laneAfter; split <;> simp_all
    · unfold speedAfter; split <;> simp_all

theorem controlledAct_ok {g : Graph} (hg : WellFormed g) {v v' : Vehicle} {rng rng' : Rng} {a : VAction}
    (ht : ValidIndex g v.targetLane) (h : v.controlledAct g rng a = .ok (v', rng')) :
    ∃ t0 route t ts st, v' = { v with targetLane := t, route := route, targetSpeed := ts
                                      steering := st, acceleration := KP_A * (ts - v.speed) } ∧
      Continues g v.pos v.targetLane t0 ∧ ValidIndex g t0 ∧ ValidIndex g t ∧ (route.getD [] <:+ v.route.getD []) ∧
      |st| ≤ Real.pi / 3 ∧
      t = laneAfter g v.pos a t0 ∧ ts = speedAfter a v.targetSpeed := by
  unfold controlledAct at h
  obtain ⟨⟨v1, rng1⟩, h1, h⟩ := bind_ok h
  obtain ⟨v2, h2, h⟩ := bind_ok h
  obtain ⟨st, h3, h⟩ := bind_ok h
  cases h
  obtain ⟨t0, route, rfl, a1, a2, a3⟩ := followRoad_ok hg ht h1
  obtain ⟨t, ts, b1, b2, b3, b4⟩ := applyMeta_ok hg (v := { v with targetLane := t0, route := route }) a a1
  rw [h2] at b1
  cases b1
  exact ⟨t0, route, t, ts, _, rfl, a2, a1, b2, a3, abs_npClip (by unfold MAX_STEERING_ANGLE; positivity), b3, b4⟩

theorem controlledAct_total {g : Graph} (hg : WellFormed g) {v : Vehicle} (rng : Rng) (a : VAction)
    (ht : ValidIndex g v.targetLane) (hr : RouteExists g v.route) : ∃ p, v.controlledAct g rng a = .ok p := by
  unfold controlledAct
  obtain ⟨⟨v1, rng1⟩, h1⟩ := followRoad_total hg rng ht hr
  obtain ⟨t0, route, rfl, a1, a2, a3⟩ := followRoad_ok hg ht h1
  obtain ⟨t, ts, b1, b2, b3, b4⟩ := applyMeta_ok hg (v := { v with targetLane := t0, route := route }) a a1
  rw [h1]
  simp only [bind, Except.bind]
  rw [b1]
  simp only
  obtain ⟨st, hst⟩ := steeringControl_total hg
    (v := { v with targetLane := t, route := route, targetSpeed := ts }) b2
  rw [hst]
  exact ⟨_, rfl⟩

/-- Lane choices of a traffic vehicle: keep the target, fall back to the current lane, or a neighbouring lane of the current one
that can be entered. -/
theorem changeLanePolicy_ok {G : Globals} {r : Road} (hg : WellFormed r.network) {v v' : Vehicle} (hh : ValidIndex r.network v.laneIndex)
    (ht : ValidIndex r.network v.targetLane) (h : v.changeLanePolicy G r = .ok v') :
    ∃ t tm, v' = { v with targetLane := t, timer := tm } ∧ ValidIndex r.network t ∧ (tm = v.timer ∨ (1 < v.timer ∧ tm = 0)) ∧
      (t = v.targetLane ∨
        (t = v.laneIndex ∧ v.laneIndex.src = v.targetLane.src ∧ v.laneIndex.dst = v.targetLane.dst) ∨
        (v.targetLane = v.laneIndex ∧ 1 < v.timer ∧ tm = 0 ∧ t.src = v.laneIndex.src ∧ t.dst = v.laneIndex.dst ∧
          (t.id = v.laneIndex.id + 1 ∨ t.id = v.laneIndex.id - 1) ∧ CanEnter r.network t.src t.dst t.id v.pos)) := by
  unfold changeLanePolicy at h
  split at h
  · split at h
    · rename_i hs
      split at h
      · cases h
        exact ⟨_, v.timer, rfl, hh, .inl rfl, .inr (.inl ⟨rfl, hs⟩)⟩
      · cases h; exact ⟨_, _, rfl, ht, .inl rfl, .inl rfl⟩
    · cases h; exact ⟨_, _, rfl, ht, .inl rfl, .inl rfl⟩
  · rename_i heq
    simp only [ne_eq, not_not] at heq
    split at h
    · rename_i hdo
      have hT : 1 < v.timer := of_decide_eq_true hdo
      obtain ⟨sides, hsides, h⟩ := bind_ok h
      have hsd : ∀ i ∈ sides, ValidIndex r.network i ∧ i.src = v.laneIndex.src ∧ i.dst = v.laneIndex.dst ∧
          (i.id = v.laneIndex.id + 1 ∨ i.id = v.laneIndex.id - 1) := by
        unfold sideLanes at hsides
        obtain ⟨ls, hls, hsides⟩ := bind_ok hsides
        cases hsides
        obtain ⟨k, l, hk, ls', hr, hl⟩ := hh
        have e := RoadLanes.unique hg.toIsPyGraph ((lanesOf_ok_iff hg.toIsPyGraph).1 hls) hr
        subst e
        have hlen : k < ls.length := (List.getElem?_eq_some_iff.1 hl).1
        intro i hi
        simp only [List.mem_append] at hi
        rcases hi with hi | hi
        · split at hi
          · rename_i hpos
            simp only [List.mem_singleton] at hi
            subst hi
            refine ⟨⟨k - 1, ls[k - 1], ?_, ls, hr, List.getElem?_eq_getElem (by omega)⟩, rfl, rfl, .inr rfl⟩
            simp only; omega
          · cases hi
        · split at hi
          · rename_i hpos
            simp only [List.mem_singleton] at hi
            subst hi
            have : k + 1 < ls.length := by omega
            refine ⟨⟨k + 1, ls[k + 1], ?_, ls, hr, List.getElem?_eq_getElem this⟩, rfl, rfl, .inl rfl⟩
            simp only; omega
          · cases hi
      have key : ∀ (l : List LaneIndex) (w w' : Vehicle), (∀ i ∈ l, i ∈ sides) →
          (∃ t, w = { v with targetLane := t, timer := 0 } ∧ ValidIndex r.network t ∧ (t = v.targetLane ∨
            (t.src = v.laneIndex.src ∧ t.dst = v.laneIndex.dst ∧
              (t.id = v.laneIndex.id + 1 ∨ t.id = v.laneIndex.id - 1) ∧ CanEnter r.network t.src t.dst t.id v.pos))) →
          l.foldlM (considerLane G r) w = .ok w' →
          (∃ t, w' = { v with targetLane := t, timer := 0 } ∧ ValidIndex r.network t ∧ (t = v.targetLane ∨
            (t.src = v.laneIndex.src ∧ t.dst = v.laneIndex.dst ∧
              (t.id = v.laneIndex.id + 1 ∨ t.id = v.laneIndex.id - 1) ∧ CanEnter r.network t.src t.dst t.id v.pos))) := by
        intro l
        induction l with
        | nil => intro w w' _ hw h; rw [List.foldlM_nil] at h; cases h; exact hw
        | cons i l ih =>
          intro w w' hl hw h
          rw [List.foldlM_cons] at h
          obtain ⟨u, hu, h⟩ := bind_ok h
          refine ih u w' (fun j hj => hl j (by simp [hj])) ?_ h
          obtain ⟨t, rfl, hw⟩ := hw
          obtain ⟨s1, s2, s3, s4⟩ := hsd i (hl i (by simp))
          unfold considerLane at hu
          obtain ⟨li, hli, hu⟩ := bind_ok hu
          split at hu
          · rename_i hre
            obtain ⟨ok, _, hu⟩ := bind_ok hu
            split at hu
            · cases hu
              have hpos : 0 ≤ i.id := by obtain ⟨k, _, hk, _⟩ := s1; omega
              exact ⟨i, rfl, s1, .inr ⟨s2, s3, s4, (canEnter_iff hg.toIsPyGraph hpos hli).1 hre⟩⟩
            · cases hu; exact ⟨t, rfl, hw⟩
          · cases hu; exact ⟨t, rfl, hw⟩
      obtain ⟨t, rfl, h1, h2⟩ := key sides _ v' (fun i hi => hi) ⟨v.targetLane, rfl, ht, .inl rfl⟩ h
      refine ⟨t, 0, rfl, h1, .inr ⟨hT, rfl⟩, ?_⟩
      rcases h2 with h2 | h2
      · exact .inl h2
      · exact .inr (.inr ⟨heq.symm, hT, rfl, h2⟩)
    · cases h; exact ⟨_, _, rfl, ht, .inl rfl, .inl rfl⟩

theorem maybeChangeLane_ok {G : Globals} {r : Road} (hg : WellFormed r.network) {v v' : Vehicle} (hh : ValidIndex r.network v.laneIndex)
    (ht : ValidIndex r.network v.targetLane) (h : v.maybeChangeLane G r = .ok v') :
    ∃ t tm, v' = { v with targetLane := t, timer := tm } ∧ ValidIndex r.network t ∧ (tm = v.timer ∨ (1 < v.timer ∧ tm = 0)) ∧
      (t = v.targetLane ∨
        (t = v.laneIndex ∧ v.laneIndex.src = v.targetLane.src ∧ v.laneIndex.dst = v.targetLane.dst) ∨
        (v.targetLane = v.laneIndex ∧ 1 < v.timer ∧ tm = 0 ∧ t.src = v.laneIndex.src ∧ t.dst = v.laneIndex.dst ∧
          (t.id = v.laneIndex.id + 1 ∨ t.id = v.laneIndex.id - 1) ∧ CanEnter r.network t.src t.dst t.id v.pos)) := by
  unfold maybeChangeLane at h
  split at h
  · exact changeLanePolicy_ok hg hh ht h
  · cases h; exact ⟨_, _, rfl, ht, .inl rfl, .inl rfl⟩

/-- A traffic vehicle's decision, when it has not crashed. -/
theorem idmAct_ok {G : Globals} {r : Road} (hg : WellFormed r.network) {v v' : Vehicle} {rng' : Rng}
    (hh : ValidIndex r.network v.laneIndex) (ht : ValidIndex r.network v.targetLane) (hc : v.crashed = false)
    (h : v.idmAct G r = .ok (v', rng')) :
    ∃ t0 route t tm st acc, v' = { v with targetLane := t, route := route, timer := tm, steering := st, acceleration := acc } ∧
      Continues r.network v.pos v.targetLane t0 ∧ ValidIndex r.network t0 ∧ ValidIndex r.network t ∧
      (route.getD [] <:+ v.route.getD []) ∧ |st| ≤ Real.pi / 3 ∧ |acc| ≤ 6 ∧
      (tm = v.timer ∨ (1 < v.timer ∧ tm = 0)) ∧
      (t = t0 ∨ (t = v.laneIndex ∧ v.laneIndex.src = t0.src ∧ v.laneIndex.dst = t0.dst) ∨
        (t0 = v.laneIndex ∧ 1 < v.timer ∧ tm = 0 ∧ t.src = v.laneIndex.src ∧ t.dst = v.laneIndex.dst ∧
          (t.id = v.laneIndex.id + 1 ∨ t.id = v.laneIndex.id - 1) ∧ CanEnter r.network t.src t.dst t.id v.pos)) := by
  unfold idmAct at h
  rw [if_neg (by simp [hc])] at h
  obtain ⟨⟨front, rear⟩, _, h⟩ := bind_ok h
  obtain ⟨⟨v1, rng1⟩, h1, h⟩ := bind_ok h
  obtain ⟨v2, h2, h⟩ := bind_ok h
  obtain ⟨st, h3, h⟩ := bind_ok h
  obtain ⟨acc, h4, h⟩ := bind_ok h
  cases h
  obtain ⟨t0, route, rfl, a1, a2, a3⟩ := followRoad_ok hg ht h1
  obtain ⟨t, tm, rfl, b1, b2, b3⟩ := maybeChangeLane_ok (v := { v with targetLane := t0, route := route }) hg hh a1 h2
  exact ⟨t0, route, t, tm, _, _, rfl, a2, a1, b1, a3, abs_npClip (by unfold MAX_STEERING_ANGLE; positivity),
    abs_npClip (by unfold ACC_MAX; norm_num), b2, b3⟩

end Vehicle
end HighwayEnv
