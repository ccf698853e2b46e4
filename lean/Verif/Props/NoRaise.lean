import Verif.Props.Controller
import Verif.Props.Queries
import Verif.Props.Collision
import Verif.Spec.Healthy

/-!
# The simulation never raises on healthy roads (C75)
-/

noncomputable section
namespace HighwayEnv.Props
open Spec Classical Graph

private theorem nb_total {r : Road} (hg : WellFormed r.network) (v : Vehicle) {i : LaneIndex} (hi : ValidIndex r.network i)
    (li : Option LaneIndex) (e : li.getD v.laneIndex = i) :
    ∃ f b, r.neighbourVehicles v li = .ok (f, b) ∧
      (∀ x, f = some x ∨ b = some x → x ∈ r.vehicles.map Entity.veh ++ r.objects.map Entity.obj ∧ x.isLandmark = false) := by
  obtain ⟨lane, hl⟩ := getLane_of_valid hg.toIsPyGraph hi
  rw [← e] at hl
  obtain ⟨f, b, h1, h2, h3⟩ := neighbours_nearest r v li lane hl
  refine ⟨f, b, h1, fun x hx => ?_⟩
  rcases hx with rfl | rfl
  · obtain ⟨q1, q2, _⟩ := h2.2 x rfl
    exact ⟨q1, q2.2.1⟩
  · obtain ⟨q1, q2, _⟩ := h3.2 x rfl
    exact ⟨q1, q2.2.1⟩

/-- The acceleration of another agent can always be evaluated on a healthy road. -/
private theorem acc_total {G : Globals} {r : Road} (hr : Healthy r) {v : Vehicle}
    (hlin : v.kind.isLinear = true → (∀ w ∈ r.vehicles, w.kind.isControlled = true) ∧ ∀ o ∈ r.objects, o.kind ≠ .obstacle)
    (ego front : Option Entity)
    (he : ∀ x, ego = some x → (∃ w, x = .veh w ∧ w.kind = v.kind) ∨
      (x ∈ r.vehicles.map Entity.veh ++ r.objects.map Entity.obj ∧ x.isLandmark = false)) :
    ∃ a, Vehicle.accelerationOf G v ego front = .ok a := by
  unfold Vehicle.accelerationOf
  split
  · rename_i hl
    obtain ⟨h1, h2⟩ := hlin hl
    split
    · exact ⟨_, rfl⟩
    · rename_i o
      exfalso
      rcases he _ rfl with ⟨w, hw, _⟩ | ⟨hm, hn⟩
      · cases hw
      · simp only [List.mem_append, List.mem_map, reduceCtorEq, and_false, exists_false, Entity.obj.injEq, exists_eq_right,
          false_or] at hm
        have := h2 o hm
        simp only [Entity.isLandmark, decide_eq_false_iff_not] at hn
        cases hk : o.kind
        · exact this hk
        · exact hn hk
    · rename_i e
      have : e.kind.isControlled = true := by
        rcases he _ rfl with ⟨w, hw, hk⟩ | ⟨hm, hn⟩
        · cases hw
          rw [hk]; revert hl; cases v.kind <;> simp [VKind.isLinear, VKind.isControlled]
        · simp only [List.mem_append, List.mem_map, Entity.veh.injEq, exists_eq_right, reduceCtorEq, and_false, exists_false,
            or_false] at hm
          exact h1 e hm
      rw [if_pos this]
      exact ⟨_, rfl⟩
  · split <;> exact ⟨_, rfl⟩

private theorem mobil_total {G : Globals} {r : Road} (hr : Healthy r) {v : Vehicle}
    (hlin : v.kind.isLinear = true → (∀ w ∈ r.vehicles, w.kind.isControlled = true) ∧ ∀ o ∈ r.objects, o.kind ≠ .obstacle)
    (hh : ValidIndex r.network v.laneIndex) {i : LaneIndex} (hi : ValidIndex r.network i) : ∃ b, v.mobil G r i = .ok b := by
  unfold Vehicle.mobil
  obtain ⟨f, b, h1, h2⟩ := nb_total hr.wf v hi (some i) rfl
  obtain ⟨f', b', h1', h2'⟩ := nb_total hr.wf v hh none rfl
  have self : ∀ x, some (Entity.veh v) = some x → (∃ w, x = Entity.veh w ∧ w.kind = v.kind) ∨
      (x ∈ r.vehicles.map Entity.veh ++ r.objects.map Entity.obj ∧ x.isLandmark = false) :=
    fun x hx => .inl ⟨v, by cases hx; rfl, rfl⟩
  have rear : ∀ x, b = some x → (∃ w, x = Entity.veh w ∧ w.kind = v.kind) ∨
      (x ∈ r.vehicles.map Entity.veh ++ r.objects.map Entity.obj ∧ x.isLandmark = false) := fun x hx => .inr (h2 x (.inr hx))
  have rear' : ∀ x, b' = some x → (∃ w, x = Entity.veh w ∧ w.kind = v.kind) ∨
      (x ∈ r.vehicles.map Entity.veh ++ r.objects.map Entity.obj ∧ x.isLandmark = false) := fun x hx => .inr (h2' x (.inr hx))
  obtain ⟨a1, e1⟩ := acc_total (G := G) hr hlin b f rear
  obtain ⟨a2, e2⟩ := acc_total (G := G) hr hlin b (some (.veh v)) rear
  obtain ⟨a3, e3⟩ := acc_total (G := G) hr hlin (some (.veh v)) f self
  obtain ⟨a4, e4⟩ := acc_total (G := G) hr hlin (some (.veh v)) f' self
  obtain ⟨a5, e5⟩ := acc_total (G := G) hr hlin b' (some (.veh v)) rear'
  obtain ⟨a6, e6⟩ := acc_total (G := G) hr hlin b' f' rear'
  simp only [h1, h1', e1, e2, e3, e4, e5, e6, bind, Except.bind]
  split
  · exact ⟨_, rfl⟩
  · split
    · split
      · exact ⟨_, rfl⟩
      · split <;> exact ⟨_, rfl⟩
    · split <;> exact ⟨_, rfl⟩

private theorem sideLanes_total {g : Graph} (hg : WellFormed g) {i : LaneIndex} (hi : ValidIndex g i) :
    ∃ l, g.sideLanes i = .ok l ∧ ∀ j ∈ l, ValidIndex g j := by
  obtain ⟨k, l, hk, ls, hr, hl⟩ := hi
  have hlen : k < ls.length := (List.getElem?_eq_some_iff.1 hl).1
  unfold sideLanes
  rw [(lanesOf_ok_iff hg.toIsPyGraph).2 hr]
  refine ⟨_, rfl, fun j hj => ?_⟩
  simp only [List.mem_append] at hj
  rcases hj with hj | hj
  · split at hj
    · simp only [List.mem_singleton] at hj
      subst hj
      refine ⟨k - 1, ls[k - 1], ?_, ls, hr, List.getElem?_eq_getElem (by omega)⟩
      simp only; omega
    · cases hj
  · split at hj
    · simp only [List.mem_singleton] at hj
      subst hj
      have : k + 1 < ls.length := by omega
      refine ⟨k + 1, ls[k + 1], ?_, ls, hr, List.getElem?_eq_getElem this⟩
      simp only; omega
    · cases hj

private theorem policy_total {G : Globals} {r : Road} (hr : Healthy r) {v : Vehicle}
    (hlin : v.kind.isLinear = true → (∀ w ∈ r.vehicles, w.kind.isControlled = true) ∧ ∀ o ∈ r.objects, o.kind ≠ .obstacle)
    (hh : ValidIndex r.network v.laneIndex) : ∃ w, v.maybeChangeLane G r = .ok w := by
  unfold Vehicle.maybeChangeLane
  split
  · unfold Vehicle.changeLanePolicy
    split
    · split
      · split <;> exact ⟨_, rfl⟩
      · exact ⟨_, rfl⟩
    · split
      · obtain ⟨sides, h1, h2⟩ := sideLanes_total hr.wf hh
        simp only [h1, bind, Except.bind]
        obtain ⟨w, hw, _⟩ := Road.foldlM_total (f := Vehicle.considerLane G r)
          (I := fun w : Vehicle => w.kind = v.kind ∧ w.laneIndex = v.laneIndex) sides (by
            rintro w i hi ⟨hk, hl⟩
            unfold Vehicle.considerLane
            obtain ⟨l, hl'⟩ := getLane_of_valid hr.wf.toIsPyGraph (h2 i hi)
            simp only [hl', bind, Except.bind]
            split
            · obtain ⟨b, hb⟩ := mobil_total (G := G) hr (v := w) (by rw [hk]; exact hlin) (by rw [hl]; exact hh) (h2 i hi)
              simp only [hb]
              split
              · exact ⟨_, rfl, hk, hl⟩
              · exact ⟨_, rfl, hk, hl⟩
            · exact ⟨_, rfl, hk, hl⟩) { v with timer := 0 } ⟨rfl, rfl⟩
        exact ⟨w, hw⟩
      · exact ⟨_, rfl⟩
  · exact ⟨_, rfl⟩

/-- On a healthy road, a vehicle of the road accepting the action can always decide. -/
theorem act_never_raises (G : Globals) (r : Road) (hr : Healthy r) (v : Vehicle) (hv : v ∈ r.vehicles) (a : VAction)
    (ha : Accepts v a) : ∃ p, v.act G r a = .ok p := by
  obtain ⟨hat, hro⟩ := hr.attached v hv
  have hidm : v.kind.isIDM = true → ∃ p, v.idmAct G r = .ok p := by
    intro hk
    unfold Vehicle.idmAct
    split
    · exact ⟨_, rfl⟩
    · have hlin : v.kind.isLinear = true →
          (∀ w ∈ r.vehicles, w.kind.isControlled = true) ∧ ∀ o ∈ r.objects, o.kind ≠ .obstacle := fun h => hr.linear ⟨v, hv, h⟩
      obtain ⟨f, b, h1, h2⟩ := nb_total hr.wf v hat.here none rfl
      obtain ⟨⟨v1, rng1⟩, h3⟩ := Vehicle.followRoad_total hr.wf r.rng hat.target hro
      obtain ⟨t0, route, hv1, c1, c2, c3⟩ := Vehicle.followRoad_ok hr.wf hat.target h3
      have hk1 : v1.kind = v.kind := by rw [hv1]
      have hl1 : v1.laneIndex = v.laneIndex := by rw [hv1]
      have ht1 : ValidIndex r.network v1.targetLane := by rw [hv1]; exact c1
      obtain ⟨v2, h4⟩ := policy_total (G := G) hr (v := v1) (by rw [hk1]; exact hlin) (by rw [hl1]; exact hat.here)
      obtain ⟨t, tm, hv2, d1, _⟩ := Vehicle.maybeChangeLane_ok hr.wf (by rw [hl1]; exact hat.here) ht1 h4
      have hk2 : v2.kind = v.kind := by rw [hv2]; exact hk1
      obtain ⟨st, h5⟩ := Vehicle.steeringControl_total hr.wf (v := v2) (i := v2.targetLane) (by rw [hv2]; exact d1)
      obtain ⟨ac, h6⟩ := acc_total (G := G) hr (v := v2) (by rw [hk2]; exact hlin) (some (.veh v2)) f
        (fun x hx => .inl ⟨v2, by cases hx; rfl, rfl⟩)
      simp only [h1, h3, h4, h5, h6, bind, Except.bind]
      exact ⟨_, rfl⟩
  have hcon : ∀ w : Vehicle, w.targetLane = v.targetLane → w.route = v.route → ∀ b,
      ∃ p, w.controlledAct r.network r.rng b = .ok p := by
    intro w h1 h2 b
    exact Vehicle.controlledAct_total hr.wf r.rng b (by rw [h1]; exact hat.target) (by rw [h2]; exact hro)
  unfold Vehicle.act
  unfold Accepts at ha
  rcases hk : v.kind
  case plain =>
    rw [hk] at ha
    rcases ha with ha | rfl | ⟨s, c, rfl⟩
    · cases ha
    · exact ⟨_, rfl⟩
    · exact ⟨_, rfl⟩
  case bicycle =>
    rw [hk] at ha
    rcases ha with ha | rfl | ⟨s, c, rfl⟩
    · cases ha
    · exact ⟨_, rfl⟩
    · exact ⟨_, rfl⟩
  case controlled => exact hcon v rfl rfl a
  case mdp =>
    dsimp only
    unfold Vehicle.mdpAct
    split
    · exact hcon (v.setSpeedIndex G _) rfl rfl _
    · exact hcon (v.setSpeedIndex G _) rfl rfl _
    · exact hcon _ rfl rfl _
  all_goals exact hidm (by rw [hk]; rfl)

/-- `act` leaves the yield marks alone. -/
private theorem act_yield {G : Globals} {r : Road} (hg : WellFormed r.network) {v v' : Vehicle} {a : VAction} {rng' : Rng}
    (hv : Attached r.network v) (h : v.act G r a = .ok (v', rng')) :
    v'.isYielding = v.isYielding ∧ v'.hasColor = v.hasColor ∧ Attached r.network v' ∧
      (v'.route.getD [] <:+ v.route.getD []) := by
  have key : v'.isYielding = v.isYielding ∧ v'.hasColor = v.hasColor ∧ ValidIndex r.network v'.targetLane ∧
      (v'.route.getD [] <:+ v.route.getD []) := by
    unfold Vehicle.act at h
    split at h
    · split at h <;> cases h <;> exact ⟨rfl, rfl, hv.target, List.suffix_refl _⟩
    · split at h <;> cases h <;> exact ⟨rfl, rfl, hv.target, List.suffix_refl _⟩
    · obtain ⟨t0, route, t, ts, st, rfl, h1, h2, h3, h4, h5, h6, h7⟩ := Vehicle.controlledAct_ok hg hv.target h
      exact ⟨rfl, rfl, h3, h4⟩
    · unfold Vehicle.mdpAct at h
      split at h
      · obtain ⟨t0, route, t, ts, st, rfl, h1, h2, h3, h4, h5, h6, h7⟩ :=
          Vehicle.controlledAct_ok (v := v.setSpeedIndex G _) hg hv.target h
        exact ⟨rfl, rfl, h3, h4⟩
      · obtain ⟨t0, route, t, ts, st, rfl, h1, h2, h3, h4, h5, h6, h7⟩ :=
          Vehicle.controlledAct_ok (v := v.setSpeedIndex G _) hg hv.target h
        exact ⟨rfl, rfl, h3, h4⟩
      · obtain ⟨t0, route, t, ts, st, rfl, h1, h2, h3, h4, h5, h6, h7⟩ := Vehicle.controlledAct_ok hg hv.target h
        exact ⟨rfl, rfl, h3, h4⟩
    · rcases hc : v.crashed
      · obtain ⟨t0, route, t, tm, st, acc, rfl, h1, h2, h3, h4, h5, h6, h7, h8⟩ :=
          Vehicle.idmAct_ok hg hv.here hv.target hc h
        exact ⟨rfl, rfl, h3, h4⟩
      · unfold Vehicle.idmAct at h
        rw [if_pos hc] at h
        cases h; exact ⟨rfl, rfl, hv.target, List.suffix_refl _⟩
  have hb := Vehicle.act_body h
  exact ⟨key.1, key.2.1, ⟨by rw [hb.laneIndex]; exact hv.here, by rw [hb.laneIndex, hb.lane]; exact hv.lane, key.2.2.1⟩, key.2.2.2⟩

/-- What a healthy regulated road asks of each vehicle. -/
private def Orderly (g : Graph) (v : Vehicle) : Prop :=
  Attached g v ∧ v.kind.isControlled = true ∧ RoutePrecise g v.route ∧ (v.isYielding = true → v.hasColor = true)

private theorem orderly_kept (G : Globals) (g : Graph) (hg : WellFormed g) : Road.Kept G g (Orderly g) where
  act r v v' a rng' e hv h := by
    subst e
    obtain ⟨h1, h2, h3, h4⟩ := hv
    obtain ⟨a1, a2, a3, a4⟩ := act_yield hg h1 h
    exact ⟨a3, by rw [(Vehicle.act_body h).kind]; exact h2, fun s hs => h3 s (a4.subset hs), by rw [a1, a2]; exact h4⟩
  release v v' hv h := by
    obtain ⟨h1, h2, h3, h4⟩ := hv
    unfold Road.release at h
    split at h
    · split at h
      · split at h
        · cases h; exact ⟨⟨h1.here, h1.lane, h1.target⟩, h2, h3, fun h => absurd h (by simp)⟩
        · cases h
      · cases h; exact ⟨⟨h1.here, h1.lane, h1.target⟩, h2, h3, h4⟩
    · cases h; exact ⟨h1, h2, h3, h4⟩
  markYield v hv := by
    obtain ⟨h1, h2, h3, h4⟩ := hv
    unfold Road.markYield
    split
    · exact ⟨⟨h1.here, h1.lane, h1.target⟩, h2, h3, fun _ => rfl⟩
    · exact ⟨h1, h2, h3, h4⟩
  step rec dt v v' hv h := by
    obtain ⟨h1, h2, h3, h4⟩ := hv
    have hm := Vehicle.step_mind h
    obtain ⟨i, l, hist, hi, hl, e⟩ := Vehicle.step_ok h
    refine ⟨⟨by rw [e]; exact closest_spec hi, by rw [e]; exact hl, by rw [hm.targetLane]; exact h1.target⟩, ?_, ?_, ?_⟩
    · rw [hm.kind]; exact h2
    · rw [hm.route]; exact h3
    · rw [hm.isYielding, hm.hasColor]; exact h4
  collide v s hv _ := by
    obtain ⟨h1, h2, h3, h4⟩ := hv
    exact ⟨⟨h1.here, h1.lane, h1.target⟩, h2, h3, h4⟩

private theorem os_kinds {os os' : List RoadObject} (h : Road.OsEvolves os os') :
    Pointwise (fun o o' : RoadObject => o'.kind = o.kind) os os' := by
  unfold Road.OsEvolves at h
  induction h with
  | nil => exact ⟨rfl, by simp⟩
  | cons h _ ih =>
    refine ⟨by simp [ih.1], fun i o ho => ?_⟩
    cases i with
    | zero =>
      simp only [List.getElem?_cons_zero, Option.some.injEq] at ho
      subst ho
      exact ⟨_, rfl, by unfold Road.Marked at h; obtain ⟨b, rfl, _⟩ := h; rfl⟩
    | succ i => simpa using ih.2 i o (by simpa using ho)

/-- Classes of vehicles and kinds of objects never change. -/
theorem event_kinds {G : Globals} {r r' : Road} (h : RoadEvent G r r') :
    Pointwise (fun v w : Vehicle => w.kind = v.kind) r.vehicles r'.vehicles ∧
    Pointwise (fun o o' : RoadObject => o'.kind = o.kind) r.objects r'.objects ∧ r'.regulated = r.regulated := by
  have orefl : Pointwise (fun o o' : RoadObject => o'.kind = o.kind) r.objects r.objects := .refl' (R := fun o o' : RoadObject => o'.kind = o.kind) (fun _ => rfl) _
  cases h with
  | actAt i a h =>
    obtain ⟨h1, h2⟩ := Road.actAt_frame h
    exact ⟨h1.mono fun _ _ h => h.kind, by rw [h2.objects]; exact orefl, h2.regulated⟩
  | act h =>
    obtain ⟨h1, h2⟩ := Road.act_frame h
    exact ⟨h1.mono fun _ _ h => h.kind, by rw [h2.objects]; exact orefl, h2.regulated⟩
  | step dt h =>
    obtain ⟨h1, _, _, h4, _, h6⟩ := Road.step_frame h
    refine ⟨h1.mono ?_, ?_, h4⟩
    · rintro v w ⟨u, hu, hs⟩
      exact hs.mind.2.1.trans hu.body.kind
    · exact os_kinds h6

private theorem mem_of_pointwise {α β : Type} {R : α → β → Prop} {vs : List α} {ws : List β} (h : Pointwise R vs ws) {w : β}
    (hw : w ∈ ws) : ∃ v ∈ vs, R v w := by
  obtain ⟨i, hi, rfl⟩ := List.mem_iff_getElem.1 hw
  have hi' : i < vs.length := h.1 ▸ hi
  obtain ⟨w', hw', hr⟩ := h.2 i vs[i] (List.getElem?_eq_getElem hi')
  rw [List.getElem?_eq_getElem hi] at hw'
  cases hw'
  exact ⟨_, List.getElem_mem hi', hr⟩

/-- No obstacle ever appears. -/
theorem no_obstacle_run {G : Globals} {r r' : Road} (h : RoadRun G r r') (h0 : ∀ o ∈ r.objects, o.kind ≠ .obstacle) :
    ∀ o ∈ r'.objects, o.kind ≠ .obstacle := by
  induction h with
  | refl => exact h0
  | tail _ hev ih =>
    intro o ho
    obtain ⟨x, hx, e⟩ := mem_of_pointwise (event_kinds hev).2.1 ho
    rw [e]; exact ih x hx

/-- Healthy roads stay healthy, whatever happens. -/
theorem healthy_forever (G : Globals) (r r' : Road) (hr : Healthy r) (h : RoadRun G r r') : Healthy r' := by
  have one : ∀ r r' : Road, Healthy r → RoadEvent G r r' → Healthy r' := by
    intro r r' hr hev
    have hrun : RoadRun G r r' := .tail (.refl r) hev
    obtain ⟨hn, hat⟩ := always_attached G r r' hr.wf hr.attached hrun
    obtain ⟨k1, k2, k3⟩ := event_kinds hev
    refine ⟨by rw [hn]; exact hr.wf, by rw [hn]; exact hat, ?_, ?_⟩
    · rintro ⟨v, hv, hl⟩
      obtain ⟨u, hu, e⟩ := mem_of_pointwise k1 hv
      rw [e] at hl
      obtain ⟨a1, a2⟩ := hr.linear ⟨u, hu, hl⟩
      refine ⟨fun w hw => ?_, fun o ho => ?_⟩
      · obtain ⟨x, hx, e⟩ := mem_of_pointwise k1 hw
        rw [e]; exact a1 x hx
      · obtain ⟨x, hx, e⟩ := mem_of_pointwise k2 ho
        rw [e]; exact a2 x hx
    · intro hreg v hv
      rw [k3] at hreg
      have := ((orderly_kept G r.network hr.wf).run hrun
        (fun v hv => ⟨(hr.attached v hv).1, hr.regulated hreg v hv⟩)).2 v hv
      rw [hn]
      exact this.2
  induction h with
  | refl => exact hr
  | tail _ hev ih => exact one _ _ ih hev

/-- Vehicles only ever drop the beginning of their route: what holds of the ends of routes lasts. -/
theorem route_forever (G : Globals) (R : Option (List RouteStep) → Prop) (hR : ∀ p q, (q.getD [] <:+ p.getD []) → R p → R q) (r r' : Road)
    (hg : WellFormed r.network) (hv : ∀ v ∈ r.vehicles, Attached r.network v ∧ R v.route) (h : RoadRun G r r') :
    ∀ v ∈ r'.vehicles, Attached r.network v ∧ R v.route := by
  have kept : Road.Kept G r.network (fun v => Attached r.network v ∧ R v.route) :=
    { act := fun r v v' a rng' e hv h => by
        obtain ⟨h1, h3⟩ := hv
        rw [← e] at hg h1 ⊢
        obtain ⟨a1, a2, a3, a4⟩ := act_yield hg h1 h
        exact ⟨a3, hR _ _ a4 h3⟩
      release := fun v v' hv h => by
        obtain ⟨h1, h3⟩ := hv
        unfold Road.release at h
        split at h
        · split at h
          · split at h
            · cases h; exact ⟨⟨h1.here, h1.lane, h1.target⟩, h3⟩
            · cases h
          · cases h; exact ⟨⟨h1.here, h1.lane, h1.target⟩, h3⟩
        · cases h; exact ⟨h1, h3⟩
      markYield := fun v hv => by
        obtain ⟨h1, h3⟩ := hv
        unfold Road.markYield
        split
        · exact ⟨⟨h1.here, h1.lane, h1.target⟩, h3⟩
        · exact ⟨h1, h3⟩
      step := fun rec dt v v' hv h => by
        obtain ⟨h1, h3⟩ := hv
        have hm := Vehicle.step_mind h
        obtain ⟨i, l, hist, hi, hl, e⟩ := Vehicle.step_ok h
        exact ⟨⟨by rw [e]; exact closest_spec hi, by rw [e]; exact hl, by rw [hm.targetLane]; exact h1.target⟩, by rw [hm.route]; exact h3⟩
      collide := fun v s hv _ => ⟨⟨hv.1.here, hv.1.lane, hv.1.target⟩, hv.2⟩ }
  exact (kept.run h hv).2

/-- Routes whose lanes can be looked up stay so. -/
theorem precise_forever (G : Globals) (r r' : Road) (hg : WellFormed r.network)
    (hv : ∀ v ∈ r.vehicles, Attached r.network v ∧ RoutePrecise r.network v.route) (h : RoadRun G r r') :
    ∀ v ∈ r'.vehicles, Attached r.network v ∧ RoutePrecise r.network v.route :=
  route_forever G (RoutePrecise r.network) (fun _ _ hs hp s h => hp s (hs.subset h)) r r' hg hv h

theorem routeEnd_of_precise {g : Graph} {route : Option (List RouteStep)} (h : RoutePrecise g route) : RouteEnd g route :=
  fun s hs => h s (List.mem_of_getLast? hs)

/-- Routes whose last lane can be looked up stay so. -/
theorem routeEnd_forever (G : Globals) (r r' : Road) (hg : WellFormed r.network)
    (hv : ∀ v ∈ r.vehicles, Attached r.network v ∧ RouteEnd r.network v.route) (h : RoadRun G r r') :
    ∀ v ∈ r'.vehicles, Attached r.network v ∧ RouteEnd r.network v.route := by
  refine route_forever G (RouteEnd r.network) (fun p q hs hp s h => hp s ?_) r r' hg hv h
  obtain ⟨l, hl⟩ := hs
  rw [← hl, List.getLast?_append, h]
  rfl

/-- `road.act()` never raises on a healthy road. -/
theorem roadAct_never_raises (G : Globals) (r : Road) (hr : Healthy r) : ∃ r', r.act G = .ok r' := by
  unfold Road.act
  obtain ⟨r', h, _⟩ := Road.foldlM_total (f := Road.actAt G .none) (I := Healthy) (List.range r.vehicles.length) (by
    intro s i _ hs
    have : ∃ s', s.actAt G .none i = .ok s' := by
      unfold Road.actAt
      split
      · exact ⟨_, rfl⟩
      · rename_i v hv
        obtain ⟨⟨w, rng⟩, hw⟩ := act_never_raises G s hs v (List.mem_of_getElem? hv) .none (.inr (.inl rfl))
        simp only [hw, bind, Except.bind]
        exact ⟨_, rfl⟩
    obtain ⟨s', hs'⟩ := this
    exact ⟨s', hs', healthy_forever G s s' hs (.tail (.refl s) (.actAt i .none hs'))⟩) r hr
  exact ⟨r', h⟩

theorem vstep_total {g : Graph} (hg : WellFormed g) {v : Vehicle} (hv : Attached g v) (rec : Bool) (dt : ℝ) :
    ∃ w, v.step g rec dt = .ok w := by
  obtain ⟨k, l, _, hl⟩ := hv.here
  obtain ⟨i, hi⟩ := closest_ok_of_exists hl (v.move dt).pos (some (v.move dt).heading)
  obtain ⟨li, hli⟩ := getLane_of_valid hg.toIsPyGraph (closest_spec hi)
  unfold Vehicle.step Vehicle.onStateUpdate
  simp only [hi, hli, bind, Except.bind]
  exact ⟨_, rfl⟩

private theorem stepBase_total {r : Road} (hg : WellFormed r.network) (hv : ∀ v ∈ r.vehicles, Attached r.network v) (dt : ℝ) :
    ∃ r', r.stepBase dt = .ok r' := by
  obtain ⟨vs, hvs⟩ := mapM_ok (f := Vehicle.step r.network r.recordHistory dt) r.vehicles
    fun v h => vstep_total hg (hv v h) _ _
  unfold Road.stepBase Road.moveAll
  simp only [hvs, bind, Except.bind, pure, Except.pure]
  exact ⟨_, rfl⟩

private theorem along_total {g : Graph} (route : List RouteStep) (hne : route ≠ []) (h : ∀ s ∈ route, ∃ l, g.getLaneStep s = .ok l)
    (lon lat : ℝ) : ∃ p, g.positionHeadingAlongRoute route lon lat = .ok p := by
  induction route generalizing lon with
  | nil => exact absurd rfl hne
  | cons s rest ih =>
    obtain ⟨l, hl⟩ := h s (by simp)
    cases rest with
    | nil =>
      unfold positionHeadingAlongRoute
      simp only [hl, bind, Except.bind]
      exact ⟨_, rfl⟩
    | cons t rest =>
      unfold positionHeadingAlongRoute
      simp only [hl, bind, Except.bind]
      split
      · exact ih (by simp) (fun s hs => h s (by simp [hs])) _
      · exact ⟨_, rfl⟩

private theorem predict_total {g : Graph} {v : Vehicle} (hv : Orderly g v) (times : List ℝ) :
    ∃ p, v.predictConstantSpeed g times = .ok p := by
  obtain ⟨h1, h2, h3, h4⟩ := hv
  unfold Vehicle.predictConstantSpeed
  rw [if_pos h2]
  dsimp only
  apply mapM_ok
  intro t _
  apply along_total
  · split <;> simp
  · intro s hs
    split at hs
    · rename_i e
      exact h3 s (by rw [e]; exact hs)
    · simp only [List.mem_singleton] at hs
      subst hs
      exact ⟨v.lane, h1.lane⟩

private theorem enforce_total {r : Road} (G : Globals) (hg : WellFormed r.network) (hv : ∀ v ∈ r.vehicles, Orderly r.network v) :
    ∃ r', r.enforceRoadRules = .ok r' := by
  have hk := orderly_kept G r.network hg
  have hrel : ∀ v ∈ r.vehicles, ∃ w, Road.release v = .ok w := by
    intro v hvm
    obtain ⟨h1, h2, h3, h4⟩ := hv v hvm
    unfold Road.release
    split
    · rename_i hy
      rw [if_pos (h4 hy)]
      split <;> exact ⟨_, rfl⟩
    · exact ⟨_, rfl⟩
  obtain ⟨vs, hvs⟩ := mapM_ok (f := Road.release) r.vehicles hrel
  have hvs' : ∀ v ∈ vs, Orderly r.network v := (mapM_pointwise hvs).forall (fun v w h hv => hk.release v w hv h) hv
  obtain ⟨ws, hws, _⟩ := Road.foldlM_total (f := Road.resolvePair r.network)
    (I := fun vs : List Vehicle => ∀ v ∈ vs, Orderly r.network v) (Road.pairs vs.length) (by
      intro us ij _ hus
      have : ∃ us', Road.resolvePair r.network us ij = .ok us' := by
        unfold Road.resolvePair
        split
        · rename_i v w hv hw
          obtain ⟨p1, e1⟩ := predict_total (hus v (List.mem_of_getElem? hv)) Road.conflictTimes
          obtain ⟨p2, e2⟩ := predict_total (hus w (List.mem_of_getElem? hw)) Road.conflictTimes
          unfold Road.isConflictPossible
          simp only [e1, e2, bind, Except.bind, pure, Except.pure]
          split
          · split <;> exact ⟨_, rfl⟩
          · exact ⟨_, rfl⟩
        · exact ⟨_, rfl⟩
      obtain ⟨us', h⟩ := this
      refine ⟨us', h, ?_⟩
      unfold Road.resolvePair at h
      split at h
      · rename_i v w hv hw
        obtain ⟨c, _, h⟩ := bind_ok h
        split at h
        · split at h
          · cases h; exact Road.forall_set hus (hk.markYield _ (hus _ (List.mem_of_getElem? hv)))
          · cases h; exact Road.forall_set hus (hk.markYield _ (hus _ (List.mem_of_getElem? hw)))
        · cases h; exact hus
      · cases h; exact hus) vs hvs'
  unfold Road.enforceRoadRules
  simp only [hvs, hws, bind, Except.bind]
  exact ⟨_, rfl⟩

/-- `road.step(dt)` never raises on a healthy road, for an accepted duration. -/
theorem roadStep_never_raises (r : Road) (hr : Healthy r) (dt : ℝ) (hdt : AcceptsDt r dt) : ∃ r', r.step dt = .ok r' := by
  have hat : ∀ v ∈ r.vehicles, Attached r.network v := fun v hv => (hr.attached v hv).1
  unfold Road.step
  split
  · rename_i hreg
    obtain ⟨d0, d1⟩ := hdt hreg
    unfold Road.stepRegulated
    have hp : pyInt (1 / dt / (Road.REGULATION_FREQUENCY : ℝ)) ≠ 0 := by
      have h1 : (1 : ℝ) ≤ 1 / dt / (Road.REGULATION_FREQUENCY : ℝ) := by
        unfold Road.REGULATION_FREQUENCY
        push_cast
        rw [div_div, le_div_iff₀ (by linarith)]
        linarith
      unfold pyInt
      rw [if_pos (by linarith)]
      have := Int.le_floor.2 (by exact_mod_cast h1 : ((1 : Int) : ℝ) ≤ _)
      omega
    dsimp only
    rw [if_neg hp]
    have hor : ∀ v ∈ r.vehicles, Orderly r.network v := fun v hv => ⟨hat v hv, hr.regulated hreg v hv⟩
    have : ∃ s, Road.maybeEnforce { r with steps := r.steps + 1 } (pyInt (1 / dt / (Road.REGULATION_FREQUENCY : ℝ))) = .ok s ∧
        s.network = r.network ∧ ∀ v ∈ s.vehicles, Attached r.network v := by
      unfold Road.maybeEnforce
      split
      · obtain ⟨s, hs⟩ := enforce_total {} (r := { r with steps := r.steps + 1 }) hr.wf hor
        refine ⟨s, hs, (Road.enforce_frame hs).2.1.network, fun v hv => ?_⟩
        exact ((orderly_kept {} r.network hr.wf).enforce (r := { r with steps := r.steps + 1 }) hs hor v hv).1
      · exact ⟨_, rfl, rfl, hat⟩
    obtain ⟨s, hs, hn, ha⟩ := this
    simp only [hs, bind, Except.bind]
    exact stepBase_total (by rw [hn]; exact hr.wf) (by rw [hn]; exact ha) dt
  · exact stepBase_total hr.wf hat dt

/-- C75.  From a healthy road, after any history, every further operation that callers may ask for succeeds: any accepted action of
any vehicle, the decisions of all vehicles, and any accepted step. -/
theorem never_raises (G : Globals) (r r' : Road) (hr : Healthy r) (h : RoadRun G r r') :
    (∀ i v a, r'.vehicles[i]? = some v → Accepts v a → ∃ r'', r'.actAt G a i = .ok r'') ∧
    (∃ r'', r'.act G = .ok r'') ∧ (∀ dt, AcceptsDt r' dt → ∃ r'', r'.step dt = .ok r'') := by
  have hr' := healthy_forever G r r' hr h
  refine ⟨fun i v a hv ha => ?_, roadAct_never_raises G r' hr', fun dt hdt => roadStep_never_raises r' hr' dt hdt⟩
  obtain ⟨⟨w, rng⟩, hw⟩ := act_never_raises G r' hr' v (List.mem_of_getElem? hv) a ha
  unfold Road.actAt
  simp only [hv, hw, bind, Except.bind]
  exact ⟨_, rfl⟩

/-- A regulated two-lane road with an ego vehicle and a traffic vehicle is healthy. -/
theorem sample_healthy (b : Bool) :
    Healthy { network := Sample.net, rng := ⟨fun _ => 0, fun _ => 0, 0, 0⟩, regulated := b
              vehicles := [Sample.car 0 .mdp 10 0 20, Sample.car 1 .idm 40 0 10] } := by
  have hv : ∀ u k x, Attached Sample.net (Sample.car u k x 0 10) ∧ Attached Sample.net (Sample.car u k x 0 20) := fun u k x =>
    ⟨⟨⟨0, _, rfl, Sample.net_has0⟩, getLane_of_hasLane (k := 0) Sample.net_py rfl Sample.net_has0, ⟨0, _, rfl, Sample.net_has0⟩⟩,
     ⟨⟨0, _, rfl, Sample.net_has0⟩, getLane_of_hasLane (k := 0) Sample.net_py rfl Sample.net_has0, ⟨0, _, rfl, Sample.net_has0⟩⟩⟩
  refine ⟨Sample.net_wf, ?_, ?_, ?_⟩
  · intro v hvm
    simp only [List.mem_cons, List.not_mem_nil, or_false] at hvm
    rcases hvm with rfl | rfl
    · exact ⟨(hv _ _ _).2, by simp [RouteExists, Sample.car]⟩
    · exact ⟨(hv _ _ _).1, by simp [RouteExists, Sample.car]⟩
  · simp [Sample.car, VKind.isLinear]
  · intro _ v hvm
    simp only [List.mem_cons, List.not_mem_nil, or_false] at hvm
    rcases hvm with rfl | rfl <;> exact ⟨rfl, by simp [RoutePrecise, Sample.car], by simp [Sample.car]⟩

/-- The conditions are needed: a linear-model vehicle evaluating a follower that has no target speed raises `AttributeError`. -/
theorem linear_needs_controlled (G : Globals) (v w : Vehicle) (f : Option Entity) (hv : v.kind.isLinear = true)
    (hw : w.kind.isControlled = false) : Vehicle.accelerationOf G v (some (.veh w)) f = .error .attributeError := by
  unfold Vehicle.accelerationOf
  rw [if_pos hv]
  simp [hw]

/-- The conditions are needed: a regulated road stepped with `dt > 1/2` divides by zero. -/
theorem regulated_needs_small_dt (r : Road) (hr : r.regulated = true) (dt : ℝ) (h : 1 / 2 < dt) :
    r.step dt = .error .zeroDivisionError := by
  unfold Road.step
  rw [if_pos hr]
  unfold Road.stepRegulated
  have hp : pyInt (1 / dt / (Road.REGULATION_FREQUENCY : ℝ)) = 0 := by
    have h0 : (0 : ℝ) ≤ 1 / dt / (Road.REGULATION_FREQUENCY : ℝ) := by
      unfold Road.REGULATION_FREQUENCY; positivity
    unfold pyInt
    rw [if_pos h0, Int.floor_eq_zero_iff]
    refine ⟨h0, ?_⟩
    unfold Road.REGULATION_FREQUENCY
    push_cast
    rw [div_div, div_lt_one (by linarith)]
    linarith
  dsimp only
  rw [if_pos hp]

end HighwayEnv.Props
