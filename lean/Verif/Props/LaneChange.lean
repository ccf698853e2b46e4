import Verif.Lemmas.Acted
import Verif.Props.Behavior

/-!
# C38, C39: lane changes of traffic vehicles
-/

noncomputable section
open Classical
namespace HighwayEnv.Props
open HighwayEnv Spec

/-! ## C39 — what a lane change decision guarantees -/

/-- The conditions of the lane change model MOBIL for a change of vehicle `v` to lane `i`, as described in the documentation:
* the follower on the new lane, if it is a vehicle, would not have to brake harder than allowed because of `v`;
* if the route of `v` asks for a (non-zero) lane number, `v` itself would not have to brake harder than allowed;
  otherwise the change gives `v` at least the minimum acceleration gain. -/
def MobilAccepts (G : Globals) (r : Road) (v : Vehicle) (i : LaneIndex) : Prop :=
  ∃ newLane oldLane newFront newRear oldFront,
    r.network.getLane i = .ok newLane ∧ r.network.getLane v.laneIndex = .ok oldLane ∧
    NearestAhead newLane v.uid (newLane.localCoordinates v.pos).1 (r.vehicles.map .veh ++ r.objects.map .obj) newFront ∧
    NearestBehind newLane v.uid (newLane.localCoordinates v.pos).1 (r.vehicles.map .veh ++ r.objects.map .obj) newRear ∧
    NearestAhead oldLane v.uid (oldLane.localCoordinates v.pos).1 (r.vehicles.map .veh ++ r.objects.map .obj) oldFront ∧
    (∃ a, Vehicle.accelerationOf G v newRear (some (.veh v)) = .ok a ∧ -v.maxBraking ≤ a) ∧
    ∃ a, Vehicle.accelerationOf G v (some (.veh v)) newFront = .ok a ∧
      ((v.routeLane ≠ none ∧ -v.maxBraking ≤ a) ∨
       (v.routeLane = none ∧ ∃ b, Vehicle.accelerationOf G v (some (.veh v)) oldFront = .ok b ∧ Vehicle.minAccGain v.kind ≤ a - b))

private theorem accOf_congr {G : Globals} {self self' : Vehicle} (hk : self'.kind = self.kind) (hp : self'.accParams = self.accParams)
    (e f : Option Entity) : Vehicle.accelerationOf G self' e f = Vehicle.accelerationOf G self e f := by
  unfold Vehicle.accelerationOf
  rw [hk, hp]

private theorem accOf_ego {G : Globals} {self e e' : Vehicle} (hk : e'.kind = e.kind) (ht : e'.targetSpeed = e.targetSpeed)
    (hs : e'.speed = e.speed) (hh : e'.heading = e.heading) (hp : e'.pos = e.pos) (hl : e'.lane = e.lane) (f : Option Entity) :
    Vehicle.accelerationOf G self (some (.veh e')) f = Vehicle.accelerationOf G self (some (.veh e)) f := by
  unfold Vehicle.accelerationOf Vehicle.accelerationFeatures Vehicle.idmAcceleration Vehicle.desiredGap Vehicle.velocity Vehicle.direction
    Vehicle.laneDistanceTo
  simp only [hk, ht, hs, hh, hp, hl]

private theorem accOf_front {G : Globals} {self e e' : Vehicle}
    (hs : e'.speed = e.speed) (hh : e'.heading = e.heading) (hp : e'.pos = e.pos) (f : Option Entity) :
    Vehicle.accelerationOf G self f (some (.veh e')) = Vehicle.accelerationOf G self f (some (.veh e)) := by
  unfold Vehicle.accelerationOf Vehicle.accelerationFeatures Vehicle.idmAcceleration Vehicle.desiredGap Vehicle.velocity Vehicle.direction
    Entity.velocity Entity.speed Entity.pos Vehicle.velocity Vehicle.direction
  simp only [hs, hh, hp]

theorem mobil_accepts {G : Globals} {r : Road} {v : Vehicle} {i : LaneIndex} (h : v.mobil G r i = .ok true) :
    MobilAccepts G r v i := by
  unfold Vehicle.mobil at h
  obtain ⟨⟨nf, nr⟩, h1, h⟩ := bind_ok h
  obtain ⟨a1, h2, h⟩ := bind_ok h
  obtain ⟨a2, h3, h⟩ := bind_ok h
  obtain ⟨nl, hnl, n1, n2⟩ := neighbours_sound r v (some i) nf nr h1
  dsimp only at h
  split at h
  · cases h
  · rename_i hsafe
    obtain ⟨⟨of, or⟩, h4, h⟩ := bind_ok h
    obtain ⟨a3, h5, h⟩ := bind_ok h
    obtain ⟨ol, hol, o1, o2⟩ := neighbours_sound r v none of or h4
    refine ⟨nl, ol, nf, nr, of, hnl, hol, n1, n2, o1, ⟨a2, h3, by linarith⟩, a3, h5, ?_⟩
    split at h
    · rename_i k hk
      split at h
      · cases h
      · split at h
        · cases h
        · left
          exact ⟨by rw [hk]; simp, by linarith⟩
    · rename_i hk
      obtain ⟨a4, h6, h⟩ := bind_ok h
      obtain ⟨a5, h7, h⟩ := bind_ok h
      obtain ⟨a6, h8, h⟩ := bind_ok h
      split at h
      · cases h
      · rename_i hj
        right
        refine ⟨hk, a4, h6, ?_⟩
        unfold Vehicle.POLITENESS at hj
        linarith

/-- Whenever a traffic vehicle decides to change lane, the new lane is beside its lane, can be entered from its position, and the
change satisfies the MOBIL conditions (evaluated for the vehicle with the route left after following the road). -/
theorem lane_change_safe (G : Globals) (r : Road) (hg : WellFormed r.network) (v v' : Vehicle) (a : VAction) (rng' : Rng)
    (hk : v.kind.isIDM = true) (hc : v.crashed = false) (hv : Attached r.network v)
    (h : v.act G r a = .ok (v', rng')) (hd : DecidesToChangeLane r v v') :
    v'.targetLane.src = v.laneIndex.src ∧ v'.targetLane.dst = v.laneIndex.dst ∧
    (v'.targetLane.id = v.laneIndex.id + 1 ∨ v'.targetLane.id = v.laneIndex.id - 1) ∧
    CanEnter r.network v'.targetLane.src v'.targetLane.dst v'.targetLane.id v.pos ∧
    MobilAccepts G r { v with route := v'.route } v'.targetLane := by
  have hi := Vehicle.act_idm hk h
  obtain ⟨w, t, tm, st, acc, front, rear, h1, h2, h3, h4, rfl⟩ := Vehicle.idmAct_shape hc hi
  obtain ⟨w', rng'', d1, d2, d3⟩ := hd
  rw [h1] at d1
  cases d1
  obtain ⟨t1, ro, hw⟩ := Vehicle.followRoad_shape h1
  have hti : w.laneIndex = v.laneIndex := by rw [hw]
  obtain ⟨t', tm', e, hcase⟩ := Vehicle.maybeChangeLane_shape h3
  have et : t = t' := by injection e
  subst et
  dsimp only at d3 ⊢
  rcases hcase with ⟨_, hne, _⟩ | ⟨_, ht⟩ | ⟨heq, htm, _, ht | ⟨t0, l, sides, hs, hmem, hl, hre, hmob⟩⟩
  · exact absurd (hti.trans d2.symm) hne
  · exact absurd (ht.trans d2) d3
  · exact absurd (ht.trans d2) d3
  · rw [hti] at hs
    have hm := mobil_accepts hmob
    have hside : t.src = v.laneIndex.src ∧ t.dst = v.laneIndex.dst ∧ (t.id = v.laneIndex.id + 1 ∨ t.id = v.laneIndex.id - 1) ∧ 0 ≤ t.id := by
      obtain ⟨k, l0, hk0, _⟩ := hv.here
      unfold Graph.sideLanes at hs
      obtain ⟨ls, hls, hs⟩ := bind_ok hs
      cases hs
      simp only [List.mem_append] at hmem
      rcases hmem with hi | hi
      · split at hi
        · simp only [List.mem_singleton] at hi
          subst hi
          exact ⟨rfl, rfl, .inr rfl, by simp only; omega⟩
        · cases hi
      · split at hi
        · simp only [List.mem_singleton] at hi
          subst hi
          exact ⟨rfl, rfl, .inl rfl, by simp only; omega⟩
        · cases hi
    obtain ⟨s1, s2, s3, s4⟩ := hside
    refine ⟨s1, s2, s3, ?_, ?_⟩
    · have := (Vehicle.canEnter_iff hg.toIsPyGraph (p := w.pos) s4 hl).1 hre
      rw [show w.pos = v.pos by rw [hw]] at this
      exact this
    · subst hw
      obtain ⟨nl, ol, nf, nr, of, m1, m2, m3, m4, m5, ⟨a1, m6, m7⟩, a2, m8, m9⟩ := hm
      refine ⟨nl, ol, nf, nr, of, m1, m2, m3, m4, m5, ⟨a1, ?_, m7⟩, a2, ?_, ?_⟩
      · rw [← m6, accOf_congr (self := { v with route := ro }) rfl rfl, accOf_front rfl rfl rfl]; rfl
      · rw [← m8, accOf_congr (self := { v with route := ro }) rfl rfl, accOf_ego rfl rfl rfl rfl rfl rfl]; rfl
      · rcases m9 with ⟨m9, m10⟩ | ⟨m9, b, m10, m11⟩
        · exact .inl ⟨m9, m10⟩
        · refine .inr ⟨m9, b, ?_, m11⟩
          rw [← m10, accOf_congr (self := { v with route := ro }) rfl rfl, accOf_ego rfl rfl rfl rfl rfl rfl]; rfl

/-- The exact rule, with the neighbours that `neighbour_vehicles` returns (C25): the new follower may have to brake at most as hard as imposed; if the route asks for a (non-zero) lane
number the change must go towards it and not make the vehicle brake too hard itself, otherwise it must gain at least the minimum. -/
def MobilRule (G : Globals) (r : Road) (v : Vehicle) (i : LaneIndex) : Prop :=
  ∃ newFront newRear oldFront oldRear a b, r.neighbourVehicles v (some i) = .ok (newFront, newRear) ∧ r.neighbourVehicles v = .ok (oldFront, oldRear) ∧
    Vehicle.accelerationOf G v newRear (some (.veh v)) = .ok a ∧ -v.maxBraking ≤ a ∧
    Vehicle.accelerationOf G v (some (.veh v)) newFront = .ok b ∧
    (∀ k, v.routeLane = some k → Int.sign (i.id - v.targetLane.id) = Int.sign (k - v.targetLane.id) ∧ -v.maxBraking ≤ b) ∧
    (v.routeLane = none → ∃ c, Vehicle.accelerationOf G v (some (.veh v)) oldFront = .ok c ∧ Vehicle.minAccGain v.kind ≤ b - c)

/-- C39, exactly: whenever `mobil` answers, it answers yes if and only if the rule is satisfied. -/
theorem mobil_exact (G : Globals) (r : Road) (v : Vehicle) (i : LaneIndex) (yes : Bool) (h : v.mobil G r i = .ok yes) : yes = true ↔ MobilRule G r v i := by
  unfold Vehicle.mobil at h
  obtain ⟨⟨nf, nr⟩, h1, h⟩ := bind_ok h
  obtain ⟨a1, h2, h⟩ := bind_ok h
  obtain ⟨a2, h3, h⟩ := bind_ok h
  dsimp only at h
  by_cases hsafe : a2 < -v.maxBraking
  · rw [if_pos hsafe] at h
    have hy : yes = false := (Except.ok.inj h).symm
    subst hy
    constructor
    · intro hc; cases hc
    · rintro ⟨nf', nr', of, or, a, b, g1, -, g3, g4, -⟩
      rw [h1] at g1; cases g1
      rw [h3] at g3
      have : a2 = a := Except.ok.inj g3
      subst this
      linarith
  · rw [if_neg hsafe] at h
    obtain ⟨⟨of, or⟩, h4, h⟩ := bind_ok h
    obtain ⟨a3, h5, h⟩ := bind_ok h
    dsimp only at h
    have key : MobilRule G r v i ↔ ((∀ k, v.routeLane = some k → Int.sign (i.id - v.targetLane.id) = Int.sign (k - v.targetLane.id) ∧ -v.maxBraking ≤ a3) ∧
        (v.routeLane = none → ∃ c, Vehicle.accelerationOf G v (some (.veh v)) of = .ok c ∧ Vehicle.minAccGain v.kind ≤ a3 - c)) := by
      constructor
      · rintro ⟨nf', nr', of', or', a, b, g1, g2, -, -, g5, g6, g7⟩
        rw [h1] at g1; cases g1
        rw [h4] at g2; cases g2
        rw [h5] at g5
        have : a3 = b := Except.ok.inj g5
        subst this
        exact ⟨g6, g7⟩
      · rintro ⟨g6, g7⟩
        exact ⟨nf, nr, of, or, a2, a3, h1, h4, h3, not_lt.1 hsafe, h5, g6, g7⟩
    rw [key]
    cases hk : v.routeLane with
    | some k =>
      rw [hk] at h
      dsimp only at h
      simp only [Option.some.injEq, forall_eq', reduceCtorEq, IsEmpty.forall_iff, and_true]
      split at h
      · rename_i hs
        cases h
        simp [hs]
      · rename_i hs
        split at h
        · rename_i hb
          cases h
          simp [hb]
        · rename_i hb
          cases h
          simp only [true_iff]
          exact ⟨not_not.1 hs, not_lt.1 hb⟩
    | none =>
      rw [hk] at h
      dsimp only at h
      obtain ⟨a4, h6, h⟩ := bind_ok h
      obtain ⟨a5, h7, h⟩ := bind_ok h
      obtain ⟨a6, h8, h⟩ := bind_ok h
      simp only [reduceCtorEq, IsEmpty.forall_iff, implies_true, true_and, forall_const]
      have hx : (∃ c, Vehicle.accelerationOf G v (some (.veh v)) of = .ok c ∧ Vehicle.minAccGain v.kind ≤ a3 - c) ↔ Vehicle.minAccGain v.kind ≤ a3 - a4 := by
        constructor
        · rintro ⟨c, g1, g2⟩
          rw [h6] at g1
          have : a4 = c := Except.ok.inj g1
          subst this; exact g2
        · exact fun g => ⟨a4, h6, g⟩
      rw [hx]
      unfold Vehicle.POLITENESS at h
      simp only [zero_mul, add_zero] at h
      split at h
      · rename_i hj
        cases h
        simp [hj]
      · rename_i hj
        cases h
        simp only [true_iff]
        exact not_lt.1 hj

/-- The lane number `id` of its road is one the vehicle would change to. -/
def Wants (G : Globals) (r : Road) (v : Vehicle) (id : Int) : Prop :=
  CanEnter r.network v.laneIndex.src v.laneIndex.dst id v.pos ∧ MobilRule G r v ⟨v.laneIndex.src, v.laneIndex.dst, id⟩

private theorem rule_timer {G : Globals} {r : Road} {v : Vehicle} {i : LaneIndex} (tm : ℝ) : MobilRule G r { v with timer := tm } i ↔ MobilRule G r v i := by
  have e1 : ∀ li, r.neighbourVehicles { v with timer := tm } li = r.neighbourVehicles v li := fun _ => rfl
  have e2 : ∀ f, Vehicle.accelerationOf G { v with timer := tm } f (some (.veh { v with timer := tm })) = Vehicle.accelerationOf G v f (some (.veh v)) := fun f =>
    (accOf_congr (self := v) (self' := { v with timer := tm }) rfl rfl f _).trans (accOf_front rfl rfl rfl f)
  have e3 : ∀ f, Vehicle.accelerationOf G { v with timer := tm } (some (.veh { v with timer := tm })) f = Vehicle.accelerationOf G v (some (.veh v)) f := fun f =>
    (accOf_congr (self := v) (self' := { v with timer := tm }) rfl rfl _ f).trans (accOf_ego rfl rfl rfl rfl rfl rfl f)
  have e4 : Vehicle.routeLane { v with timer := tm } = v.routeLane := rfl
  unfold MobilRule
  simp only [e1, e2, e3, e4]

private theorem consider_exact {G : Globals} {r : Road} (hg : WellFormed r.network) {v w : Vehicle} {id : Int} (h0 : 0 ≤ id)
    (h : Vehicle.considerLane G r v ⟨v.laneIndex.src, v.laneIndex.dst, id⟩ = .ok w) :
    w = if Wants G r v id then { v with targetLane := ⟨v.laneIndex.src, v.laneIndex.dst, id⟩ } else v := by
  unfold Vehicle.considerLane at h
  obtain ⟨l, hl, h⟩ := bind_ok h
  have hce := Vehicle.canEnter_iff hg.toIsPyGraph (p := v.pos) (i := ⟨v.laneIndex.src, v.laneIndex.dst, id⟩) h0 hl
  split at h
  · rename_i hr
    obtain ⟨yes, hm, h⟩ := bind_ok h
    have := mobil_exact G r v _ yes hm
    split at h
    · rename_i hy
      cases h
      rw [if_pos ⟨hce.1 hr, this.1 hy⟩]
    · rename_i hy
      cases h
      rw [if_neg fun hw => hy (this.2 hw.2)]
  · rename_i hr
    cases h
    rw [if_neg fun hw => hr (hce.2 hw.1)]

private theorem wants_timer {G : Globals} {r : Road} {v : Vehicle} {id : Int} (tm : ℝ) : Wants G r { v with timer := tm } id ↔ Wants G r v id := by
  unfold Wants
  exact and_congr Iff.rfl (rule_timer tm)

private theorem stage {G : Globals} {r : Road} (hg : WellFormed r.network) {v w : Vehicle} {id : Int} {c : Prop} [Decidable c] (h0 : c → 0 ≤ id)
    (hn : ¬ c → ¬ CanEnter r.network v.laneIndex.src v.laneIndex.dst id v.pos)
    (h : (if c then [(⟨v.laneIndex.src, v.laneIndex.dst, id⟩ : LaneIndex)] else []).foldlM (Vehicle.considerLane G r) v = .ok w) :
    w = if Wants G r v id then { v with targetLane := ⟨v.laneIndex.src, v.laneIndex.dst, id⟩ } else v := by
  by_cases hc : c
  · rw [if_pos hc, List.foldlM_cons] at h
    obtain ⟨u, hu, h⟩ := bind_ok h
    rw [List.foldlM_nil] at h
    have : u = w := Except.ok.inj h
    subst this
    exact consider_exact hg (h0 hc) hu
  · rw [if_neg hc, List.foldlM_nil] at h
    have : v = w := Except.ok.inj h
    subst this
    rw [if_neg fun hw => hn hc hw.1]

/-- **C39, the exact decision.**  A traffic vehicle that follows its lane (`follow_road` gives its own lane as target) keeps it if lane changes are disabled or the last decision is not more
than one second old.  Otherwise it first considers the lane on the left (number one lower), then, with the target so obtained, the lane on the right: it takes each exactly when it
can be entered from its position and satisfies the rule. -/
theorem lane_change_exact (G : Globals) (r : Road) (hg : WellFormed r.network) (v v' w : Vehicle) (a : VAction) (rng rng' : Rng)
    (hk : v.kind.isIDM = true) (hc : v.crashed = false) (hv : Attached r.network v)
    (h : v.act G r a = .ok (v', rng')) (hf : v.followRoad r.network r.rng = .ok (w, rng)) (hw : w.targetLane = v.laneIndex) :
    (v.enableLaneChange = false ∨ v.timer ≤ 1 → v'.targetLane = v.laneIndex ∧ v'.timer = v.timer) ∧
    (v.enableLaneChange = true → 1 < v.timer →
      v'.timer = 0 ∧ ∃ t : LaneIndex,
        t = (if Wants G r { v with route := v'.route, targetLane := v.laneIndex } (v.laneIndex.id - 1)
          then ⟨v.laneIndex.src, v.laneIndex.dst, v.laneIndex.id - 1⟩ else v.laneIndex) ∧
        v'.targetLane = (if Wants G r { v with route := v'.route, targetLane := t } (v.laneIndex.id + 1)
          then ⟨v.laneIndex.src, v.laneIndex.dst, v.laneIndex.id + 1⟩ else t)) := by
  have hi := Vehicle.act_idm hk h
  obtain ⟨w', t, tm, st, acc, front, rear, h1, h2, h3, h4, rfl⟩ := Vehicle.idmAct_shape hc hi
  rw [hf] at h1
  have hww : w' = w := (congrArg Prod.fst (Except.ok.inj h1)).symm
  subst hww
  obtain ⟨t1, ro, rfl⟩ := Vehicle.followRoad_shape hf
  dsimp only at hw h3 ⊢
  subst hw
  unfold Vehicle.maybeChangeLane Vehicle.changeLanePolicy at h3
  dsimp only at h3
  constructor
  · rintro (he | ht)
    · rw [if_neg (by simp [he])] at h3
      have h3 := Except.ok.inj h3
      exact ⟨(congrArg Vehicle.targetLane h3).symm, (congrArg Vehicle.timer h3).symm⟩
    · by_cases he : v.enableLaneChange = true
      · rw [if_pos he, if_neg (by simp), if_neg (show ¬ doEvery Vehicle.LANE_CHANGE_DELAY v.timer = true from fun hx => absurd (of_decide_eq_true hx) (not_lt.2 ht))] at h3
        have h3 := Except.ok.inj h3
        exact ⟨(congrArg Vehicle.targetLane h3).symm, (congrArg Vehicle.timer h3).symm⟩
      · rw [if_neg he] at h3
        have h3 := Except.ok.inj h3
        exact ⟨(congrArg Vehicle.targetLane h3).symm, (congrArg Vehicle.timer h3).symm⟩
  · intro he ht
    rw [if_pos he, if_neg (by simp), if_pos (show doEvery Vehicle.LANE_CHANGE_DELAY v.timer = true from decide_eq_true ht)] at h3
    obtain ⟨sides, hs, h3⟩ := bind_ok h3
    unfold Graph.sideLanes at hs
    obtain ⟨ls, hls, hs⟩ := bind_ok hs
    have hs := (Except.ok.inj hs).symm
    obtain ⟨k, l0, hk0, hlane⟩ := hv.here
    have hlen : ¬ v.laneIndex.id < (ls.length : Int) - 1 → ¬ CanEnter r.network v.laneIndex.src v.laneIndex.dst (v.laneIndex.id + 1) v.pos := by
      rintro hlt ⟨k', l', hk', hl', -⟩
      obtain ⟨ls', hr', hx'⟩ := hl'
      have h5 := (Graph.lanesOf_ok_iff hg.toIsPyGraph).2 hr'
      rw [hls] at h5
      have : ls = ls' := Except.ok.inj h5
      subst this
      have := (List.getElem?_eq_some_iff.1 hx').1
      omega
    rw [hs, List.foldlM_append] at h3
    obtain ⟨u, hu, h3⟩ := bind_ok h3
    have hu := stage hg (v := { v with targetLane := v.laneIndex, route := ro, timer := 0 }) (fun h => by omega) (by
      rintro hlt ⟨k', l', hk', -⟩
      have : v.laneIndex.id - 1 = (k' : Int) := hk'
      omega) hu
    have hul : u.laneIndex = v.laneIndex := by rw [hu]; split <;> rfl
    have huv : ∃ t, u = { v with targetLane := t, route := ro, timer := 0 } ∧
        t = (if Wants G r { v with route := ro, targetLane := v.laneIndex } (v.laneIndex.id - 1) then ⟨v.laneIndex.src, v.laneIndex.dst, v.laneIndex.id - 1⟩ else v.laneIndex) := by
      have hwt := wants_timer (G := G) (r := r) (v := { v with route := ro, targetLane := v.laneIndex }) (id := v.laneIndex.id - 1) 0
      by_cases hcase : Wants G r { v with route := ro, targetLane := v.laneIndex } (v.laneIndex.id - 1)
      · rw [if_pos (hwt.2 hcase)] at hu
        exact ⟨_, hu, by rw [if_pos hcase]⟩
      · rw [if_neg fun hx => hcase (hwt.1 hx)] at hu
        exact ⟨_, hu, by rw [if_neg hcase]⟩
    obtain ⟨t2, rfl, ht2⟩ := huv
    have hfin := stage hg (v := { v with targetLane := t2, route := ro, timer := 0 }) (fun h => by omega) hlen h3
    have hwt := wants_timer (G := G) (r := r) (v := { v with route := ro, targetLane := t2 }) (id := v.laneIndex.id + 1) 0
    by_cases hcase : Wants G r { v with route := ro, targetLane := t2 } (v.laneIndex.id + 1)
    · rw [if_pos (hwt.2 hcase)] at hfin
      exact ⟨congrArg Vehicle.timer hfin, t2, ht2, by rw [if_pos hcase]; exact congrArg Vehicle.targetLane hfin⟩
    · rw [if_neg fun hx => hcase (hwt.1 hx)] at hfin
      exact ⟨congrArg Vehicle.timer hfin, t2, ht2, by rw [if_neg hcase]; exact congrArg Vehicle.targetLane hfin⟩

/-! ## C38 — lane change decisions are at least one second apart -/

/-- Deciding to change lane happens only with the decision timer above one second, and resets it. -/
theorem lane_change_timer (G : Globals) (r : Road) (v v' : Vehicle) (a : VAction) (rng' : Rng)
    (hk : v.kind.isIDM = true) (hc : v.crashed = false) (h : v.act G r a = .ok (v', rng')) (hd : DecidesToChangeLane r v v') :
    1 < v.timer ∧ v'.timer = 0 := by
  have hi := Vehicle.act_idm hk h
  obtain ⟨w, t, tm, st, acc, front, rear, h1, h2, h3, h4, rfl⟩ := Vehicle.idmAct_shape hc hi
  obtain ⟨w', rng'', d1, d2, d3⟩ := hd
  rw [h1] at d1
  cases d1
  obtain ⟨t1, ro, hw⟩ := Vehicle.followRoad_shape h1
  have hti : w.laneIndex = v.laneIndex := by rw [hw]
  have htt : w.timer = v.timer := by rw [hw]
  obtain ⟨t', tm', e, hcase⟩ := Vehicle.maybeChangeLane_shape h3
  have et : t = t' := by injection e
  have em : tm = tm' := by injection e
  subst et em
  dsimp only at d3 ⊢
  rcases hcase with ⟨_, hne, _⟩ | ⟨_, ht⟩ | ⟨heq, htm, hz, _⟩
  · exact absurd (hti.trans d2.symm) hne
  · exact absurd (ht.trans d2) d3
  · exact ⟨by rw [← htt]; exact htm, hz⟩

/-- Decision timers never exceed the elapsed time plus their initial value. -/
private def TimerRel (T : ℝ) (v w : Vehicle) : Prop :=
  w.kind = v.kind ∧ (v.kind.isIDM = true → w.timer ≤ max v.timer 0 + T)

private theorem TimerRel.refl (v : Vehicle) : TimerRel 0 v v := ⟨rfl, fun _ => by simp⟩

private theorem TimerRel.comp {T S : ℝ} (hT : 0 ≤ T) {u v w : Vehicle} (h1 : TimerRel T u v) (h2 : TimerRel S v w) :
    TimerRel (T + S) u w := by
  refine ⟨h2.1.trans h1.1, fun hk => ?_⟩
  have a := h1.2 hk
  have b := h2.2 (by rw [h1.1]; exact hk)
  have : max v.timer 0 ≤ max u.timer 0 + T := max_le a (by positivity)
  linarith

private theorem act_timer {G : Globals} {r : Road} {v v' : Vehicle} {a : VAction} {rng' : Rng} (h : v.act G r a = .ok (v', rng')) :
    TimerRel 0 v v' := by
  refine ⟨(Vehicle.act_body h).kind, fun hk => ?_⟩
  have hi := Vehicle.act_idm hk h
  by_cases hc : v.crashed
  · unfold Vehicle.idmAct at hi
    rw [if_pos hc] at hi
    cases hi; simp
  · obtain ⟨w, t, tm, st, acc, front, rear, h1, h2, h3, h4, rfl⟩ := Vehicle.idmAct_shape (by simpa using hc) hi
    obtain ⟨t1, ro, hw⟩ := Vehicle.followRoad_shape h1
    have htt : w.timer = v.timer := by rw [hw]
    obtain ⟨t', tm', e, hcase⟩ := Vehicle.maybeChangeLane_shape h3
    have em : tm = tm' := by injection e
    subst em
    dsimp only
    rcases hcase with ⟨h, _⟩ | ⟨h, _⟩ | ⟨_, _, h, _⟩
    · rw [h, htt]; simp
    · rw [h, htt]; simp
    · rw [h]; simp

private theorem run_timer {G : Globals} {T : ℝ} {r r' : Road} (h : TimedRun G T r r') :
    0 ≤ T ∧ Pointwise (TimerRel T) r.vehicles r'.vehicles := by
  have hact : ∀ {r r' : Road} {a : VAction} {i : ℕ}, r.actAt G a i = .ok r' → Pointwise (TimerRel 0) r.vehicles r'.vehicles := by
    intro r r' a i h
    unfold Road.actAt at h
    split at h
    · cases h; exact .refl' TimerRel.refl _
    · rename_i v hv
      obtain ⟨⟨w, rng⟩, hw, h⟩ := bind_ok h
      cases h
      exact .set TimerRel.refl hv (act_timer hw)
  induction h with
  | refl r => exact ⟨le_rfl, .refl' TimerRel.refl _⟩
  | actAt i a _ h ih =>
    refine ⟨ih.1, ih.2.trans' (fun a b c h1 h2 => ?_) (hact h)⟩
    have := TimerRel.comp ih.1 h1 h2
    rwa [add_zero] at this
  | act _ h ih =>
    refine ⟨ih.1, ih.2.trans' (fun a b c h1 h2 => ?_) (Road.act_acted h)⟩
    obtain ⟨s, rng, _, _, h2⟩ := h2
    have := TimerRel.comp ih.1 h1 (act_timer h2)
    rwa [add_zero] at this
  | step dt _ hdt h ih =>
    refine ⟨by linarith [ih.1], Pointwise.trans' (T := TimerRel (_ + dt)) (fun a b c h1 h2 => TimerRel.comp ih.1 h1 ?_) ih.2
      (Road.step_frame h).1⟩
    obtain ⟨u, ⟨_, _, _, _, e⟩, u', hu', s, b', hb, _⟩ := h2
    have hm := Vehicle.step_mind hu'
    have hu : u.kind = b.kind ∧ u.timer = b.timer := by rw [e]; exact ⟨rfl, rfl⟩
    refine ⟨by rw [hb]; exact hm.kind.trans hu.1, fun hk => ?_⟩
    have := Vehicle.step_timer (by rw [hu.1]; exact hk) hu'
    rw [hb]
    simp only [Road.bump]
    rw [this, hu.2]
    linarith [le_max_left b.timer 0]

/-- Take any history in which the `i`-th vehicle, a traffic vehicle, decides to change lane, then `T` seconds are simulated with any
decisions and commands of anyone in between, and then it decides to change lane again: more than one second has passed.
(Two "decisions" are both those of `act` calls ending with another lane than the one followed.) -/
theorem lane_change_delay (G : Globals) (T : ℝ) (r1 r2 : Road) (i : ℕ)
    (s1 : Road) (v1 v1' : Vehicle) (a1 : VAction) (rng1 : Rng) (hk : v1.kind.isIDM = true) (hc1 : v1.crashed = false)
    (hact1 : v1.act G s1 a1 = .ok (v1', rng1)) (hd1 : DecidesToChangeLane s1 v1 v1')
    (hv1 : r1.vehicles[i]? = some v1')
    (hrun : TimedRun G T r1 r2)
    (v2 v2' : Vehicle) (hv2 : r2.vehicles[i]? = some v2) (hc2 : v2.crashed = false)
    (s2 : Road) (a2 : VAction) (rng2 : Rng) (hact2 : v2.act G s2 a2 = .ok (v2', rng2)) (hd2 : DecidesToChangeLane s2 v2 v2') :
    1 < T := by
  obtain ⟨_, t1⟩ := lane_change_timer G s1 v1 v1' a1 rng1 hk hc1 hact1 hd1
  obtain ⟨_, hp⟩ := run_timer hrun
  obtain ⟨w, hw, hr⟩ := hp.2 i v1' hv1
  rw [hv2] at hw
  cases hw
  have hk' : v1'.kind.isIDM = true := by rw [(Vehicle.act_body hact1).kind]; exact hk
  have hk2 : v2.kind.isIDM = true := by rw [hr.1]; exact hk'
  obtain ⟨t2, _⟩ := lane_change_timer G s2 v2 v2' a2 rng2 hk2 hc2 hact2 hd2
  have := hr.2 hk'
  rw [t1] at this
  simp at this
  linarith


/-! ## The hypotheses are met: a vehicle stuck behind a stopped one decides to change lane -/

namespace Stuck
/-- A traffic vehicle at 20 m/s whose last decision is 2 s old. -/
def car : Vehicle := { Sample.car 0 .idm 10 0 20 with timer := 2 }
/-- A stopped vehicle 20 m ahead. -/
def leader : Vehicle := Sample.car 1 .idm 30 0 0
/-- The road with both. -/
def road : Road := { network := Sample.net, vehicles := [car, leader], rng := { ints := fun _ => 0, reals := fun _ => 0 } }

theorem lane0 : Sample.net.getLane ⟨"0", "1", 0⟩ = .ok (Sample.lane 0) :=
  Graph.getLane_of_hasLane (k := 0) Sample.net_py rfl Sample.net_has0
theorem lane1 : Sample.net.getLane ⟨"0", "1", 1⟩ = .ok (Sample.lane 1) :=
  Graph.getLane_of_hasLane (k := 1) Sample.net_py rfl Sample.net_has1


theorem other {lane : Lane} {e : Entity} (h : e ∈ road.vehicles.map Entity.veh ++ road.objects.map Entity.obj)
    (hq : OnQueriedLane lane 0 e) : e = .veh leader := by
  simp only [road, List.map_cons, List.map_nil, List.append_nil, List.mem_cons, List.not_mem_nil, or_false] at h
  rcases h with rfl | rfl
  · exact absurd rfl hq.1
  · rfl

theorem side (w : Vehicle) (hu : w.uid = 0) (hp : w.pos = ⟨10, 0⟩) :
    road.neighbourVehicles w (some ⟨"0", "1", 1⟩) = .ok (none, none) := by
  obtain ⟨f, b, h, h1, h2⟩ := neighbours_nearest road w (some ⟨"0", "1", 1⟩) (Sample.lane 1) lane1
  rw [hu] at h1 h2
  have hno : ∀ e ∈ road.vehicles.map Entity.veh ++ road.objects.map Entity.obj, ¬ OnQueriedLane (Sample.lane 1) 0 e := by
    intro e he hq
    have := other he hq
    subst this
    have hl := hq.2.2.1
    rw [show (Entity.veh leader).pos = ⟨30, 0⟩ from rfl, Sample.lane_local] at hl
    norm_num [Sample.lane, abs_of_neg] at hl
  have e1 : f = none := h1.1.2 fun e he hq => absurd hq (hno e he)
  have e2 : b = none := h2.1.2 fun e he hq => absurd hq (hno e he)
  rw [h, e1, e2]

theorem here (w : Vehicle) (hu : w.uid = 0) (hp : w.pos = ⟨10, 0⟩) (hl : w.laneIndex = ⟨"0", "1", 0⟩) :
    road.neighbourVehicles w = .ok (some (.veh leader), none) := by
  obtain ⟨f, b, h, h1, h2⟩ := neighbours_nearest road w none (Sample.lane 0) (by simp only [Option.getD_none, hl]; exact lane0)
  rw [hu, hp, Sample.lane_local] at h1 h2
  have hlead : OnQueriedLane (Sample.lane 0) 0 (.veh leader) ∧ along (Sample.lane 0) (.veh leader) = 30 := by
    unfold OnQueriedLane along
    rw [show (Entity.veh leader).pos = ⟨30, 0⟩ from rfl, Sample.lane_local, Sample.lane_length]
    norm_num [Entity.uid, Entity.isLandmark, leader, Sample.car, Sample.lane]
  have e1 : f = some (.veh leader) := by
    cases f with
    | none =>
      have := h1.1.1 rfl (.veh leader) (by simp [road]) hlead.1
      rw [hlead.2] at this
      norm_num at this
    | some e => rw [other (h1.2 e rfl).1 (h1.2 e rfl).2.1]
  have e2 : b = none := by
    refine h2.1.2 fun e he hq => ?_
    rw [other he hq, hlead.2]
    norm_num
  rw [h, e1, e2]

theorem accelerates_alone : Vehicle.accelerationOf {} { car with timer := 0 } (some (.veh { car with timer := 0 })) none = .ok 0 := by
  rw [(idm_law {} _ _ rfl rfl (by norm_num [car, Sample.car]) (by norm_num [car, Sample.car])).1]
  norm_num [idmFree, car, Sample.car]

theorem brakes_here : ∃ a ≤ -12, Vehicle.accelerationOf {} { car with timer := 0 } (some (.veh { car with timer := 0 }))
    (some (.veh leader)) = .ok a := by
  have hd : Vehicle.laneDistanceTo { car with timer := 0 } (Entity.veh leader).pos = 20 := by
    unfold Vehicle.laneDistanceTo
    rw [show (Entity.veh leader).pos = ⟨30, 0⟩ from rfl, show ({ car with timer := 0 } : Vehicle).pos = ⟨10, 0⟩ from rfl,
      show ({ car with timer := 0 } : Vehicle).lane = Sample.lane 0 from rfl, Sample.lane_local, Sample.lane_local]
    norm_num
  refine ⟨_, ?_, (idm_law {} _ _ rfl rfl (by norm_num [car, Sample.car]) (by norm_num [car, Sample.car])).2 _ (by rw [hd]; norm_num)⟩
  rw [hd]
  have hv : (Entity.veh leader).velocity = ⟨0, 0⟩ := by
    simp [Entity.velocity, Vehicle.velocity, leader, Sample.car]
    ext <;> simp
  rw [hv]
  have hg : 40 ≤ idmGap 10 1.5 3 (- -5) 20 (20 - (0 * Real.cos 0 + 0 * Real.sin 0)) := by
    unfold idmGap
    have : 0 ≤ 20 * (20 - (0 * Real.cos 0 + 0 * Real.sin 0)) / (2 * √(3 * - -5)) := by
      have : (0:ℝ) ≤ √(3 * - -5) := Real.sqrt_nonneg _
      simp only [zero_mul, add_zero, sub_zero]
      positivity
    norm_num at this ⊢
    linarith
  have h2 : (2:ℝ) ^ 2 ≤ (idmGap 10 1.5 3 (- -5) 20 (20 - (0 * Real.cos 0 + 0 * Real.sin 0)) / 20) ^ 2 := by
    apply pow_le_pow_left₀ (by norm_num)
    rw [le_div_iff₀ (by norm_num)]
    linarith
  have e : idmFree 3 20 20 = 0 := by norm_num [idmFree]
  show idmFree 3 20 20 - 3 * (idmGap 10 1.5 3 (- -5) 20 (20 - (0 * Real.cos 0 + 0 * Real.sin 0)) / 20) ^ 2 ≤ -12
  rw [e]
  linarith

theorem approves : ({ car with timer := 0 } : Vehicle).mobil {} road ⟨"0", "1", 1⟩ = .ok true := by
  unfold Vehicle.mobil
  obtain ⟨a, ha, hb⟩ := brakes_here
  rw [side _ rfl rfl]
  have h0 : ∀ f, Vehicle.accelerationOf {} { car with timer := 0 } none f = .ok 0 := by
    intro f
    unfold Vehicle.accelerationOf
    simp [car, Sample.car, VKind.isLinear]
  simp only [bind, Except.bind, h0, pure, Except.pure]
  rw [if_neg (by norm_num [car, Sample.car])]
  rw [here _ rfl rfl rfl]
  simp only [accelerates_alone]
  have hr : ({ car with timer := 0 } : Vehicle).routeLane = none := rfl
  rw [hr]
  simp only [hb, h0]
  rw [if_neg]
  have : Vehicle.minAccGain ({ car with timer := 0 } : Vehicle).kind = 2 / 10 := rfl
  rw [this, Vehicle.POLITENESS]
  norm_num
  linarith

theorem decides : ∃ v' rng', car.act {} road .none = .ok (v', rng') ∧ DecidesToChangeLane road car v' := by
  have hf : car.followRoad road.network road.rng = .ok (car, road.rng) := by
    unfold Vehicle.followRoad
    rw [show road.network = Sample.net from rfl, show car.targetLane = ⟨"0", "1", 0⟩ from rfl, lane0]
    simp only [bind, Except.bind]
    rw [if_neg]
    · rfl
    · rw [Lane.afterEnd_iff, show car.pos = ⟨10, 0⟩ from rfl, Sample.lane_local, Sample.lane_length]
      norm_num
  have hc : car.maybeChangeLane {} road = .ok { car with timer := 0, targetLane := ⟨"0", "1", 1⟩ } := by
    unfold Vehicle.maybeChangeLane
    rw [if_pos (show car.enableLaneChange = true from rfl)]
    unfold Vehicle.changeLanePolicy
    rw [if_neg (by simp [car, Sample.car]), if_pos (by simp [doEvery, Vehicle.LANE_CHANGE_DELAY, car])]
    have hs : road.network.sideLanes ({ car with timer := 0 } : Vehicle).laneIndex = .ok [⟨"0", "1", 1⟩] := by
      unfold Graph.sideLanes
      rw [show ({ car with timer := 0 } : Vehicle).laneIndex = ⟨"0", "1", 0⟩ from rfl, show road.network = Sample.net from rfl]
      dsimp only
      rw [(Graph.lanesOf_ok_iff Sample.net_py (a := "0") (b := "1") (ls := [Sample.lane 0, Sample.lane 1])).2
          ⟨_, by simp [Sample.net]; rfl, by simp⟩]
      rfl
    simp only [bind, Except.bind]
    rw [hs]
    simp only [List.foldlM_cons, List.foldlM_nil]
    unfold Vehicle.considerLane
    rw [show road.network = Sample.net from rfl, lane1]
    simp only [bind, Except.bind]
    rw [if_pos]
    · rw [approves]; rfl
    · rw [Lane.isReachableFrom_iff, show ({ car with timer := 0 } : Vehicle).pos = ⟨10, 0⟩ from rfl, Sample.lane_local, Sample.lane_length]
      norm_num [Sample.lane]
  obtain ⟨st, hst⟩ := Vehicle.steeringControl_total (v := { car with timer := 0, targetLane := ⟨"0", "1", 1⟩ }) Sample.net_wf
    (i := ⟨"0", "1", 1⟩) ⟨1, _, rfl, Sample.net_has1⟩
  have hst' : Vehicle.steeringControl road.network { car with timer := 0, targetLane := ⟨"0", "1", 1⟩ }
      ({ car with timer := 0, targetLane := ⟨"0", "1", 1⟩ } : Vehicle).targetLane = .ok st := hst
  have ha : ∀ w : Vehicle, w.kind = .idm → ∃ a, Vehicle.accelerationOf {} w (some (.veh w)) (some (.veh leader)) = .ok a := by
    intro w hw
    unfold Vehicle.accelerationOf
    rw [hw]
    exact ⟨_, rfl⟩
  obtain ⟨acc, hacc⟩ := ha { car with timer := 0, targetLane := ⟨"0", "1", 1⟩ } rfl
  have hi : ∃ v' rng', car.idmAct {} road = .ok (v', rng') ∧ v'.targetLane = ⟨"0", "1", 1⟩ := by
    unfold Vehicle.idmAct
    rw [if_neg (by simp [car, Sample.car]), here car rfl rfl rfl]
    simp only [bind, Except.bind]
    rw [hf]
    simp only
    rw [hc]
    simp only
    rw [hst']
    simp only
    rw [hacc]
    exact ⟨_, _, rfl, rfl⟩
  obtain ⟨v', rng', h1, h2⟩ := hi
  refine ⟨v', rng', h1, car, road.rng, hf, rfl, ?_⟩
  rw [h2]
  simp [car, Sample.car]

/-- The exact rule is satisfied there. -/
example : MobilRule {} road { car with timer := 0 } ⟨"0", "1", 1⟩ := (mobil_exact _ _ _ _ _ approves).1 rfl

end Stuck

end HighwayEnv.Props
