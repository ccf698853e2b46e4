import Verif.Props.Action
import Verif.Props.Queries

/-!
# C45 (unavailable actions), C67, C68: transformed copies of an environment

The transformations return a copy, modelled by a new value: the original is unchanged by construction.
-/

noncomputable section
open Classical
namespace HighwayEnv.Props
open HighwayEnv Spec Graph

/-! ## C67 -/

/-- **C67.**  `simplify` keeps the first controlled vehicle first, then exactly the other vehicles closer than 180 m, sorted by distance
along the ego's lane; nothing else changes. -/
theorem simplify_keeps (e e' : Env) (v : Vehicle) (hv : e.vehicle = .ok v) (h : e.simplify = .ok e') :
    (∃ rest, e'.road.vehicles = v :: rest ∧
      rest.Perm (e.road.vehicles.filter fun w => decide ((w.pos - v.pos).norm < 180 ∧ w.uid ≠ v.uid)) ∧
      rest.Pairwise (fun a b => laneGap v a ≤ laneGap v b)) ∧
    e' = { e with road := { e.road with vehicles := e'.road.vehicles } } := by
  unfold Env.simplify at h
  rw [hv] at h
  cases h
  refine ⟨⟨_, rfl, ?_, ?_⟩, rfl⟩
  · refine (close_all e.road v 180 true none (.inl rfl)).1.trans ?_
    rw [List.filter_congr]
    intro w _
    simp [Close]
  · exact (close_all e.road v 180 true none (.inl rfl)).2

example : ∃ e', sampleEnv.simplify = .ok e' ∧ ∃ v, sampleEnv.vehicle = .ok v := ⟨_, rfl, _, rfl⟩

/-! ## C68 -/

/-- A vehicle replaced by one of class `kind` with the same motion and, for controlled classes, the same goals. -/
structure SameMotion (k : VKind) (v w : Vehicle) : Prop where
  kind : w.kind = k
  pos : w.pos = v.pos
  heading : w.heading = v.heading
  speed : w.speed = v.speed
  lane : k.isControlled = true → w.targetLane = v.targetLane ∧ w.route = v.route

private theorem createFrom_motion {G : Globals} {g : Graph} {n : ℕ} {kind : VKind} {v w : Vehicle}
    (h : Vehicle.createFrom G g n kind v = .ok w) : SameMotion kind v w ∧ w.uid = n := by
  unfold Vehicle.createFrom at h
  split at h
  · rename_i hk
    split at h
    · unfold Vehicle.mk' at h
      obtain ⟨i, _, h⟩ := bind_ok h
      obtain ⟨l, _, h⟩ := bind_ok h
      cases h
      exact ⟨⟨rfl, rfl, rfl, rfl, fun _ => ⟨rfl, rfl⟩⟩, rfl⟩
    · cases h
  · rename_i hk
    unfold Vehicle.mk' at h
    obtain ⟨i, _, h⟩ := bind_ok h
    obtain ⟨l, _, h⟩ := bind_ok h
    cases h
    exact ⟨⟨rfl, rfl, rfl, rfl, fun h => absurd h hk⟩, rfl⟩

private theorem changeLoop_spec {G : Globals} {g : Graph} {kind : VKind} {ego : Option ℕ} (vs : List Vehicle) (n : ℕ)
    {ws : List Vehicle} {m : ℕ} (h : Env.changeLoop G g kind ego vs n = .ok (ws, m)) :
    n ≤ m ∧ Pointwise (fun v w => if some v.uid = ego then w = v else SameMotion kind v w ∧ n ≤ w.uid ∧ w.uid < m) vs ws := by
  induction vs generalizing n ws m with
  | nil => unfold Env.changeLoop at h; cases h; exact ⟨le_rfl, rfl, by simp⟩
  | cons v vs ih =>
    unfold Env.changeLoop at h
    split at h
    · rename_i hu
      obtain ⟨⟨us, k⟩, hus, h⟩ := bind_ok h
      cases h
      obtain ⟨i1, i2, i3⟩ := ih n hus
      refine ⟨i1, by simp [i2], fun i x hx => ?_⟩
      cases i with
      | zero =>
        simp only [List.getElem?_cons_zero, Option.some.injEq] at hx
        subst hx
        exact ⟨v, rfl, by simp only [if_pos hu]⟩
      | succ i => simpa using i3 i x (by simpa using hx)
    · rename_i hu
      obtain ⟨w, hw, h⟩ := bind_ok h
      obtain ⟨⟨us, k⟩, hus, h⟩ := bind_ok h
      cases h
      obtain ⟨i1, i2, i3⟩ := ih (n + 1) hus
      obtain ⟨c1, c2⟩ := createFrom_motion hw
      refine ⟨by omega, by simp [i2], fun i x hx => ?_⟩
      cases i with
      | zero =>
        simp only [List.getElem?_cons_zero, Option.some.injEq] at hx
        subst hx
        exact ⟨w, rfl, by simp only [if_neg hu]; exact ⟨c1, by omega, by omega⟩⟩
      | succ i =>
        obtain ⟨y, hy, hr⟩ := i3 i x (by simpa using hx)
        refine ⟨y, by simpa using hy, ?_⟩
        dsimp only at hr ⊢
        split
        · rename_i hc; rw [if_pos hc] at hr; exact hr
        · rename_i hc; rw [if_neg hc] at hr; exact ⟨hr.1, by omega, hr.2.2⟩

/-- **C68, `change_vehicles`.**  The first controlled vehicle stays exactly as it is; every other vehicle is replaced, at the same place
in the list, by a new object of the requested class with the same position, heading and speed, and for controlled classes the same
target lane and route.  Nothing else changes. -/
theorem changeVehicles_spec (G : Globals) (kind : VKind) (e e' : Env) (h : e.changeVehicles G kind = .ok e') :
    Pointwise (fun v w => if some v.uid = e.controlled.head? then w = v else SameMotion kind v w ∧ e.nextUid ≤ w.uid)
      e.road.vehicles e'.road.vehicles ∧
    e' = { e with road := { e.road with vehicles := e'.road.vehicles }, nextUid := e'.nextUid } := by
  unfold Env.changeVehicles at h
  obtain ⟨⟨ws, m⟩, hw, h⟩ := bind_ok h
  cases h
  refine ⟨(changeLoop_spec _ _ hw).2.mono fun v w hvw => ?_, rfl⟩
  split
  · rename_i hc; rw [if_pos hc] at hvw; exact hvw
  · rename_i hc; rw [if_neg hc] at hvw; exact ⟨hvw.1, hvw.2.1⟩

/-- **C68, `set_preferred_lane`.**  Only traffic vehicles change: each road of their route is taken on the preferred lane and they
accept to impose stronger braking.  Lane 0, and no lane, change nothing at all. -/
theorem preferredLane_spec (lane : Option Int) (e e' : Env) (h : e.setPreferredLane lane = .ok e') :
    (∃ k, lane = some k ∧ k ≠ 0 ∧ Pointwise (fun v w =>
        (v.kind.isIDM = false → w = v) ∧
        (v.kind.isIDM = true → ∃ route, v.route = some route ∧
          w = { v with route := some (route.map fun s => ⟨s.src, s.dst, some k⟩), maxBraking := 1000 }))
      e.road.vehicles e'.road.vehicles ∧ e' = { e with road := { e.road with vehicles := e'.road.vehicles } }) ∨
    ((lane = none ∨ lane = some 0) ∧ e' = e) := by
  unfold Env.setPreferredLane at h
  cases lane with
  | none => cases h; exact .inr ⟨.inl rfl, rfl⟩
  | some k =>
    dsimp only at h
    split at h
    · rename_i hk; cases h; exact .inr ⟨.inr (by rw [hk]), rfl⟩
    · rename_i hk
      obtain ⟨vs, hvs, h⟩ := bind_ok h
      cases h
      refine .inl ⟨k, rfl, hk, (mapM_pointwise hvs).mono fun v w hvw => ?_, rfl⟩
      unfold Env.preferLane at hvw
      split at hvw
      · rename_i hi
        refine ⟨fun h => absurd hi (by simp [h]), fun _ => ?_⟩
        cases hr : v.route with
        | none => rw [hr] at hvw; cases hvw
        | some route => rw [hr] at hvw; cases hvw; exact ⟨route, rfl, rfl⟩
      · rename_i hi
        cases hvw
        exact ⟨fun _ => rfl, fun h => absurd h hi⟩

/-- `set_preferred_lane` raises as soon as some traffic vehicle has no route (as in highway-v0). -/
theorem preferredLane_raises (k : Int) (hk : k ≠ 0) (e : Env) (v : Vehicle) (hv : v ∈ e.road.vehicles) (hi : v.kind.isIDM = true)
    (hr : v.route = none) : ∀ e', e.setPreferredLane (some k) ≠ .ok e' := by
  intro e' h
  rcases preferredLane_spec _ _ _ h with ⟨k', _, _, hp, _⟩ | ⟨h, _⟩
  · obtain ⟨i, hlt, rfl⟩ := List.mem_iff_getElem.1 hv
    obtain ⟨w, _, _, h2⟩ := hp.2 i _ (List.getElem?_eq_getElem hlt)
    obtain ⟨route, h3, _⟩ := h2 hi
    rw [hr] at h3; cases h3
  · rcases h with h | h
    · cases h
    · injection h with h; exact hk h

private theorem routeLoop_spec {g : Graph} {choice : Option Int} (vs : List Vehicle) (rng : Rng) {ws : List Vehicle} {rng' : Rng}
    (h : Env.routeLoop g choice vs rng = .ok (ws, rng')) :
    Pointwise (fun v w => (v.kind.isIDM = false → w = v) ∧ ∃ route, w = { v with route := route }) vs ws := by
  induction vs generalizing rng ws with
  | nil => unfold Env.routeLoop at h; cases h; exact ⟨rfl, by simp⟩
  | cons v vs ih =>
    unfold Env.routeLoop at h
    have fin : ∀ (w : Vehicle) (us : List Vehicle), ((v.kind.isIDM = false → w = v) ∧ ∃ route, w = { v with route := route }) →
        Pointwise (fun v w => (v.kind.isIDM = false → w = v) ∧ ∃ route, w = { v with route := route }) vs us →
        Pointwise (fun v w => (v.kind.isIDM = false → w = v) ∧ ∃ route, w = { v with route := route }) (v :: vs) (w :: us) := by
      rintro w us hw ⟨h1, h2⟩
      refine ⟨by simp [h1], fun i x hx => ?_⟩
      cases i with
      | zero =>
        simp only [List.getElem?_cons_zero, Option.some.injEq] at hx
        subst hx
        exact ⟨w, rfl, hw⟩
      | succ i => simpa using h2 i x (by simpa using hx)
    split at h
    · rename_i hi
      obtain ⟨⟨w, r1⟩, hw, h⟩ := bind_ok h
      obtain ⟨⟨us, r2⟩, hus, h⟩ := bind_ok h
      cases h
      refine fin w us ⟨fun h => absurd hi (by simp [h]), ?_⟩ (ih _ hus)
      unfold Vehicle.setRouteAtIntersection at hw
      dsimp only at hw
      split at hw
      · cases hw; exact ⟨v.route, rfl⟩
      · obtain ⟨⟨k, r3⟩, _, hw⟩ := bind_ok hw
        obtain ⟨route, _, hw⟩ := bind_ok hw
        cases hw
        exact ⟨some route, rfl⟩
    · obtain ⟨⟨us, r2⟩, hus, h⟩ := bind_ok h
      cases h
      exact fin v us ⟨fun _ => rfl, v.route, rfl⟩ (ih _ hus)

/-- **C68, `set_route_at_intersection`.**  Only the routes of traffic vehicles change. -/
theorem setRoute_spec (choice : Option Int) (e e' : Env) (h : e.setRouteAtIntersection choice = .ok e') :
    Pointwise (fun v w => (v.kind.isIDM = false → w = v) ∧ ∃ route, w = { v with route := route })
      e.road.vehicles e'.road.vehicles ∧
    e' = { e with road := { e.road with vehicles := e'.road.vehicles, rng := e'.road.rng } } := by
  unfold Env.setRouteAtIntersection at h
  obtain ⟨⟨ws, r⟩, hw, h⟩ := bind_ok h
  cases h
  exact ⟨routeLoop_spec _ _ hw, rfl⟩

/-- `gens` are the successive states of the generator when the vehicles choose in turn, each starting where the previous one stopped. -/
def InTurn (g : Graph) (choice : Option Int) (vs ws : List Vehicle) (gens : List Rng) : Prop :=
  gens.length = vs.length + 1 ∧ ws.length = vs.length ∧
  ∀ (i : ℕ) v w r r', vs[i]? = some v → ws[i]? = some w → gens[i]? = some r → gens[i + 1]? = some r' →
    (v.kind.isIDM = true → v.setRouteAtIntersection g r choice = .ok (w, r')) ∧ (v.kind.isIDM = false → w = v ∧ r' = r)

private theorem routeLoop_turn {g : Graph} {choice : Option Int} (vs : List Vehicle) {rng rng' : Rng} {ws : List Vehicle}
    (h : Env.routeLoop g choice vs rng = .ok (ws, rng')) :
    ∃ gens, InTurn g choice vs ws gens ∧ gens.head? = some rng ∧ gens.getLast? = some rng' := by
  induction vs generalizing rng ws with
  | nil =>
    unfold Env.routeLoop at h; cases h
    exact ⟨[_], ⟨rfl, rfl, by simp⟩, rfl, rfl⟩
  | cons v vs ih =>
    unfold Env.routeLoop at h
    have fin : ∀ (w : Vehicle) (us : List Vehicle) (r1 : Rng), ((v.kind.isIDM = true → v.setRouteAtIntersection g rng choice = .ok (w, r1)) ∧
        (v.kind.isIDM = false → w = v ∧ r1 = rng)) → Env.routeLoop g choice vs r1 = .ok (us, rng') →
        ∃ gens, InTurn g choice (v :: vs) (w :: us) gens ∧ gens.head? = some rng ∧ gens.getLast? = some rng' := by
      intro w us r1 hw hus
      obtain ⟨gens, ⟨l1, l2, hg⟩, g1, g2⟩ := ih hus
      refine ⟨rng :: gens, ⟨by simp [l1], by simp [l2], fun i x y r r' hx hy hr hr' => ?_⟩, rfl, ?_⟩
      · cases i with
        | zero =>
          simp only [List.getElem?_cons_zero, Option.some.injEq] at hx hy hr
          subst hx hy hr
          have : gens[0]? = some r' := by simpa using hr'
          rw [← List.head?_eq_getElem?, g1] at this
          cases this
          exact hw
        | succ i => exact hg i x y r r' (by simpa using hx) (by simpa using hy) (by simpa using hr) (by simpa using hr')
      · rw [List.getLast?_cons, g2]; rfl
    split at h
    · rename_i hi
      obtain ⟨⟨w, r1⟩, hw, h⟩ := bind_ok h
      obtain ⟨⟨us, r2⟩, hus, h⟩ := bind_ok h
      cases h
      exact fin w us r1 ⟨fun _ => hw, fun h => absurd hi (by simp [h])⟩ hus
    · rename_i hi
      obtain ⟨⟨us, r2⟩, hus, h⟩ := bind_ok h
      cases h
      exact fin v us rng ⟨fun h => absurd h hi, fun _ => ⟨rfl, rfl⟩⟩ hus

/-- **C68, `set_route_at_intersection`, choices.**  Every traffic vehicle gets the route it would choose itself (see `chooseRoute_spec`),
in turn, each with fresh draws of the generator, which ends where the last one left it. -/
theorem setRoute_turns (choice : Option Int) (e e' : Env) (h : e.setRouteAtIntersection choice = .ok e') :
    ∃ gens, InTurn e.road.network choice e.road.vehicles e'.road.vehicles gens ∧ gens.head? = some e.road.rng ∧
      gens.getLast? = some e'.road.rng := by
  unfold Env.setRouteAtIntersection at h
  obtain ⟨⟨ws, r⟩, hw, h⟩ := bind_ok h
  cases h
  exact routeLoop_turn _ hw

private theorem fract01 (x : ℝ) : 0 ≤ Int.fract x ∧ Int.fract x ≤ 1 := ⟨Int.fract_nonneg x, (Int.fract_lt_one x).le⟩

/-- **C68, `randomize_behaviour`.**  Only vehicles of the linear classes change, only in their parameters, which are drawn between half
and one and a half times the defaults of the linear class for the acceleration and within fixed margins for the steering. -/
theorem randomize_spec (e : Env) :
    Pointwise (fun v w => (v.kind.isLinear = false → w = v) ∧
        (v.kind.isLinear = true → ∃ a s, w = { v with accParams := a, steerParams := s } ∧
          (0.15 ≤ a.1 ∧ a.1 ≤ 0.45) ∧ (0.15 ≤ a.2.1 ∧ a.2.1 ≤ 0.45) ∧ (1 ≤ a.2.2 ∧ a.2.2 ≤ 3) ∧
          (4.93 ≤ s.1 ∧ s.1 ≤ 5.07) ∧ (25 / 3 - 1.5 ≤ s.2 ∧ s.2 ≤ 25 / 3 + 1.5)))
      e.road.vehicles e.randomizeBehaviour.road.vehicles ∧
    e.randomizeBehaviour = { e with road := { e.road with vehicles := e.randomizeBehaviour.road.vehicles,
                                                          rng := e.randomizeBehaviour.road.rng } } := by
  refine ⟨?_, rfl⟩
  unfold Env.randomizeBehaviour
  dsimp only
  generalize e.road.rng = rng
  generalize e.road.vehicles = vs
  induction vs generalizing rng with
  | nil => exact ⟨rfl, by simp⟩
  | cons v vs ih =>
    unfold Env.randomizeLoop
    dsimp only
    obtain ⟨i1, i2⟩ := ih (if v.kind.isIDM = true then Env.randomizeVehicle v rng else (v, rng)).2
    refine ⟨by simp [i1], fun i x hx => ?_⟩
    cases i with
    | zero =>
      simp only [List.getElem?_cons_zero, Option.some.injEq] at hx
      subst hx
      refine ⟨_, rfl, ?_⟩
      dsimp only
      constructor
      · intro hl
        split
        · unfold Env.randomizeVehicle; rw [if_neg (by simp [hl])]
        · rfl
      · intro hl
        have hi : v.kind.isIDM = true := by
          cases hk : v.kind <;> rw [hk] at hl <;> first | rfl | cases hl
        rw [if_pos hi]
        unfold Env.randomizeVehicle
        rw [if_pos hl]
        refine ⟨_, _, rfl, ?_⟩
        simp only [Rng.uniform01]
        obtain ⟨a0, b0⟩ := fract01 (rng.reals rng.rpos)
        obtain ⟨a1, b1⟩ := fract01 (rng.reals (rng.rpos + 1))
        obtain ⟨a2, b2⟩ := fract01 (rng.reals (rng.rpos + 1 + 1))
        obtain ⟨a3, b3⟩ := fract01 (rng.reals (rng.rpos + 1 + 1 + 1))
        obtain ⟨a4, b4⟩ := fract01 (rng.reals (rng.rpos + 1 + 1 + 1 + 1))
        refine ⟨⟨?_, ?_⟩, ⟨?_, ?_⟩, ⟨?_, ?_⟩, ⟨?_, ?_⟩, ?_, ?_⟩ <;> norm_num <;> linarith
    | succ i => simpa using i2 i x (by simpa using hx)

/-- **C68 fails for `set_vehicle_field`**: the assignment reaches every vehicle of the copy, including the ego vehicle (its test
compares copies with the vehicle of the original environment). -/
theorem setVehicleField_reaches_ego (set : Vehicle → Vehicle) (e : Env) (v : Vehicle) (hv : v ∈ e.road.vehicles)
    (_ : v.uid ∈ e.controlled) : set v ∈ (e.setVehicleField set).road.vehicles :=
  List.mem_map.2 ⟨v, hv, rfl⟩

/-- Concretely: making the other vehicles of the sample environment invulnerable makes the ego vehicle invulnerable. -/
example : ∃ v ∈ (sampleEnv.setVehicleField fun v => { v with collisionsEnabled := false }).road.vehicles,
    v.uid ∈ sampleEnv.controlled ∧ v.collisionsEnabled = false := by
  refine ⟨{ Sample.car 0 .mdp 10 0 20 with collisionsEnabled := false }, ?_, by simp [sampleEnv, Sample.car], rfl⟩
  exact List.mem_map.2 ⟨Sample.car 0 .mdp 10 0 20, by simp [sampleEnv], rfl⟩

/-! ## C45, unavailable actions -/

/-- **C45 (partial).**  An action of the space that does not make sense changes neither the target lane nor the target speed, if the
vehicle aims at its current lane, is not past its end, and its level is the level of its current speed.  Missing: without these guards
the claim is false, see `unavailable_not_idle`. -/
theorem unavailable_idle_partial (G : Globals) (hcount : 0 < G.speedCount) (r : Road) (hg : WellFormed r.network) (v v' : Vehicle)
    (n : VAction) (rng' : Rng) (hk : v.kind = .mdp) (hv : Attached r.network v) (hl : OnLadder G v)
    (hs : ¬ MakesSense G r.network v true true n) (h : v.act G r n = .ok (v', rng')) (ht : v.targetLane = v.laneIndex)
    (hp : ¬ PastEnd r.network v.laneIndex v.pos) (hsp : v.speedIndex = Vehicle.speedToIndex G v.speed) :
    v'.targetLane = v.targetLane ∧ v'.targetSpeed = v.targetSpeed ∧ v'.speedIndex = v.speedIndex := by
  obtain ⟨t0, _, hcont, htl⟩ := command_lane G r hg v v' n rng' (.inr hk) hv h
  have : t0 = v.laneIndex := by
    rw [ht] at hcont
    rcases hcont with ⟨h, _⟩ | ⟨h, _⟩
    · exact h
    · exact absurd h hp
  subst this
  obtain ⟨h1, h2, h3, _⟩ := faster_slower G hcount r v v' n rng' hk h
  obtain ⟨l0, l1, l2⟩ := hl
  refine ⟨?_, ?_⟩
  · rw [htl, ht]
    cases n <;> simp only [laneAfter]
    · rw [if_neg]; intro hx; exact hs ⟨rfl, hx⟩
    · rw [if_neg]; intro hx; exact hs ⟨rfl, hx⟩
  · cases n
    case faster =>
      obtain ⟨e1, e2⟩ := h1 rfl
      have hs' : ¬ (v.speedIndex + 1 < G.speedCount) := fun hx => hs ⟨rfl, hx⟩
      have : v'.speedIndex = v.speedIndex := by rw [e1, ← hsp]; omega
      exact ⟨by rw [e2, this, l2], this⟩
    case slower =>
      obtain ⟨e1, e2⟩ := h2 rfl
      have hs' : ¬ (0 < v.speedIndex) := fun hx => hs ⟨rfl, hx⟩
      have : v'.speedIndex = v.speedIndex := by rw [e1, ← hsp]; omega
      exact ⟨by rw [e2, this, l2], this⟩
    all_goals
      have := h3 (by simp) (by simp)
      exact ⟨this.2, this.1⟩

/-- An ego vehicle on the top level, still accelerating from 20 m/s. -/
def hurrying : Vehicle := { Sample.car 0 .mdp 10 0 20 with targetSpeed := 30, speedIndex := 2 }

/-- The road of the hurrying vehicle. -/
def hurryingRoad : Road := { network := Sample.net, rng := ⟨fun _ => 0, fun _ => 0, 0, 0⟩, vehicles := [hurrying] }

/-- **C45 fails** in general: for the hurrying vehicle FASTER is not offered (it is on the top level), but executing it lowers its
target from 30 to 25 m/s. -/
theorem unavailable_not_idle : OnLadder {} hurrying ∧ ¬ MakesSense {} hurryingRoad.network hurrying true true .faster ∧
    ∃ v' rng', hurrying.act {} hurryingRoad .faster = .ok (v', rng') ∧ hurrying.targetSpeed = 30 ∧ v'.targetSpeed = 25 := by
  refine ⟨⟨by norm_num [hurrying], by norm_num [hurrying], by norm_num [hurrying, level]⟩, ?_, ?_⟩
  · rintro ⟨_, h⟩
    norm_num [hurrying] at h
  · have hh : Healthy hurryingRoad := by
      refine ⟨Sample.net_wf, ?_, ?_, ?_⟩
      · intro v hvm
        simp only [hurryingRoad, List.mem_singleton] at hvm
        subst hvm
        exact ⟨⟨⟨0, _, rfl, Sample.net_has0⟩, getLane_of_hasLane (k := 0) Sample.net_py rfl Sample.net_has0,
          ⟨0, _, rfl, Sample.net_has0⟩⟩, by simp [RouteExists, hurrying, Sample.car]⟩
      · simp [hurryingRoad, hurrying, Sample.car, VKind.isLinear]
      · simp [hurryingRoad]
    obtain ⟨⟨v', rng'⟩, h⟩ := act_never_raises {} hurryingRoad hh hurrying (by simp [hurryingRoad]) .faster (.inl rfl)
    refine ⟨v', rng', h, rfl, ?_⟩
    obtain ⟨e1, e2⟩ := (faster_slower {} (by norm_num) hurryingRoad hurrying v' .faster rng' rfl h).1 rfl
    have : Vehicle.speedToIndex {} hurrying.speed = 0 := by
      simp only [Vehicle.speedToIndex, hurrying, Sample.car]
      norm_num [npRound, npClipInt]
    rw [this] at e1
    rw [e2, e1]
    norm_num [level]

end HighwayEnv.Props
