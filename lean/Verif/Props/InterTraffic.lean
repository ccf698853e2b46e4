import Verif.Props.InterPlace
import Verif.Props.Highway
import Verif.Props.Routes

/-!
# C59, C61: routes and traffic of the intersection
-/

noncomputable section
open Classical
namespace HighwayEnv.Props
open HighwayEnv HighwayEnv.Spec Graph

/-! ## Routes -/

private theorem edges_from (a c : String) : Edge interNet a c ↔ (a, c) ∈ [("o0", "ir0"), ("ir0", "il3"), ("ir0", "il1"), ("ir0", "il2"), ("il3", "o3"),
    ("o1", "ir1"), ("ir1", "il0"), ("ir1", "il2"), ("ir1", "il3"), ("il0", "o0"), ("o2", "ir2"), ("ir2", "il1"), ("ir2", "il3"), ("ir2", "il0"),
    ("il1", "o1"), ("o3", "ir3"), ("ir3", "il2"), ("ir3", "il0"), ("ir3", "il1"), ("il2", "o2")] := by
  rw [Graph.edge_iff interNet_wf]
  constructor
  · rintro ⟨k, l, h⟩
    rw [← Graph.hasLane_iff, interNet_lanes] at h
    simp only [List.mem_cons, List.not_mem_nil, or_false, Prod.mk.injEq] at h
    rcases h with ⟨rfl, rfl, _⟩ | ⟨rfl, rfl, _⟩ | ⟨rfl, rfl, _⟩ | ⟨rfl, rfl, _⟩ | ⟨rfl, rfl, _⟩ | ⟨rfl, rfl, _⟩ | ⟨rfl, rfl, _⟩ | ⟨rfl, rfl, _⟩ |
      ⟨rfl, rfl, _⟩ | ⟨rfl, rfl, _⟩ | ⟨rfl, rfl, _⟩ | ⟨rfl, rfl, _⟩ | ⟨rfl, rfl, _⟩ | ⟨rfl, rfl, _⟩ | ⟨rfl, rfl, _⟩ | ⟨rfl, rfl, _⟩ |
      ⟨rfl, rfl, _⟩ | ⟨rfl, rfl, _⟩ | ⟨rfl, rfl, _⟩ | ⟨rfl, rfl, _⟩ <;> simp
  · intro h
    simp only [← Graph.hasLane_iff, interNet_lanes]
    simp only [List.mem_cons, List.not_mem_nil, or_false, Prod.mk.injEq] at h ⊢
    rcases h with ⟨rfl, rfl⟩ | ⟨rfl, rfl⟩ | ⟨rfl, rfl⟩ | ⟨rfl, rfl⟩ | ⟨rfl, rfl⟩ | ⟨rfl, rfl⟩ | ⟨rfl, rfl⟩ | ⟨rfl, rfl⟩ | ⟨rfl, rfl⟩ | ⟨rfl, rfl⟩ |
      ⟨rfl, rfl⟩ | ⟨rfl, rfl⟩ | ⟨rfl, rfl⟩ | ⟨rfl, rfl⟩ | ⟨rfl, rfl⟩ | ⟨rfl, rfl⟩ | ⟨rfl, rfl⟩ | ⟨rfl, rfl⟩ | ⟨rfl, rfl⟩ | ⟨rfl, rfl⟩ <;>
      simp

private theorem four (a : Fin 4) : a = 0 ∨ a = 1 ∨ a = 2 ∨ a = 3 := by omega

private theorem edge_entry (a : Fin 4) (c : String) : Edge interNet (ingress a) c ↔ ∃ b, a ≠ b ∧ c = leave b := by
  rw [edges_from]
  constructor
  · intro h
    rcases four a with rfl | rfl | rfl | rfl <;> simp [ingress] at h <;> rcases h with rfl | rfl | rfl
    · exact ⟨3, by decide, rfl⟩
    · exact ⟨1, by decide, rfl⟩
    · exact ⟨2, by decide, rfl⟩
    · exact ⟨0, by decide, rfl⟩
    · exact ⟨2, by decide, rfl⟩
    · exact ⟨3, by decide, rfl⟩
    · exact ⟨1, by decide, rfl⟩
    · exact ⟨3, by decide, rfl⟩
    · exact ⟨0, by decide, rfl⟩
    · exact ⟨2, by decide, rfl⟩
    · exact ⟨0, by decide, rfl⟩
    · exact ⟨1, by decide, rfl⟩
  · rintro ⟨b, hab, rfl⟩
    rcases four a with rfl | rfl | rfl | rfl <;> rcases four b with rfl | rfl | rfl | rfl <;> first | (exact absurd rfl hab) | (simp [ingress, leave])

private theorem edge_leave (b : Fin 4) (c : String) : Edge interNet (leave b) c ↔ c = outer b := by
  rw [edges_from]
  rcases four b with rfl | rfl | rfl | rfl <;> simp [leave, outer]

private theorem outer_inj {a b : Fin 4} (h : outer a = outer b) : a = b := by
  rcases four a with rfl | rfl | rfl | rfl <;> rcases four b with rfl | rfl | rfl | rfl <;> first | rfl | (simp [outer] at h)

private theorem entry_ne_outer (a b : Fin 4) : ingress a ≠ outer b := by
  rcases four a with rfl | rfl | rfl | rfl <;> rcases four b with rfl | rfl | rfl | rfl <;> simp [ingress, outer]

private theorem leave_ne_outer (a b : Fin 4) : leave a ≠ outer b := by
  rcases four a with rfl | rfl | rfl | rfl <;> rcases four b with rfl | rfl | rfl | rfl <;> simp [leave, outer]

private theorem walk_crossing {a b : Fin 4} (hab : a ≠ b) : WalkFromTo interNet (ingress a) (outer b) [ingress a, leave b, outer b] := by
  refine ⟨?_, rfl, rfl⟩
  simp only [IsWalk, List.isChain_cons_cons, List.isChain_singleton, and_true]
  exact ⟨(edge_entry a _).2 ⟨b, hab, rfl⟩, (edge_leave b _).2 rfl⟩

/-- **C61, intersection**: from the access of side `a`, the route planned to another side `b` is the crossing from `a` to `b`, whatever the order in
which Python enumerates sets. -/
theorem inter_trip (ord : SetOrder) (v : Vehicle) (a b : Fin 4) (hab : a ≠ b) (i : Int) (hv : v.laneIndex = ⟨outer a, ingress a, i⟩) :
    v.planRouteTo interNet ord (outer b) = .ok { v with route := some (crossing i a b) } := by
  obtain ⟨route, h, _, h2⟩ := planRoute_spec interNet interNet_wf.toIsPyGraph ord v (outer b)
  rw [hv] at h2
  obtain ⟨p, rfl, _, ⟨w1, w2, w3⟩, h5⟩ := h2 ⟨entry_ne_outer a b, _, walk_crossing hab⟩
  have hl := h5 _ (walk_crossing hab)
  have : p = [ingress a, leave b, outer b] := by
    rcases p with _ | ⟨x, _ | ⟨y, _ | ⟨z, _ | ⟨t, p⟩⟩⟩⟩
    · simp at w2
    · simp only [List.head?_cons, Option.some.injEq, List.getLast?_singleton] at w2 w3
      exact absurd (w2.symm.trans w3) (entry_ne_outer a b)
    · simp only [List.head?_cons, Option.some.injEq] at w2
      simp at w3
      subst w2 w3
      simp only [IsWalk, List.isChain_cons_cons] at w1
      obtain ⟨c, _, hc⟩ := (edge_entry a _).1 w1.1
      exact absurd hc.symm (leave_ne_outer c b)
    · simp only [List.head?_cons, Option.some.injEq] at w2
      simp at w3
      subst w2 w3
      simp only [IsWalk, List.isChain_cons_cons] at w1
      obtain ⟨c, _, rfl⟩ := (edge_entry a _).1 w1.1
      have := outer_inj ((edge_leave c _).1 w1.2.1)
      rw [this]
    · simp only [List.length_cons, List.length_nil] at hl; omega
  subst this
  rw [h, hv]
  rfl

private theorem roadsOf_none (p : List String) : ∀ s ∈ roadsOf p, s.id = none := by
  induction p with
  | nil => simp [roadsOf]
  | cons x p ih =>
    cases p with
    | nil => simp [roadsOf]
    | cons y p =>
      intro s hs
      simp only [roadsOf, List.mem_cons] at hs
      rcases hs with rfl | hs
      · rfl
      · exact ih s hs

/-- A planned route consists of lanes that can be looked up. -/
theorem planned_precise (ord : SetOrder) (v : Vehicle) (d : String) (hv : ValidIndex interNet v.laneIndex) (v' : Vehicle)
    (h : v.planRouteTo interNet ord d = .ok v') : RoutePrecise interNet v'.route := by
  have hg := interNet_wf.toIsPyGraph
  have single : ∀ x y, Edge interNet x y → ∃ l, interNet.getLaneStep ⟨x, y, none⟩ = .ok l := by
    intro x y hxy
    rw [edges_from] at hxy
    simp only [List.mem_cons, List.not_mem_nil, or_false, Prod.mk.injEq] at hxy
    rcases hxy with ⟨rfl, rfl⟩ | ⟨rfl, rfl⟩ | ⟨rfl, rfl⟩ | ⟨rfl, rfl⟩ | ⟨rfl, rfl⟩ | ⟨rfl, rfl⟩ | ⟨rfl, rfl⟩ | ⟨rfl, rfl⟩ | ⟨rfl, rfl⟩ | ⟨rfl, rfl⟩ |
      ⟨rfl, rfl⟩ | ⟨rfl, rfl⟩ | ⟨rfl, rfl⟩ | ⟨rfl, rfl⟩ | ⟨rfl, rfl⟩ | ⟨rfl, rfl⟩ | ⟨rfl, rfl⟩ | ⟨rfl, rfl⟩ | ⟨rfl, rfl⟩ | ⟨rfl, rfl⟩ <;>
      exact ⟨_, rfl⟩
  obtain ⟨hex, _, _⟩ := planRoute_route interNet hg ord v v' d hv h
  obtain ⟨route, hr, h1, h2⟩ := planRoute_spec interNet hg ord v d
  rw [h] at hr
  cases hr
  intro s hs
  have he := hex s hs
  simp only [Option.getD_some, List.mem_cons] at hs
  rcases hs with rfl | hs
  · obtain ⟨k, l, hk, hl⟩ := hv
    exact ⟨l, getLane_of_hasLane hg hk hl⟩
  · by_cases hc : v.laneIndex.dst ≠ d ∧ ∃ q, WalkFromTo interNet v.laneIndex.dst d q
    · obtain ⟨p, rfl, _, _, _⟩ := h2 hc
      have hid : s.id = none := roadsOf_none p s hs
      obtain ⟨x, y, i⟩ := s
      dsimp only at hid he
      subst hid
      exact single _ _ he
    · rw [h1 (by by_cases hd : v.laneIndex.dst = d; exact .inl hd; exact .inr fun hq => hc ⟨hd, hq⟩)] at hs
      simp at hs

/-! ## Arrival -/

/-- The substring tests of the code single out the exit lanes. -/
private theorem exit_iff {i : LaneIndex} (hi : ValidIndex interNet i) :
    (strIn "il" i.src && strIn "o" i.dst) = true ↔ ∃ k : Fin 4, i.src = leave k ∧ i.dst = outer k := by
  obtain ⟨k, l, _, ls, hls, _⟩ := hi
  have he : Edge interNet i.src i.dst := ⟨ls, hls⟩
  obtain ⟨a, b, id⟩ := i
  dsimp only at he ⊢
  rw [edges_from] at he
  simp only [List.mem_cons, List.not_mem_nil, or_false, Prod.mk.injEq] at he
  rcases he with ⟨rfl, rfl⟩ | ⟨rfl, rfl⟩ | ⟨rfl, rfl⟩ | ⟨rfl, rfl⟩ | ⟨rfl, rfl⟩ | ⟨rfl, rfl⟩ | ⟨rfl, rfl⟩ | ⟨rfl, rfl⟩ | ⟨rfl, rfl⟩ | ⟨rfl, rfl⟩ |
    ⟨rfl, rfl⟩ | ⟨rfl, rfl⟩ | ⟨rfl, rfl⟩ | ⟨rfl, rfl⟩ | ⟨rfl, rfl⟩ | ⟨rfl, rfl⟩ | ⟨rfl, rfl⟩ | ⟨rfl, rfl⟩ | ⟨rfl, rfl⟩ | ⟨rfl, rfl⟩ <;>
    constructor <;> intro h <;>
    first
    | (exfalso; revert h; unfold strIn; decide)
    | (exact ⟨0, rfl, rfl⟩)
    | (exact ⟨1, rfl, rfl⟩)
    | (exact ⟨2, rfl, rfl⟩)
    | (exact ⟨3, rfl, rfl⟩)
    | (unfold strIn; decide)
    | (obtain ⟨k, h1, _⟩ := h; rcases four k with rfl | rfl | rfl | rfl <;> simp [leave] at h1)

/-- **C58.**  For a vehicle on the map, having arrived is being on an exit lane, at least 25 m after the crossing. -/
theorem inter_arrived {v : Vehicle} (hv : Attached interNet v) : Intersection.hasArrived v = true ↔ OnExit v 25 := by
  unfold Intersection.hasArrived OnExit
  rw [Bool.and_eq_true, exit_iff hv.here, decide_eq_true_eq]
  exact ⟨fun ⟨⟨k, h1, h2⟩, h3⟩ => ⟨k, h1, h2, h3⟩, fun ⟨k, h1, h2, h3⟩ => ⟨⟨k, h1, h2⟩, h3⟩⟩

private theorem exit_length {k : Fin 4} {n : ℕ} {l : Lane} (h : HasLane interNet (leave k) (outer k) n l) : l.length = 100 := by
  have go : ∀ {p q u : Vec2} {pr : Int}, Along p q u 100 → (roadLane p q pr).length = 100 := fun H => H.norm
  rw [interNet_lanes] at h
  rcases four k with rfl | rfl | rfl | rfl <;> simp [leave, outer] at h <;> obtain ⟨_, rfl⟩ := h
  · exact go (u := ⟨0, 1⟩) (by constructor <;> norm_num)
  · exact go (u := ⟨-1, 0⟩) (by constructor <;> norm_num)
  · exact go (u := ⟨0, -1⟩) (by constructor <;> norm_num)
  · exact go (u := ⟨1, 0⟩) (by constructor <;> norm_num)

/-- A vehicle is leaving when it is on an exit lane, at least 80 m after the crossing (its 100 m less four vehicle lengths). -/
theorem inter_leaving {v : Vehicle} (hv : Attached interNet v) : Intersection.isLeaving v = true ↔ OnExit v 80 := by
  unfold Intersection.isLeaving OnExit
  rw [Bool.and_eq_true, exit_iff hv.here, decide_eq_true_eq]
  have key : ∀ k : Fin 4, v.laneIndex.src = leave k → v.laneIndex.dst = outer k → v.lane.length - 4 * Vehicle.LENGTH = 80 := by
    intro k h1 h2
    obtain ⟨n, hn⟩ := hasLane_of_getLane interNet_wf.toIsPyGraph hv.lane
    rw [h1, h2] at hn
    rw [exit_length hn]; norm_num [Vehicle.LENGTH]
  constructor
  · rintro ⟨⟨k, h1, h2⟩, h3⟩
    exact ⟨k, h1, h2, by rwa [key k h1 h2] at h3⟩
  · rintro ⟨k, h1, h2, h3⟩
    exact ⟨⟨k, h1, h2⟩, by rwa [key k h1 h2]⟩

/-! ## C59 — vehicles leave and enter -/

/-- **C59, leaving**: after a decision, exactly the vehicles that are not controlled and are leaving (or have no route) are taken off the road; the
others stay, in the same order, and nothing else changes. -/
theorem inter_clear (e : Env) (h : ∀ v ∈ e.road.vehicles, Attached interNet v) :
    Intersection.clear e = { e with road := { e.road with vehicles := (Intersection.clear e).road.vehicles } } ∧
    (Intersection.clear e).road.vehicles.Sublist e.road.vehicles ∧
    ∀ v ∈ e.road.vehicles, v ∈ (Intersection.clear e).road.vehicles ↔ v.uid ∈ e.controlled ∨ ¬ (OnExit v 80 ∨ v.route = none) := by
  refine ⟨rfl, List.filter_sublist, ?_⟩
  intro v hv
  unfold Intersection.clear
  simp only [List.mem_filter, hv, true_and, Bool.or_eq_true, decide_eq_true_eq, Bool.not_eq_true', Bool.or_eq_false_iff]
  rw [← inter_leaving (h v hv), not_or, Option.isNone_eq_false_iff, Option.isSome_iff_ne_none, Bool.not_eq_true]

/-- Controlled vehicles are never taken off the road. -/
theorem inter_keeps_agents (e : Env) (v : Vehicle) (hv : v ∈ e.road.vehicles) (hc : v.uid ∈ e.controlled) :
    v ∈ (Intersection.clear e).road.vehicles := by
  unfold Intersection.clear
  simp [List.mem_filter, hv, hc]

private theorem fresh_above (vs : List Vehicle) (n : ℕ) : n ≤ Intersection.freshUid vs n ∧ ∀ w ∈ vs, w.uid < Intersection.freshUid vs n := by
  unfold Intersection.freshUid
  induction vs with
  | nil => simp
  | cons v vs ih =>
    simp only [List.foldr_cons, List.mem_cons]
    refine ⟨ih.1.trans (le_max_right _ _), ?_⟩
    rintro w (rfl | hw)
    · exact lt_of_lt_of_le (Nat.lt_succ_self _) (le_max_left _ _)
    · exact lt_of_lt_of_le (ih.2 w hw) (le_max_right _ _)

theorem side_names (a : ℕ) (h : a < 4) : Intersection.node "o" a = outer ⟨a, h⟩ ∧ Intersection.node "ir" a = ingress ⟨a, h⟩ := by
  have : a = 0 ∨ a = 1 ∨ a = 2 ∨ a = 3 := by omega
  rcases this with rfl | rfl | rfl | rfl <;> exact ⟨rfl, rfl⟩

private theorem sides_ok (rng : Rng) : ∃ a b rng', Intersection.twoSides rng = .ok ((a, b), rng') ∧ a < 4 ∧ b < 4 ∧ a ≠ b := by
  obtain ⟨a, g, ha, la⟩ := randint_ok rng (n := 4) (by norm_num)
  obtain ⟨b, g', hb, lb⟩ := randint_ok g (n := 3) (by norm_num)
  refine ⟨a, if b < a then b else b + 1, g', ?_, la, ?_, ?_⟩
  · unfold Intersection.twoSides
    simp only [ha, hb, bind, Except.bind, pure, Except.pure]
  · split <;> omega
  · split <;> omega

private theorem randomized (v : Vehicle) (rng : Rng) : ∃ a s, (Env.randomizeVehicle v rng).1 = { v with accParams := a, steerParams := s } := by
  unfold Env.randomizeVehicle
  split
  · exact ⟨_, _, rfl⟩
  · exact ⟨v.accParams, v.steerParams, rfl⟩

/-- The three possible outcomes of one attempt to let a vehicle enter, from vehicles `vs` to `vs'`. -/
inductive SpawnOutcome (kind : VKind) (longitudinal posDev speedDev prob draw : ℝ) (goStraight : Bool) (vs : List Vehicle) (n : ℕ) :
    List Vehicle → ℕ → Prop
  | unlucky : prob < draw → SpawnOutcome kind longitudinal posDev speedDev prob draw goStraight vs n vs n
  | blocked (a : Fin 4) (x : ℝ) (w : Vehicle) : ¬ prob < draw → w ∈ vs → (w.pos - (accessLane a).position (longitudinal + 5 + x * posDev) 0).norm < 15 →
      SpawnOutcome kind longitudinal posDev speedDev prob draw goStraight vs n vs n
  | enters (a b : Fin 4) (x y : ℝ) (v : Vehicle) : ¬ prob < draw →
      Newcomer kind vs a b (longitudinal + 5 + x * posDev) (8 + y * speedDev) v → (goStraight = true → b = a + 2) → n ≤ v.uid →
      SpawnOutcome kind longitudinal posDev speedDev prob draw goStraight vs n (vs ++ [v]) (v.uid + 1)

/-- **C59, entering**: an attempt to let a vehicle of the traffic enter always succeeds in the sense of Python; a vehicle enters only with the given
probability, only at least 15 m from all others, and then with a new identity, on the access of a random side, bound for another side. -/
theorem inter_spawn (G : Globals) {kind : VKind} (hidm : kind.isIDM = true) (ord : SetOrder) (lon posDev speedDev prob : ℝ) (go : Bool) (r : Road) (n : ℕ)
    (hr : r.network = interNet) : ∃ vs rng n', Intersection.spawn G kind ord lon posDev speedDev prob go (r, n) = .ok ({ r with vehicles := vs, rng := rng }, n') ∧
      SpawnOutcome kind lon posDev speedDev prob r.rng.uniform01.1 go r.vehicles n vs n' := by
  by_cases hp : prob < r.rng.uniform01.1
  · refine ⟨r.vehicles, r.rng.uniform01.2, n, ?_, .unlucky hp⟩
    unfold Intersection.spawn
    dsimp only
    rw [if_pos hp]; rfl
  obtain ⟨a, b0, g, hab, la, lb, hne⟩ := sides_ok r.rng.uniform01.2
  obtain ⟨n1, n2⟩ := side_names a la
  have hb : ∃ b, ∃ lb : b < 4, (if go then (a + 2) % 4 else b0) = b ∧ (⟨a, la⟩ : Fin 4) ≠ ⟨b, lb⟩ ∧ (go = true → (⟨b, lb⟩ : Fin 4) = ⟨a, la⟩ + 2) := by
    cases go
    · exact ⟨b0, lb, rfl, by simpa using hne, by simp⟩
    · refine ⟨(a + 2) % 4, Nat.mod_lt _ (by norm_num), rfl, ?_, fun _ => ?_⟩
      · intro h
        have := congrArg Fin.val h
        dsimp only at this
        omega
      · apply Fin.ext
        simp [Fin.val_add]
  obtain ⟨b, lb', hbeq, hne', hgo⟩ := hb
  obtain ⟨m1, -⟩ := side_names b lb'
  set A : Fin 4 := ⟨a, la⟩ with hA
  set B : Fin 4 := ⟨b, lb'⟩ with hB
  set uid := Intersection.freshUid r.vehicles n with huid
  obtain ⟨f1, f2⟩ := fresh_above r.vehicles n
  set s := lon + 5 + g.normal.1 * posDev with hs
  have hwf := interNet_wf
  obtain ⟨v, h1, h2, h3, h4⟩ := mk'_total G hwf (by simp [interNet]) uid kind ((accessLane A).position s 0) ((accessLane A).headingAt s)
    (8 + g.normal.2.normal.1 * speedDev)
  have hmk : Vehicle.makeOnLane G r.network uid kind ⟨Intersection.node "o" a, Intersection.node "ir" a, 0⟩ s (some (8 + g.normal.2.normal.1 * speedDev)) = .ok v := by
    unfold Vehicle.makeOnLane
    rw [n1, n2, hr, getLane_of_hasLane hwf.toIsPyGraph (i := ⟨outer A, ingress A, 0⟩) rfl (access_lane A)]
    exact h1
  by_cases hnear : (r.vehicles.any fun w => decide ((w.pos - v.pos).norm < 15)) = true
  · obtain ⟨w, hw, hd⟩ := List.any_eq_true.1 hnear
    refine ⟨r.vehicles, g.normal.2.normal.2, n, ?_, .blocked A g.normal.1 w hp hw (by rw [← h2.pos]; exact of_decide_eq_true hd)⟩
    unfold Intersection.spawn
    dsimp only
    rw [if_neg hp, hab]
    simp only [bind, Except.bind]
    rw [hmk]
    dsimp only
    rw [if_pos hnear]; rfl
  · obtain ⟨route, hp1, _, _⟩ := planRoute_spec interNet hwf.toIsPyGraph ord v (outer B)
    obtain ⟨hq1, _, hq3⟩ := planRoute_route interNet hwf.toIsPyGraph ord v _ (outer B) h3.here hp1
    have hq4 := planned_precise ord v (outer B) h3.here _ hp1
    set w : Vehicle := { v with route := some (v.laneIndex.toStep :: route) } with hw
    obtain ⟨ap, sp, hrand⟩ := randomized w g.normal.2.normal.2
    have hu : (Env.randomizeVehicle w g.normal.2.normal.2).1.uid = uid := by rw [hrand]; exact h2.uid
    refine ⟨r.vehicles ++ [(Env.randomizeVehicle w g.normal.2.normal.2).1], (Env.randomizeVehicle w g.normal.2.normal.2).2,
      (Env.randomizeVehicle w g.normal.2.normal.2).1.uid + 1, ?_, .enters A B g.normal.1 g.normal.2.normal.1 _ hp ?_ hgo (by rw [hu]; exact f1)⟩
    · unfold Intersection.spawn
      dsimp only
      rw [if_neg hp, hab]
      simp only [bind, Except.bind]
      rw [hmk]
      dsimp only
      rw [if_neg hnear]
      unfold Intersection.prepare
      rw [hbeq, h2.kind, hidm, m1, hr]
      simp only [if_true, hp1, bind, Except.bind, pure, Except.pure]
      rw [hu]
    · rw [hrand]
      refine ⟨h2.kind, ?_, ?_, h2.pos, h2.heading, h2.speed, ⟨h3.here, h3.lane, h3.target⟩, h2.target, hne', rfl, hq1, hq4, rfl, ?_, h2.crashed, h2.yielding⟩
      · intro x hx
        have := f2 x hx
        change x.uid ≠ v.uid
        rw [h2.uid]; omega
      · intro x hx
        by_contra hc
        exact hnear (List.any_eq_true.2 ⟨x, hx, decide_eq_true (lt_of_not_ge hc)⟩)
      · intro s0 s1
        rw [inter_here A s s0 s1] at h4
        have hi : v.laneIndex = ⟨outer A, ingress A, 0⟩ := (Except.ok.inj h4).symm
        refine ⟨hi, ?_⟩
        rw [inter_trip ord v A B hne' 0 hi] at hp1
        exact (congrArg Vehicle.route (Except.ok.inj hp1)).symm

end HighwayEnv.Props
