import Verif.Props.LaneChange
import Verif.Props.NoRaise
import Verif.Props.Network

/-!
# C81 – C84: placing vehicles on lanes, planning routes, choosing a branch, aborting a lane change
-/

noncomputable section
open Classical
namespace HighwayEnv.Props
open HighwayEnv Spec Graph

/-! ## C81 — vehicles created on a lane -/

/-- Creating a vehicle of any class on an existing lane raises nothing and puts it on the centre line, `s` metres after the start of the
lane, aligned with the lane at that place, with the given speed (or the speed limit of the lane); it is attached to the network, to the
lane that is closest to that pose, aims at the lane it is attached to, and has no route. -/
theorem makeOnLane_spec (G : Globals) (g : Graph) (hg : WellFormed g) (uid : ℕ) (kind : VKind) (i : LaneIndex) (l : Lane)
    (hi : g.getLane i = .ok l) (s : ℝ) (speed : Option ℝ) :
    ∃ v, Vehicle.makeOnLane G g uid kind i s speed = .ok v ∧ v.uid = uid ∧ v.kind = kind ∧
      v.pos = l.position s 0 ∧ v.heading = l.headingAt s ∧
      (∀ x, speed = some x → v.speed = x) ∧ (speed = none → v.speed = l.speedLimit) ∧
      Attached g v ∧ v.targetLane = v.laneIndex ∧ v.route = none ∧ v.crashed = false ∧
      ∀ j l', g.getLane j = .ok l' →
        v.lane.distanceWithHeading v.pos (some v.heading) ≤ l'.distanceWithHeading v.pos (some v.heading) := by
  obtain ⟨k, hl⟩ := hasLane_of_getLane hg.toIsPyGraph hi
  obtain ⟨c, hc⟩ := closest_ok_of_exists hl (l.position s 0) (some (l.headingAt s))
  obtain ⟨hv, lc, hlc, hmin⟩ := closestLane_minimal g hg.toIsPyGraph _ _ c hc
  unfold Vehicle.makeOnLane Vehicle.mk'
  simp only [hi, hc, hlc, bind, Except.bind, pure, Except.pure]
  refine ⟨_, rfl, rfl, rfl, rfl, rfl, ?_, ?_, ⟨hv, hlc, hv⟩, rfl, rfl, rfl, fun j l' hj => hmin j l' hj⟩
  · rintro x rfl; rfl
  · rintro rfl; rfl

/-- On straight and sine lanes the longitudinal and lateral coordinates of the new vehicle are `s` and 0. -/
theorem makeOnLane_coordinates (G : Globals) (g : Graph) (hg : WellFormed g) (uid : ℕ) (kind : VKind) (i : LaneIndex) (l : Lane)
    (hi : g.getLane i = .ok l) (a b : Vec2) (hab : a ≠ b)
    (hs : l.shape = .straight a b ∨ ∃ amp w ph, l.shape = .sine a b amp w ph) (s : ℝ) (speed : Option ℝ) (v : Vehicle)
    (h : Vehicle.makeOnLane G g uid kind i s speed = .ok v) : l.localCoordinates v.pos = (s, 0) := by
  obtain ⟨v', h', _, _, hp, _⟩ := makeOnLane_spec G g hg uid kind i l hi s speed
  rw [h] at h'; cases h'
  rw [hp]
  rcases hs with hs | ⟨amp, w, ph, hs⟩
  · exact straight_localCoordinates_position l a b s 0 hs hab
  · exact sine_localCoordinates_position l a b amp w ph s 0 hs hab

/-! ## C82 — planned routes -/

/-- The roads along a list of nodes, without lane numbers. -/
def roadsOf : List String → List RouteStep
  | a :: b :: rest => ⟨a, b, none⟩ :: roadsOf (b :: rest)
  | _ => []

private theorem zip_roadsOf (p : List String) : ((p.zip p.tail).map fun ab : String × String => (⟨ab.1, ab.2, none⟩ : RouteStep)) = roadsOf p := by
  induction p with
  | nil => rfl
  | cons a p ih =>
    cases p with
    | nil => rfl
    | cons b p => simpa [roadsOf] using ih

private theorem roadsOf_edges {g : Graph} (p : List String) (h : IsWalk g p) : ∀ s ∈ roadsOf p, Edge g s.src s.dst ∧ s.id = none := by
  induction p with
  | nil => simp [roadsOf]
  | cons a p ih =>
    cases p with
    | nil => simp [roadsOf]
    | cons b p =>
      simp only [IsWalk, List.isChain_cons_cons] at h
      intro s hs
      simp only [roadsOf, List.mem_cons] at hs
      rcases hs with rfl | hs
      · exact ⟨h.1, rfl⟩
      · exact ih h.2 s hs

/-- Planning a route never raises, changes nothing but the route, and the new route starts with the current lane.  If the destination is
where the current road ends, or cannot be reached from there, that is the whole route; otherwise it goes on with the roads of a path
from the end of the current road to the destination such that no path of the network is shorter. -/
theorem planRoute_spec (g : Graph) (hg : IsPyGraph g) (ord : SetOrder) (v : Vehicle) (dest : String) :
    ∃ route, v.planRouteTo g ord dest = .ok { v with route := some (v.laneIndex.toStep :: route) } ∧
      ((v.laneIndex.dst = dest ∨ ¬ ∃ q, WalkFromTo g v.laneIndex.dst dest q) → route = []) ∧
      ((v.laneIndex.dst ≠ dest ∧ ∃ q, WalkFromTo g v.laneIndex.dst dest q) →
        ∃ p, route = roadsOf p ∧ p.Nodup ∧ WalkFromTo g v.laneIndex.dst dest p ∧
          ∀ q, WalkFromTo g v.laneIndex.dst dest q → p.length ≤ q.length) := by
  obtain ⟨p, hp, h1, h2⟩ := shortestPath_correct g hg ord v.laneIndex.dst dest
  refine ⟨roadsOf p, ?_, fun h => ?_, fun ⟨hne, hq⟩ => ?_⟩
  · unfold Vehicle.planRouteTo
    rw [hp]
    simp only [bind, Except.bind, pure, Except.pure]
    rw [zip_roadsOf]
  · rw [h2.2 h]; rfl
  · have hp' : p ≠ [] := fun h => by
      rcases h2.1 h with h | h
      · exact hne h
      · exact h hq
    obtain ⟨a, b, c⟩ := h1 hp'
    exact ⟨p, rfl, a, b, c⟩

/-- A planned route uses existing roads only, each starting where the previous one ends, and ends at the destination when there is a way
to it. -/
theorem planRoute_route (g : Graph) (hg : IsPyGraph g) (ord : SetOrder) (v v' : Vehicle) (dest : String)
    (hv : ValidIndex g v.laneIndex) (h : v.planRouteTo g ord dest = .ok v') :
    RouteExists g v'.route ∧ (v'.route.getD []).IsChain (fun s t => s.dst = t.src) ∧
    ((v.laneIndex.dst = dest ∨ ∃ q, WalkFromTo g v.laneIndex.dst dest q) →
      (v'.route.getD []).getLast?.map RouteStep.dst = some dest) := by
  obtain ⟨route, hr, h1, h2⟩ := planRoute_spec g hg ord v dest
  rw [h] at hr
  cases hr
  obtain ⟨k, l, hk, ls, hls, _⟩ := hv
  have hhere : Edge g v.laneIndex.toStep.src v.laneIndex.toStep.dst := ⟨ls, hls⟩
  by_cases hc : v.laneIndex.dst ≠ dest ∧ ∃ q, WalkFromTo g v.laneIndex.dst dest q
  · obtain ⟨p, rfl, _, ⟨w1, w2, w3⟩, _⟩ := h2 hc
    refine ⟨?_, ?_, fun _ => ?_⟩
    · intro s hs
      simp only [Option.getD_some, List.mem_cons] at hs
      rcases hs with rfl | hs
      · exact hhere
      · exact (roadsOf_edges p w1 s hs).1
    · have key : ∀ (p : List String) (s : RouteStep), p.head? = some s.dst → (s :: roadsOf p).IsChain (fun s t => s.dst = t.src) := by
        intro p
        induction p with
        | nil => intro s h; simp at h
        | cons a p ih =>
          intro s h
          simp only [List.head?_cons, Option.some.injEq] at h
          cases p with
          | nil => simp [roadsOf]
          | cons b p =>
            simp only [roadsOf, List.isChain_cons_cons]
            exact ⟨h.symm, ih _ rfl⟩
      exact key p v.laneIndex.toStep w2
    · have key : ∀ (p : List String) (s : RouteStep), p.head? = some s.dst → (s :: roadsOf p).getLast?.map RouteStep.dst = p.getLast? := by
        intro p
        induction p with
        | nil => intro s h; simp at h
        | cons a p ih =>
          intro s h
          simp only [List.head?_cons, Option.some.injEq] at h
          cases p with
          | nil => simp [roadsOf, h]
          | cons b p =>
            rw [roadsOf, List.getLast?_cons_cons, List.getLast?_cons_cons]
            exact ih _ rfl
      exact (key p v.laneIndex.toStep w2).trans w3
  · have hr : route = [] := by
      apply h1
      by_contra hn
      push Not at hn
      exact hc ⟨hn.1, hn.2⟩
    subst hr
    refine ⟨?_, by simp, fun hd => ?_⟩
    · intro s hs
      simp only [Option.getD_some, List.mem_singleton] at hs
      subst hs; exact hhere
    · have : v.laneIndex.dst = dest := by
        rcases hd with hd | hd
        · exact hd
        · by_contra hn; exact hc ⟨hn, hd⟩
      simp [LaneIndex.toStep, this]

/-- Where the roads into the destination have a single lane, the last lane of a planned route can be looked up: the direction of the destination, as
observed, is defined. -/
theorem planRoute_end (g : Graph) (hg : IsPyGraph g) (ord : SetOrder) (v v' : Vehicle) (dest : String)
    (hv : ValidIndex g v.laneIndex) (hd : ∀ a ls, RoadLanes g a dest ls → ls.length = 1) (h : v.planRouteTo g ord dest = .ok v') :
    RouteEnd g v'.route := by
  obtain ⟨hex, -, hlast⟩ := planRoute_route g hg ord v v' dest hv h
  obtain ⟨route, hr, h1, h2⟩ := planRoute_spec g hg ord v dest
  rw [h] at hr
  cases hr
  intro s hs
  have hmem := List.mem_of_getLast? hs
  have he := hex s hmem
  simp only [Option.getD_some, List.mem_cons] at hmem
  rcases hmem with rfl | hmem
  · obtain ⟨k, l, hk, hl⟩ := hv
    exact ⟨l, getLane_of_hasLane hg hk hl⟩
  · by_cases hc : v.laneIndex.dst ≠ dest ∧ ∃ q, WalkFromTo g v.laneIndex.dst dest q
    · obtain ⟨p, rfl, _, ⟨w1, _, _⟩, _⟩ := h2 hc
      have hid : s.id = none := (roadsOf_edges p w1 s hmem).2
      have hdst := hlast (.inr hc.2)
      rw [hs] at hdst
      simp only [Option.map_some, Option.some.injEq] at hdst
      obtain ⟨x, y, i⟩ := s
      dsimp only at hid he hdst
      subst hid hdst
      obtain ⟨ls, hls⟩ := he
      have hlen := hd x ls hls
      cases ls with
      | nil => cases hlen
      | cons l ls =>
        refine ⟨l, ?_⟩
        unfold getLaneStep
        rw [(lanesOf_ok_iff hg).2 hls]
        simp only [bind, Except.bind]
        rw [if_pos hlen]
        rfl
    · rw [h1 (by by_cases hd : v.laneIndex.dst = dest; exact .inl hd; exact .inr fun hq => hc ⟨hd, hq⟩)] at hmem
      simp at hmem

/-! ## C83 — choosing the road to follow at the next intersection -/

/-- The first of the first three elements of the route is followed by a choice between the roads to `dests` (at least two). -/
def Branching (g : Graph) (route : List RouteStep) (k : ℕ) (s : RouteStep) (dests : List String) : Prop :=
  route[k]? = some s ∧ k < 3 ∧ 2 ≤ dests.length ∧ (∃ d, (s.dst, d) ∈ g ∧ d.map Prod.fst = dests) ∧
    ∀ j t, j < k → route[j]? = some t → ∀ d, (t.dst, d) ∈ g → d.length ≤ 1

private theorem branchIndex_spec {g : Graph} (hg : IsPyGraph g) (route : List RouteStep) (k0 : ℕ) :
    (Vehicle.branchIndex g k0 route = none → ∀ t ∈ route, ∀ d, (t.dst, d) ∈ g → d.length ≤ 1) ∧
    ∀ k d, Vehicle.branchIndex g k0 route = some (k, d) → ∃ j s, k = k0 + j ∧ route[j]? = some s ∧ (s.dst, d) ∈ g ∧ 2 ≤ d.length ∧
      ∀ i t, i < j → route[i]? = some t → ∀ d, (t.dst, d) ∈ g → d.length ≤ 1 := by
  induction route generalizing k0 with
  | nil => exact ⟨by simp, by simp [Vehicle.branchIndex]⟩
  | cons a rest ih =>
    obtain ⟨i1, i2⟩ := ih (k0 + 1)
    have step : (∀ d, (a.dst, d) ∈ g → d.length ≤ 1) → Vehicle.branchIndex g k0 (a :: rest) = Vehicle.branchIndex g (k0 + 1) rest →
        (Vehicle.branchIndex g k0 (a :: rest) = none → ∀ t ∈ a :: rest, ∀ d, (t.dst, d) ∈ g → d.length ≤ 1) ∧
        ∀ k d, Vehicle.branchIndex g k0 (a :: rest) = some (k, d) → ∃ j s, k = k0 + j ∧ (a :: rest)[j]? = some s ∧ (s.dst, d) ∈ g ∧
          2 ≤ d.length ∧ ∀ i t, i < j → (a :: rest)[i]? = some t → ∀ d, (t.dst, d) ∈ g → d.length ≤ 1 := by
      intro ha he
      rw [he]
      refine ⟨fun h t ht => ?_, fun k d h => ?_⟩
      · rcases List.mem_cons.1 ht with rfl | ht
        · exact ha
        · exact i1 h t ht
      · obtain ⟨j, s, e, h1, h2, h3, h4⟩ := i2 k d h
        refine ⟨j + 1, s, by omega, by simpa using h1, h2, h3, fun i t hi ht => ?_⟩
        cases i with
        | zero => simp only [List.getElem?_cons_zero, Option.some.injEq] at ht; subst ht; exact ha
        | succ i => exact h4 i t (by omega) (by simpa using ht)
    rcases hd : Dict.get? g a.dst with _ | d
    · apply step
      · intro d hm
        exact absurd (List.mem_map.2 ⟨_, hm, rfl⟩) (Dict.get?_eq_none_iff.1 hd)
      · conv_lhs => unfold Vehicle.branchIndex
        rw [hd]
    · have hm := Dict.mem_of_get? hd
      by_cases h2 : 2 ≤ d.length
      · have he : Vehicle.branchIndex g k0 (a :: rest) = some (k0, d) := by
          unfold Vehicle.branchIndex; rw [hd]; simp only [if_pos h2]
        rw [he]
        refine ⟨by simp, fun k d' h => ?_⟩
        simp only [Option.some.injEq, Prod.mk.injEq] at h
        obtain ⟨rfl, rfl⟩ := h
        exact ⟨0, a, rfl, rfl, hm, h2, by omega⟩
      · apply step
        · intro d' hm'
          have : d' = d := by
            have := (Dict.get?_eq_some_iff hg.outer).2 hm'
            rw [hd] at this; simpa using this.symm
          subst this; omega
        · conv_lhs => unfold Vehicle.branchIndex
          rw [hd]; simp only [if_neg h2]

/-- Choosing the road at the next intersection never raises and changes nothing but the route.  If one of the first three elements of
the route leads to a node with at least two roads, the route is cut after the first such element and continued by the road number
`choice` modulo the number of roads (in the order of the network; a random one for a random choice), with the lane number of the element before;
without such an element, or without a route, the route is unchanged. -/
theorem chooseRoute_spec (g : Graph) (hg : IsPyGraph g) (rng : Rng) (v : Vehicle) (choice : Option Int) :
    ∃ v' rng', v.setRouteAtIntersection g rng choice = .ok (v', rng') ∧ v' = { v with route := v'.route } ∧
      (∀ k s dests, Branching g (v.route.getD []) k s dests → ∃ (j : ℕ) (dest : String), dests[j]? = some dest ∧
        (∀ c, choice = some c → (j : Int) = c % (dests.length : Int)) ∧
        v'.route = some ((v.route.getD []).take (k + 1) ++ [⟨s.dst, dest, s.id⟩])) ∧
      ((¬ ∃ k s dests, Branching g (v.route.getD []) k s dests) → v'.route = v.route) := by
  -- total and uniform description
  have hroutes : ∀ routes : List (List RouteStep), v.routesAtIntersection g = routes → routes ≠ [] →
      ∃ (j : ℕ) (route : List RouteStep) (rng' : Rng), routes[j]? = some route ∧ (∀ c, choice = some c → (j : Int) = c % (routes.length : Int)) ∧
        v.setRouteAtIntersection g rng choice = .ok ({ v with route := some route }, rng') := by
    intro routes hr hne
    have hlen : 0 < routes.length := List.length_pos_iff.2 hne
    have pick : ∀ (c : Int) (r' : Rng), Vehicle.routeChoice rng routes.length choice = .ok (c, r') → ∃ (j : ℕ) (route : List RouteStep),
        routes[j]? = some route ∧ (j : Int) = c % (routes.length : Int) ∧
        v.setRouteAtIntersection g rng choice = .ok ({ v with route := some route }, r') := by
      intro c r' hc
      have h0 : 0 ≤ c % (routes.length : Int) := Int.emod_nonneg _ (by omega)
      have h1 : c % (routes.length : Int) < routes.length := Int.emod_lt_of_pos _ (by omega)
      have hj : (c % (routes.length : Int)).toNat < routes.length := by omega
      refine ⟨(c % (routes.length : Int)).toNat, routes[(c % (routes.length : Int)).toNat], List.getElem?_eq_getElem hj, by omega, ?_⟩
      have hp : pyIndex routes (c % (routes.length : Int)) = .ok routes[(c % (routes.length : Int)).toNat] :=
        pyIndex_ok_iff.2 (.inl ⟨h0, List.getElem?_eq_getElem hj⟩)
      unfold Vehicle.setRouteAtIntersection
      simp only [hr, if_neg hne, hc, hp, bind, Except.bind, pure, Except.pure]
    cases choice with
    | none =>
      have : ∃ c r', Vehicle.routeChoice rng routes.length none = .ok (c, r') := by
        unfold Vehicle.routeChoice Rng.randint
        simp only [if_neg hlen.ne', bind, Except.bind, pure, Except.pure]
        exact ⟨_, _, rfl⟩
      obtain ⟨c, r', hc⟩ := this
      obtain ⟨j, route, h1, _, h3⟩ := pick c r' hc
      exact ⟨j, route, r', h1, by simp, h3⟩
    | some c =>
      obtain ⟨j, route, h1, h2, h3⟩ := pick c rng rfl
      exact ⟨j, route, rng, h1, by rintro _ ⟨⟩; exact h2, h3⟩
  have same : v.routesAtIntersection g = [] → v.route.getD [] = [] →
      ∃ v' rng', v.setRouteAtIntersection g rng choice = .ok (v', rng') ∧ v' = { v with route := v'.route } ∧
      (∀ k s dests, Branching g (v.route.getD []) k s dests → ∃ (j : ℕ) (dest : String), dests[j]? = some dest ∧
        (∀ c, choice = some c → (j : Int) = c % (dests.length : Int)) ∧
        v'.route = some ((v.route.getD []).take (k + 1) ++ [⟨s.dst, dest, s.id⟩])) ∧
      ((¬ ∃ k s dests, Branching g (v.route.getD []) k s dests) → v'.route = v.route) := by
    intro h0 h1
    refine ⟨v, rng, by unfold Vehicle.setRouteAtIntersection; simp [h0], rfl, fun k s dests hb => ?_, fun _ => rfl⟩
    have := hb.1
    rw [h1] at this
    simp at this
  rcases hr : v.route with _ | _ | ⟨a, rest⟩
  · have := same (by unfold Vehicle.routesAtIntersection; rw [hr]) (by rw [hr]; rfl)
    rwa [hr] at this
  · have := same (by unfold Vehicle.routesAtIntersection; rw [hr]) (by rw [hr]; rfl)
    rwa [hr] at this
  · simp only [Option.getD_some]
    obtain ⟨b1, b2⟩ := branchIndex_spec hg ((a :: rest).take 3) 0
    rcases hb : Vehicle.branchIndex g 0 ((a :: rest).take 3) with _ | ⟨k, d⟩
    · have he : v.routesAtIntersection g = [a :: rest] := by
        unfold Vehicle.routesAtIntersection; rw [hr]; simp only [hb]
      obtain ⟨j, route, rng', h1, _, h3⟩ := hroutes _ he (by simp)
      have hj : route = a :: rest := by
        have := List.mem_of_getElem? h1
        simpa using this
      subst hj
      refine ⟨_, rng', h3, rfl, fun k s dests hbr => ?_, fun _ => rfl⟩
      obtain ⟨c1, c2, c3, ⟨d, c4, c5⟩, _⟩ := hbr
      have hm : s ∈ (a :: rest).take 3 := List.mem_of_getElem? (i := k) (by rw [List.getElem?_take]; simp [c2, c1])
      have := b1 hb s hm d c4
      rw [← c5, List.length_map] at c3
      omega
    · obtain ⟨j, s, hk, hs, hd, h2, hmin⟩ := b2 k d hb
      simp only [Nat.zero_add] at hk
      subst hk
      have hk3 : k < 3 := by
        by_contra hc
        rw [List.getElem?_take] at hs
        simp [hc] at hs
      have hs' : (a :: rest)[k]? = some s := by
        rw [List.getElem?_take] at hs
        simpa [hk3] using hs
      have hbr : Branching g (a :: rest) k s (d.map Prod.fst) := by
        refine ⟨hs', hk3, by simpa using h2, ⟨d, hd, rfl⟩, fun i t hi ht => hmin i t hi ?_⟩
        rw [List.getElem?_take]
        simp [show i < 3 by omega, ht]
      have he : v.routesAtIntersection g = (d.map Prod.fst).map fun dest => (a :: rest).take (k + 1) ++ [⟨s.dst, dest, s.id⟩] := by
        unfold Vehicle.routesAtIntersection
        rw [hr]
        simp only [hb, hs', Dict.keys]
      have hne : (d.map Prod.fst).map (fun dest => (a :: rest).take (k + 1) ++ [(⟨s.dst, dest, s.id⟩ : RouteStep)]) ≠ [] := by
        intro h
        have := congrArg List.length h
        simp at this
        subst this
        simp at h2
      obtain ⟨j, route, rng', h1, h2', h3⟩ := hroutes _ he hne
      refine ⟨_, rng', h3, rfl, fun k' s' dests hbr' => ?_, fun hn => absurd ⟨_, _, _, hbr⟩ hn⟩
      have hkk : k' = k := by
        obtain ⟨c1, c2, c3, ⟨d', c4, c5⟩, c6⟩ := hbr'
        by_contra hne
        rcases Nat.lt_or_gt_of_ne hne with hlt | hlt
        · have := hbr.2.2.2.2 k' s' hlt c1 d' c4
          rw [← c5, List.length_map] at c3
          omega
        · have := c6 k s hlt hs' d hd
          omega
      subst hkk
      have hss : s' = s := by
        have := hbr'.1
        rw [hs'] at this; simpa using this.symm
      subst hss
      obtain ⟨c1, c2, c3, ⟨d', c4, c5⟩, c6⟩ := hbr'
      have hdd : d' = d := by
        have e1 := (Dict.get?_eq_some_iff hg.outer).2 c4
        have e2 := (Dict.get?_eq_some_iff hg.outer).2 hd
        rw [e1] at e2; simpa using e2
      subst hdd
      subst c5
      rw [List.getElem?_map] at h1
      obtain ⟨dest, hdest, rfl⟩ := Option.map_eq_some_iff.1 h1
      refine ⟨j, dest, hdest, fun c hc => ?_, rfl⟩
      have := h2' c hc
      simpa using this

/-- The chosen road exists: routes using existing roads stay so. -/
theorem chooseRoute_exists (g : Graph) (hg : IsPyGraph g) (rng rng' : Rng) (v v' : Vehicle) (choice : Option Int)
    (hr : RouteExists g v.route) (h : v.setRouteAtIntersection g rng choice = .ok (v', rng')) : RouteExists g v'.route := by
  obtain ⟨w, r', hw, _, h1, h2⟩ := chooseRoute_spec g hg rng v choice
  rw [h] at hw
  cases hw
  by_cases hb : ∃ k s dests, Branching g (v.route.getD []) k s dests
  · obtain ⟨k, s, dests, hb⟩ := hb
    obtain ⟨j, dest, hd, _, he⟩ := h1 k s dests hb
    rw [he]
    intro t ht
    simp only [Option.getD_some, List.mem_append, List.mem_singleton] at ht
    rcases ht with ht | rfl
    · exact hr t (List.mem_of_mem_take ht)
    · obtain ⟨_, _, _, ⟨d, c4, c5⟩, _⟩ := hb
      have hm := List.mem_of_getElem? hd
      rw [← c5] at hm
      obtain ⟨⟨b, ls⟩, hbl, rfl⟩ := List.mem_map.1 hm
      exact ⟨ls, d, c4, hbl⟩
  · rw [h2 hb]; exact hr

/-- In the demonstration network the road `a → b` is followed by a choice between `c` and `a`. -/
example : Branching demoGraph [⟨"a", "b", some 0⟩, ⟨"b", "c", none⟩] 0 ⟨"a", "b", some 0⟩ ["c", "a"] := by
  refine ⟨rfl, by norm_num, by norm_num, ⟨(Dict.get? demoGraph "b").getD [], ?_, ?_⟩, by omega⟩ <;>
    simp [demoGraph, addLane, Dict.get?, Dict.setItem]

/-! ## C84 — aborting a lane change -/

/-- Another controlled vehicle is changing into the same lane, ahead, within the desired gap: `u` aims at the target lane of `v`, is not
on it yet, and its distance along the lane of `v` is positive and smaller than the gap the traffic model desires to a vehicle moving like `u`. -/
def CutsIn (G : Globals) (v u : Vehicle) : Prop :=
  u.uid ≠ v.uid ∧ u.kind.isControlled = true ∧ u.targetLane = v.targetLane ∧ u.laneIndex ≠ v.targetLane ∧
  0 < (v.lane.localCoordinates u.pos).1 - (v.lane.localCoordinates v.pos).1 ∧
  (v.lane.localCoordinates u.pos).1 - (v.lane.localCoordinates v.pos).1 <
    idmGap (G.distanceWanted v.kind) (if v.kind.isLinear then 2.5 else 1.5) (G.comfortAccMax v.kind) (-G.comfortAccMin v.kind) v.speed
      (v.speed - (u.speed * Real.cos u.heading * Real.cos v.heading + u.speed * Real.sin u.heading * Real.sin v.heading))

private theorem abortedBy_iff (G : Globals) (v u : Vehicle) : Vehicle.abortedBy G v u = true ↔ CutsIn G v u := by
  have hgap : Vehicle.desiredGap G v.kind v (.veh u) =
      idmGap (G.distanceWanted v.kind) (if v.kind.isLinear then 2.5 else 1.5) (G.comfortAccMax v.kind) (-G.comfortAccMin v.kind) v.speed
      (v.speed - (u.speed * Real.cos u.heading * Real.cos v.heading + u.speed * Real.sin u.heading * Real.sin v.heading)) := by
    unfold Vehicle.desiredGap idmGap Vehicle.timeWanted
    have h1 : -G.comfortAccMax v.kind * G.comfortAccMin v.kind = G.comfortAccMax v.kind * -G.comfortAccMin v.kind := by ring
    have h2 : (v.velocity - (Entity.veh u).velocity).dot v.direction =
        v.speed - (u.speed * Real.cos u.heading * Real.cos v.heading + u.speed * Real.sin u.heading * Real.sin v.heading) := by
      simp only [Vec2.dot, Entity.velocity, Vehicle.velocity, Vehicle.direction, Vec2.dir, Vec2.sub_x, Vec2.sub_y, Vec2.smul_x, Vec2.smul_y]
      have := Real.sin_sq_add_cos_sq v.heading
      linear_combination v.speed * this
    have h3 : (if v.kind.isLinear = true then (5 / 2 : ℝ) else 3 / 2) = if v.kind.isLinear = true then 2.5 else 1.5 := by
      split <;> norm_num
    rw [h2, h3]
    simp only [h1]
  unfold Vehicle.abortedBy CutsIn Vehicle.laneDistanceTo
  rw [hgap]
  simp only [Bool.and_eq_true, decide_eq_true_eq]
  constructor
  · rintro ⟨⟨⟨⟨a, b⟩, c⟩, d⟩, e, f⟩; exact ⟨a, c, d, b, e, f⟩
  · rintro ⟨a, c, d, b, e, f⟩; exact ⟨⟨⟨⟨a, b⟩, c⟩, d⟩, e, f⟩

/-- A traffic vehicle that is in the middle of a lane change (following the road gives a target lane beside the lane it is on) gives it
up, and aims at the lane it is on, exactly when another vehicle cuts in; otherwise it keeps its target, and in no case restarts its decision
timer. -/
theorem lane_change_abort (G : Globals) (r : Road) (v v' w : Vehicle) (a : VAction) (rng rng' : Rng)
    (hk : v.kind.isIDM = true) (hc : v.crashed = false) (he : v.enableLaneChange = true)
    (h : v.act G r a = .ok (v', rng'))
    (hf : v.followRoad r.network r.rng = .ok (w, rng)) (hne : w.targetLane ≠ v.laneIndex)
    (hsrc : w.targetLane.src = v.laneIndex.src) (hdst : w.targetLane.dst = v.laneIndex.dst) :
    v'.timer = v.timer ∧
    ((∃ u ∈ r.vehicles, CutsIn G { v with targetLane := w.targetLane } u) → v'.targetLane = v.laneIndex) ∧
    ((¬ ∃ u ∈ r.vehicles, CutsIn G { v with targetLane := w.targetLane } u) → v'.targetLane = w.targetLane) := by
  have hi := Vehicle.act_idm hk h
  obtain ⟨w', t, tm, st, acc, front, rear, h1, h2, h3, h4, rfl⟩ := Vehicle.idmAct_shape hc hi
  rw [hf] at h1
  cases h1
  obtain ⟨t1, ro, hw⟩ := Vehicle.followRoad_shape hf
  have hcut : ∀ u, Vehicle.abortedBy G w u = true ↔ CutsIn G { v with targetLane := w.targetLane } u := by
    intro u
    rw [abortedBy_iff, hw]
    rfl
  have hl : w.laneIndex = v.laneIndex := by rw [hw]
  have htm : w.timer = v.timer := by rw [hw]
  have hen : w.enableLaneChange = true := by rw [hw]; exact he
  unfold Vehicle.maybeChangeLane at h3
  rw [if_pos hen] at h3
  unfold Vehicle.changeLanePolicy at h3
  rw [if_pos (by rw [hl]; exact hne.symm), if_pos (by rw [hl]; exact ⟨hsrc.symm, hdst.symm⟩)] at h3
  dsimp only
  by_cases hx : r.vehicles.any (Vehicle.abortedBy G w) = true
  · rw [if_pos hx] at h3
    have e := Except.ok.inj h3
    have e1 : t = w.laneIndex := by have := congrArg Vehicle.targetLane e; exact this.symm
    have e2 : tm = w.timer := by have := congrArg Vehicle.timer e; exact this.symm
    obtain ⟨u, hu, hab⟩ := List.any_eq_true.1 hx
    exact ⟨e2.trans htm, fun _ => e1.trans hl, fun hn => absurd ⟨u, hu, (hcut u).1 hab⟩ hn⟩
  · rw [if_neg hx] at h3
    have e := Except.ok.inj h3
    have e1 : t = w.targetLane := by have := congrArg Vehicle.targetLane e; exact this.symm
    have e2 : tm = w.timer := by have := congrArg Vehicle.timer e; exact this.symm
    refine ⟨e2.trans htm, fun ⟨u, hu, hc⟩ => ?_, fun _ => e1⟩
    exact absurd (List.any_eq_true.2 ⟨u, hu, (hcut u).2 hc⟩) hx

/-! The hypotheses are met: two vehicles on lane 0 both changing to lane 1, one 10 m ahead of the other. -/

namespace Rivals
/-- A vehicle changing to lane 1. -/
def car : Vehicle := { Sample.car 0 .idm 10 0 20 with targetLane := ⟨"0", "1", 1⟩ }
/-- Another one, 10 m ahead. -/
def rival : Vehicle := { Sample.car 1 .idm 20 0 20 with targetLane := ⟨"0", "1", 1⟩ }
/-- The road with both. -/
def road : Road := { network := Sample.net, vehicles := [car, rival], rng := { ints := fun _ => 0, reals := fun _ => 0 } }

theorem healthy : Healthy road where
  wf := Sample.net_wf
  attached := by
    have h : ∀ v : Vehicle, v.laneIndex = ⟨"0", "1", 0⟩ → v.lane = Sample.lane 0 → v.targetLane = ⟨"0", "1", 1⟩ → v.route = none →
        Attached road.network v ∧ RouteExists road.network v.route := by
      intro v h1 h2 h3 h4
      refine ⟨⟨?_, ?_, ?_⟩, by rw [h4]; intro s hs; cases hs⟩
      · rw [h1]; exact ⟨0, _, rfl, Sample.net_has0⟩
      · rw [h1, h2]; exact Stuck.lane0
      · rw [h3]; exact ⟨1, _, rfl, Sample.net_has1⟩
    intro v hv
    simp only [road, List.mem_cons, List.not_mem_nil, or_false] at hv
    rcases hv with rfl | rfl
    · exact h _ rfl rfl rfl rfl
    · exact h _ rfl rfl rfl rfl
  linear := by
    rintro ⟨v, hv, hl⟩
    simp only [road, List.mem_cons, List.not_mem_nil, or_false] at hv
    rcases hv with rfl | rfl <;> simp [car, rival, Sample.car, VKind.isLinear] at hl
  regulated := by simp [road]

theorem follows : car.followRoad road.network road.rng = .ok (car, road.rng) := by
  unfold Vehicle.followRoad
  rw [show road.network = Sample.net from rfl, show car.targetLane = ⟨"0", "1", 1⟩ from rfl, Stuck.lane1]
  simp only [bind, Except.bind]
  rw [if_neg]
  · rfl
  · rw [Lane.afterEnd_iff, show car.pos = ⟨10, 0⟩ from rfl, Sample.lane_local, Sample.lane_length]
    norm_num

theorem cuts : CutsIn {} car rival := by
  refine ⟨by simp [car, rival, Sample.car], rfl, rfl, by simp [car, rival, Sample.car], ?_⟩
  rw [show car.lane = Sample.lane 0 from rfl, show rival.pos = ⟨20, 0⟩ from rfl, show car.pos = ⟨10, 0⟩ from rfl, Sample.lane_local,
    Sample.lane_local]
  norm_num [idmGap, car, rival, Sample.car, VKind.isLinear]

/-- The first vehicle gives up its lane change. -/
example : ∃ v' rng', car.act {} road .none = .ok (v', rng') ∧ v'.targetLane = car.laneIndex := by
  obtain ⟨⟨v', rng'⟩, h⟩ := act_never_raises {} road healthy car (by simp [road]) .none (.inl rfl)
  exact ⟨v', rng', h, (lane_change_abort {} road car v' car .none _ _ rfl rfl rfl h follows (by simp [car, Sample.car]) rfl rfl).2.1
    ⟨rival, by simp [road], cuts⟩⟩

end Rivals

end HighwayEnv.Props
