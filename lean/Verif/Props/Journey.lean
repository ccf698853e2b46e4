import Verif.Props.Settle
import Verif.Lemmas.Segment
import Verif.Spec.Journey

/-!
# C113: a journey along roads laid end to end
-/

noncomputable section
open Classical
namespace HighwayEnv.Props
open HighwayEnv Spec Graph

namespace Journey

variable {g : Graph} {o : Vec2} {θ : ℝ} {N m : ℕ} {node : ℕ → String} {x : ℕ → ℝ} {lane : ℕ → Lane}

theorem arctan2_dir (h : -Real.pi < θ ∧ θ ≤ Real.pi) : arctan2 (Vec2.dir θ).y (Vec2.dir θ).x = θ := by
  unfold arctan2 Vec2.dir
  have : (⟨Real.cos θ, Real.sin θ⟩ : ℂ) = Complex.cos θ + Complex.sin θ * Complex.I := by
    apply Complex.ext <;> simp [← Complex.ofReal_cos, ← Complex.ofReal_sin]
  dsimp only
  rw [this]
  exact Complex.arg_cos_add_sin_mul_I ⟨h.1, h.2⟩

theorem along (o : Vec2) (θ : ℝ) {s s' : ℝ} (h : s < s') : Along (pointAt o θ s) (pointAt o θ s') (Vec2.dir θ) (s' - s) where
  x := by simp [pointAt]; ring
  y := by simp [pointAt]; ring
  unit := by simp [Vec2.dir]
  pos := by linarith

/-- The lanes of the chain: local coordinates, length, heading. -/
theorem lane_geom (hc : RoadChain g o θ N node m x lane) {k : ℕ} (hk : k < N) :
    (∀ s, (lane k).localCoordinates (pointAt o θ s) = (s - x k, 0)) ∧ (lane k).length = x (k + 1) - x k ∧ ∀ s, (lane k).headingAt s = θ := by
  have hl := hc.long k hk
  have ha := along o θ (show x k < x (k + 1) by linarith)
  have hsc := Real.sin_sq_add_cos_sq θ
  refine ⟨fun s => ?_, ?_, fun s => ?_⟩
  · unfold Lane.localCoordinates
    rw [hc.straight k hk]
    dsimp only
    rw [ha.straightLocal]
    ext
    · simp [pointAt, Vec2.dir]; linear_combination (s - x k) * hsc
    · simp [pointAt, Vec2.dir]; ring
  · unfold Lane.length
    rw [hc.straight k hk]
    exact ha.norm
  · unfold Lane.headingAt
    rw [hc.straight k hk]
    dsimp only
    rw [ha.heading, arctan2_dir hc.angle]

theorem getLane (hw : WellFormed g) (hc : RoadChain g o θ N node m x lane) {k : ℕ} (hk : k < N) : g.getLane (chainLane node m k) = .ok (lane k) :=
  getLane_of_hasLane hw.toIsPyGraph (show (chainLane node m k).id = (m : Int) from rfl) (hc.lanes k hk)

theorem monotone (hc : RoadChain g o θ N node m x lane) {j k : ℕ} (hjk : j ≤ k) (hk : k ≤ N) : x j ≤ x k := by
  induction k with
  | zero => rw [Nat.le_zero.1 hjk]
  | succ k ih =>
    rcases Nat.le_succ_iff.1 hjk with h | h
    · have := hc.long k (by omega)
      linarith [ih h (by omega)]
    · rw [h]

/-- The road of the chain at a given distance. -/
theorem road_at (hc : RoadChain g o θ N node m x lane) {s : ℝ} (h0 : x 0 ≤ s) (h1 : s ≤ x N) (hN : 0 < N) : ∃ k < N, x k ≤ s ∧ s ≤ x (k + 1) := by
  by_contra hno
  push Not at hno
  have : ∀ k ≤ N, x k ≤ s ∧ (0 < k → x k < s) := by
    intro k hk
    induction k with
    | zero => exact ⟨h0, fun h => absurd h (by omega)⟩
    | succ k ih =>
      have := hno k (by omega) (ih (by omega)).1
      exact ⟨this.le, fun _ => this⟩
  have := (this N le_rfl).2 hN
  linarith

theorem through_of_zero {l : Lane} {p : Vec2} {h : ℝ} (hz : l.distanceWithHeading p (some h) ≤ 0) : Through l p h := by
  unfold Lane.distanceWithHeading at hz
  dsimp only at hz
  have a1 := abs_nonneg (l.localCoordinates p).2
  have a2 := le_max_right ((l.localCoordinates p).1 - l.length) 0
  have a3 := le_max_right (0 - (l.localCoordinates p).1) 0
  have a4 := abs_nonneg (wrapToPi (h - l.headingAt (l.localCoordinates p).1))
  have b2 := le_max_left ((l.localCoordinates p).1 - l.length) 0
  have b3 := le_max_left (0 - (l.localCoordinates p).1) 0
  exact ⟨abs_eq_zero.1 (by linarith), by linarith, by linarith, abs_eq_zero.1 (by linarith)⟩

/-- The lane found for a vehicle on the line, aligned with it. -/
theorem closest (hw : WellFormed g) (hc : RoadChain g o θ N node m x lane) {s : ℝ} (h0 : x 0 ≤ s) (h1 : s ≤ x N) (hN : 0 < N) {i : LaneIndex}
    (hi : g.getClosestLaneIndex (pointAt o θ s) (some θ) = .ok i) : ∃ k < N, i = chainLane node m k ∧ x k ≤ s ∧ s ≤ x (k + 1) := by
  obtain ⟨⟨k, l', e, hk⟩, l, hl, hmin⟩ := closestLane_minimal g hw.toIsPyGraph _ _ i hi
  have e2 := getLane_of_hasLane hw.toIsPyGraph e hk
  rw [hl] at e2
  cases e2
  obtain ⟨q, hq, q0, q1⟩ := road_at hc h0 h1 hN
  have hz : (lane q).distanceWithHeading (pointAt o θ s) (some θ) = 0 := by
    obtain ⟨g1, g2, g3⟩ := lane_geom hc hq
    unfold Lane.distanceWithHeading
    dsimp only
    rw [g1, g2, g3, sub_self, wrapToPi_zero, abs_zero, max_eq_right (by dsimp only; linarith), max_eq_right (by dsimp only; linarith)]
    norm_num
  have := hmin _ _ (getLane hw hc hq)
  rw [hz] at this
  have hth := through_of_zero this
  obtain ⟨j, hj, r1, r2, r3⟩ := hc.noOther s h0 h1 _ _ _ _ hk hth
  have hij : i = chainLane node m j := by
    obtain ⟨a, b, c⟩ := i
    simp only at r1 r2 e
    subst r1 r2 r3 e
    rfl
  rw [hij, getLane hw hc hj] at hl
  cases hl
  obtain ⟨g1, g2, _⟩ := lane_geom hc hj
  have t1 := hth.begun
  have t2 := hth.notOver
  rw [g1] at t1 t2
  rw [g2] at t2
  dsimp only at t1 t2
  exact ⟨j, hj, hij, by linarith, by linarith⟩

/-- The next lane, at the end of road `j`. -/
theorem next_lane (hw : WellFormed g) (hc : RoadChain g o θ N node m x lane) {j : ℕ} (hj : j + 1 < N) {v : Vehicle} (hg : Guided g N node j v)
    {p : Vec2} {rng rng' : Rng} {i : LaneIndex} {rt : Option (List RouteStep)}
    (h : g.nextLane (chainLane node m j) v.route p rng = .ok (i, rt, rng')) :
    i = chainLane node m (j + 1) ∧ ∀ w : Vehicle, w.route = rt → Guided g N node (j + 1) w := by
  have hon : g.nextLaneOn (chainLane node m j) (node (j + 2)) p = .ok (chainLane node m (j + 1)) := by
    obtain ⟨ls, h1, _⟩ := hc.lanes j (by omega)
    obtain ⟨ls', h2, _⟩ := hc.lanes (j + 1) hj
    unfold nextLaneOn
    have e1 : g.lanesOf (chainLane node m j).src (chainLane node m j).dst = .ok ls := (lanesOf_ok_iff hw.toIsPyGraph).2 h1
    have e2 : g.lanesOf (chainLane node m j).dst (node (j + 2)) = .ok ls' := (lanesOf_ok_iff hw.toIsPyGraph).2 h2
    rw [e1, e2]
    simp only [bind, Except.bind]
    rw [if_pos (hc.sameWidth j hj ls ls' h1 h2)]
    rfl
  have hne : node (j + 2) ≠ "" := hc.named _ (by omega)
  rcases hg with ⟨rt0, hrt0, hmap⟩ | ⟨hnone, hone⟩
  · have hN : N - j = (N - j - 2) + 1 + 1 := by omega
    rw [hN, List.range'_succ, List.range'_succ] at hmap
    match rt0, hmap with
    | [], hmap => simp at hmap
    | [_], hmap => simp at hmap
    | s1 :: s2 :: rest, hmap =>
      simp only [List.map_cons, List.cons.injEq, Prod.mk.injEq] at hmap
      obtain ⟨⟨m1, m2⟩, ⟨m3, m4⟩, m5⟩ := hmap
      have hn : nextFromRoute (chainLane node m j) v.route = (some (s2 :: rest), some (node (j + 2))) := by
        rw [hrt0]
        unfold nextFromRoute
        dsimp only
        rw [if_pos (show s1.src = (chainLane node m j).src ∧ s1.dst = (chainLane node m j).dst from ⟨m1, m2⟩)]
        dsimp only
        rw [if_pos (show s2.src = (chainLane node m j).dst from m3), m4]
      unfold nextLane at h
      rw [hn] at h
      have hst : strTruthy (some (node (j + 2))) = true := by simp [strTruthy, hne]
      simp only [hst, if_true, Option.getD_some] at h
      rw [hon] at h
      simp only [bind, Except.bind, pure, Except.pure] at h
      cases h
      refine ⟨rfl, fun w hw => .inl ⟨_, hw, ?_⟩⟩
      have hN' : N - (j + 1) = (N - j - 2) + 1 := by omega
      rw [hN', List.range'_succ]
      simp only [List.map_cons, m3, m4, m5]
  · obtain ⟨ls', h2, _⟩ := hc.lanes (j + 1) hj
    have hd : Dict.get? g (node (j + 1)) = some [(node (j + 2), ls')] := by
      obtain ⟨d, hd, hb⟩ := h2
      have hget := (Dict.get?_eq_some_iff hw.outer).2 hd
      rw [hget]
      have hall : ∀ kl ∈ d, kl.1 = node (j + 2) := fun kl hkl => hone (j + 1) (by omega) hj kl.1 ⟨kl.2, d, hd, hkl⟩
      have hnd := hw.inner _ hd
      match d, hb, hall, hnd with
      | [kl], hb, hall, _ =>
        rw [List.mem_singleton] at hb
        rw [← hb]
      | kl :: kl' :: rest, _, hall, hnd =>
        exfalso
        have e1 := hall kl (by simp)
        have e2 := hall kl' (by simp)
        simp [e1, e2] at hnd
    unfold nextLane at h
    rw [hnone] at h
    have hst : strTruthy none = false := rfl
    simp only [nextFromRoute, hst, chainLane, hd] at h
    simp only [Rng.randint, Dict.keys, List.length_cons, List.length_nil, bind, Except.bind, pure, Except.pure] at h
    norm_num at h
    have hon' : g.nextLaneOn ⟨node j, node (j + 1), (m : Int)⟩ (node (j + 2)) p = .ok (chainLane node m (j + 1)) := hon
    rw [Nat.mod_one] at h
    simp only [List.getElem?_cons_zero, Option.getD_some] at h
    rw [hon'] at h
    simp only [Except.ok.injEq, Prod.mk.injEq] at h
    obtain ⟨rfl, rfl, _⟩ := h
    exact ⟨rfl, fun w hw => .inr ⟨hw, hone⟩⟩

/-- `follow_road` on the chain. -/
theorem follow (hw : WellFormed g) (hc : RoadChain g o θ N node m x lane) {s : ℝ} {j : ℕ} {v w : Vehicle} {rng rng' : Rng}
    (hv : Travels o θ N node m x s j v) (hg : Guided g N node j v) (hs : s ≤ x N - 5 / 2) (h : v.followRoad g rng = .ok (w, rng')) :
    ∃ j' route, (j' = j ∨ j' = j + 1) ∧ j' < N ∧ x j' - 5 / 2 ≤ s ∧ s ≤ x (j' + 1) - 5 / 2 ∧
      w = { v with targetLane := chainLane node m j', route := route } ∧ ∀ u : Vehicle, u.route = route → Guided g N node j' u := by
  obtain ⟨a1, a2, a3, a4⟩ := hv.aim
  obtain ⟨g1, g2, _⟩ := lane_geom hc a1
  unfold Vehicle.followRoad at h
  rw [a2, getLane hw hc a1] at h
  obtain ⟨l, hl, h⟩ := bind_ok h
  cases hl
  split at h
  · rename_i haft
    have haft' := (Lane.afterEnd_iff ..).1 haft
    rw [hv.pos, g1, g2] at haft'
    dsimp only at haft'
    have hj : j + 1 < N := by
      by_contra hno
      have : j + 1 = N := by omega
      rw [this] at haft'
      linarith
    obtain ⟨⟨i, rt, rng1⟩, hn, h⟩ := bind_ok h
    cases h
    obtain ⟨rfl, hgd⟩ := next_lane hw hc hj hg hn
    have := hc.long (j + 1) hj
    exact ⟨j + 1, rt, .inr rfl, hj, by linarith, by linarith, rfl, hgd⟩
  · rename_i haft
    have haft' : ¬ _ := fun hh => haft ((Lane.afterEnd_iff ..).2 hh)
    rw [hv.pos, g1, g2] at haft'
    dsimp only at haft'
    cases h
    refine ⟨j, v.route, .inl rfl, a1, a3, by linarith [not_lt.1 haft'], by rw [← a2], fun u hu => ?_⟩
    unfold Guided
    rw [hu]
    exact hg

/-- A decision of a vehicle that keeps its lane. -/
theorem decision {G : Globals} {r : Road} (hw : WellFormed r.network) (hc : RoadChain r.network o θ N node m x lane) {s : ℝ} {j : ℕ} {v v' : Vehicle}
    {rng : Rng} (hv : Travels o θ N node m x s j v) (hg : Guided r.network N node j v) (hs : s ≤ x N - 5 / 2) (hk : KeepsLane r.network N node v)
    (hcr : v.crashed = false) (hact : v.act G r .none = .ok (v', rng)) :
    ∃ j', (j' = j ∨ j' = j + 1) ∧ j' < N ∧ x j' - 5 / 2 ≤ s ∧ s ≤ x (j' + 1) - 5 / 2 ∧ v'.targetLane = chainLane node m j' ∧
      Guided r.network N node j' v' ∧ v'.steering = 0 ∧ v'.enableLaneChange = v.enableLaneChange := by
  have hclip : npClip 0 (-Vehicle.MAX_STEERING_ANGLE) Vehicle.MAX_STEERING_ANGLE = 0 :=
    npClip_of_mem (by unfold Vehicle.MAX_STEERING_ANGLE; linarith [Real.pi_pos]) (by unfold Vehicle.MAX_STEERING_ANGLE; positivity)
  have hnl : v.kind.isLinear = false := by rcases hk with e | e | ⟨e, _⟩ <;> rw [e] <;> rfl
  have hsteer : ∀ (u : Vehicle) (st : ℝ) (j' : ℕ), j' < N → u.pos = v.pos → u.heading = v.heading → u.kind = v.kind →
      u.steeringControl r.network (chainLane node m j') = .ok st → st = 0 := by
    intro u st j' hj' e1 e2 e3 h
    obtain ⟨g1, _, g3⟩ := lane_geom hc hj'
    unfold Vehicle.steeringControl at h
    rw [getLane hw hc hj', e3, hnl] at h
    simp only [bind, Except.bind, Bool.false_eq_true, if_false, pure, Except.pure] at h
    injection h with h
    rw [← h]
    exact steering_centred (hc.straight j' hj') (by rw [e1, hv.pos, g1]) (by rw [e2, hv.heading, g3])
  by_cases hI : v.kind = .idm
  · have hi := Vehicle.act_idm (by rw [hI]; rfl) hact
    unfold Vehicle.idmAct at hi
    rw [if_neg (by simp [hcr])] at hi
    obtain ⟨⟨front, rear⟩, hf, hi⟩ := bind_ok hi
    obtain ⟨⟨w1, rng1⟩, hw1, hi⟩ := bind_ok hi
    obtain ⟨w2, hw2, hi⟩ := bind_ok hi
    obtain ⟨st, hst, hi⟩ := bind_ok hi
    obtain ⟨acc, hacc, hi⟩ := bind_ok hi
    cases hi
    obtain ⟨j', ro, hj, hjN, b1, b2, rfl, hgd⟩ := follow hw hc hv hg hs hw1
    have h2 : ∃ tm, w2 = { v with targetLane := chainLane node m j', route := ro, timer := tm } := by
      by_cases hen : v.enableLaneChange = false
      · unfold Vehicle.maybeChangeLane at hw2
        rw [if_neg (by simp [hen])] at hw2
        cases hw2
        exact ⟨v.timer, rfl⟩
      have hone : ∀ k < N, ∀ ls, RoadLanes r.network (node k) (node (k + 1)) ls → ls.length = 1 := by
        rcases hk with e | e | ⟨_, e | e⟩
        · rw [hI] at e; cases e
        · rw [hI] at e; cases e
        · exact absurd e hen
        · exact e
      unfold Vehicle.maybeChangeLane at hw2
      rw [if_pos (by simpa using hen)] at hw2
      unfold Vehicle.changeLanePolicy at hw2
      dsimp only at hw2
      obtain ⟨k, hkN, hlk, _⟩ := hv.on
      by_cases hne : v.laneIndex ≠ chainLane node m j'
      · rw [if_pos hne] at hw2
        have hdiff : ¬ (v.laneIndex.src = (chainLane node m j').src ∧ v.laneIndex.dst = (chainLane node m j').dst) := by
          rintro ⟨e1, _⟩
          rw [hlk] at e1
          have := hc.distinct k hkN.le j' hjN.le e1
          subst this
          exact hne hlk
        rw [if_neg hdiff] at hw2
        cases hw2
        exact ⟨v.timer, rfl⟩
      · rw [if_neg hne] at hw2
        split at hw2
        · have hsd : r.network.sideLanes v.laneIndex = .ok [] := by
            obtain ⟨ls, h1, h3⟩ := hc.lanes k hkN
            have hl1 := hone k hkN ls h1
            have hm0 : m = 0 := by
              have := (List.getElem?_eq_some_iff.1 h3).1
              omega
            unfold sideLanes
            rw [hlk]
            have e1 : r.network.lanesOf (chainLane node m k).src (chainLane node m k).dst = .ok ls := (lanesOf_ok_iff hw.toIsPyGraph).2 h1
            rw [e1]
            simp [bind, Except.bind, pure, Except.pure, hl1, hm0, chainLane]
          rw [hsd] at hw2
          simp only [bind, Except.bind, List.foldlM_nil, pure, Except.pure] at hw2
          cases hw2
          exact ⟨0, rfl⟩
        · cases hw2
          exact ⟨v.timer, rfl⟩
    obtain ⟨tm, rfl⟩ := h2
    have hz := hsteer _ _ j' hjN rfl rfl rfl hst
    subst hz
    exact ⟨j', hj, hjN, b1, b2, rfl, hgd _ rfl, hclip, rfl⟩
  · have hca : v.controlledAct r.network r.rng .none = .ok (v', rng) := by
      unfold Vehicle.act at hact
      rcases hk with e | e | ⟨e, _⟩
      · rw [e] at hact; exact hact
      · rw [e] at hact; exact hact
      · exact absurd e hI
    unfold Vehicle.controlledAct at hca
    obtain ⟨⟨w1, rng1⟩, hw1, hca⟩ := bind_ok hca
    obtain ⟨w2, hw2, hca⟩ := bind_ok hca
    obtain ⟨st, hst, hca⟩ := bind_ok hca
    cases hca
    obtain ⟨j', ro, hj, hjN, b1, b2, rfl, hgd⟩ := follow hw hc hv hg hs hw1
    cases hw2
    have hz := hsteer _ _ j' hjN rfl rfl rfl hst
    subst hz
    exact ⟨j', hj, hjN, b1, b2, rfl, hgd _ rfl, hclip, rfl⟩

/-- One frame of the journey. -/
theorem journey_frame {G : Globals} {dt : ℝ} {k : ℕ} {cmds : List (ℕ × VAction)} {r r' : Road} (hw : WellFormed r.network)
    (hc : RoadChain r.network o θ N node m x lane) (hreg : r.regulated = false) (hcm : ∀ c ∈ cmds, c.1 ≠ k) (h : frame G dt r cmds = .ok r')
    {v w : Vehicle} (hv : r.vehicles[k]? = some v) (hw' : r'.vehicles[k]? = some w) (hcr : v.crashed = false) (hcw : w.crashed = false)
    {s : ℝ} {j : ℕ} (ht : Travels o θ N node m x s j v) (hg : Guided r.network N node j v) (hk : KeepsLane r.network N node v)
    (h0 : x 0 ≤ s) (hs : s ≤ x N - 5 / 2) (hf : 0 ≤ v.speed * dt) (h5 : v.speed * dt ≤ 5) (hend : s + v.speed * dt ≤ x N) :
    r'.regulated = false ∧ ∃ j', (j' = j ∨ j' = j + 1) ∧ Travels o θ N node m x (s + v.speed * dt) j' w ∧ Guided r.network N node j' w ∧
      KeepsLane r.network N node w ∧ w.targetLane = chainLane node m j' ∧ s ≤ x (j' + 1) - 5 / 2 := by
  obtain ⟨hreg', q, v', rng, rec, u, w', hq, hb, hact, hst, hw2, hcase⟩ := Settle.frame_vehicle hreg hcm h hv
  rw [hw'] at hw2; cases hw2
  obtain rfl : w = u := by
    rcases hcase with e | e
    · exact e
    · rw [hcw] at e; cases e
  have hnb : v.kind ≠ .bicycle := by intro e; rcases hk with e' | e' | ⟨e', _⟩ <;> rw [e] at e' <;> cases e'
  have hbody := Vehicle.act_body hact
  have hm := Vehicle.step_mind hst
  obtain ⟨j', hj, hjN, b1, b2, b3, b4, b5, b6⟩ := decision (r := q) (by rw [hq.network]; exact hw) (by rw [hq.network]; exact hc) ht
    (by rw [hq.network]; exact hg) hs (by rw [hq.network]; exact hk) hcr hact
  obtain ⟨k1, k2, _⟩ := step_kin (by rw [hbody.kind]; exact hnb) hst
  have hex : executedSteering v' = 0 := by unfold executedSteering; rw [b5]; simp
  have hslip : Vehicle.slip 0 = 0 := by unfold Vehicle.slip; simp
  rw [hex, hslip] at k1 k2
  rw [add_zero, hbody.pos, hbody.heading, hbody.speed, ht.pos, ht.heading] at k1
  rw [Real.sin_zero, hbody.heading, ht.heading] at k2
  have hh : w.heading = θ := by rw [k2]; ring
  have hp : w.pos = pointAt o θ (s + v.speed * dt) := by
    rw [k1]; unfold pointAt; ext <;> simp <;> ring
  obtain ⟨i, l, hist, hi, hl, hu⟩ := Vehicle.step_ok hst
  rw [hp, hh] at hi
  obtain ⟨k', hk', e1, e2, e3⟩ := closest hw hc (by linarith) hend (by omega) hi
  have hlane : w.laneIndex = i := by rw [hu]
  have htl : w.targetLane = chainLane node m j' := hm.targetLane.trans b3
  refine ⟨hreg', j', hj, ⟨hp, hh, ⟨k', hk', hlane.trans e1, e2, e3⟩, hjN, htl, by linarith, by linarith⟩, ?_, ?_, htl, b2⟩
  · unfold Guided at b4 ⊢
    rw [hm.route, ← hq.network]
    exact b4
  · unfold KeepsLane at hk ⊢
    rw [hm.kind, hbody.kind, hm.enableLaneChange, b6]
    exact hk

end Journey

/-- How far along the line from `o` in direction `θ` a point is. -/
theorem Journey.along_pointAt (o : Vec2) (θ s : ℝ) : (pointAt o θ s - o).dot (Vec2.dir θ) = s := by
  have hsc := Real.sin_sq_add_cos_sq θ
  simp [pointAt, Vec2.dot, Vec2.dir]
  linear_combination s * hsc

/-- **C113.**  On a chain of roads laid end to end, a vehicle that starts on the line and keeps its lane stays exactly on the line, aligned with it, and advances by its speed; the road it
is found on is always the one at its place; the road it heads for is the same or the following one from one frame to the next, from half a vehicle length before its beginning to half
a vehicle length (plus one step) after its end: every road of its route in turn. -/
theorem follows_route (G : Globals) (dt : ℝ) (h0 : 0 ≤ dt) (k : ℕ) (s : ℕ → Road) (cmds : ℕ → List (ℕ × VAction)) (n : ℕ) (v : ℕ → Vehicle)
    (h : Ride G dt k s cmds n v) (hw : WellFormed (s 0).network) {o : Vec2} {θ : ℝ} {N m : ℕ} {node : ℕ → String} {x : ℕ → ℝ} {lane : ℕ → Lane}
    (hc : RoadChain (s 0).network o θ N node m x lane) {a : ℝ} {j0 : ℕ} (ht : Travels o θ N node m x a j0 (v 0)) (hg : Guided (s 0).network N node j0 (v 0))
    (hk : KeepsLane (s 0).network N node (v 0)) (ha : x 0 ≤ a) (h5 : ∀ t < n, (v t).speed * dt ≤ 5)
    (σ : ℕ → ℝ) (hσ0 : σ 0 = a) (hσ : ∀ t, σ (t + 1) = σ t + (v t).speed * dt) (hend : ∀ t < n, σ t ≤ x N - 5 / 2) (hlast : σ n ≤ x N) :
    ∃ j : ℕ → ℕ, j 0 = j0 ∧ (∀ t < n, (j (t + 1) = j t ∨ j (t + 1) = j t + 1) ∧ σ t ≤ x (j (t + 1) + 1) - 5 / 2) ∧
      ∀ t ≤ n, Travels o θ N node m x (σ t) (j t) (v t) ∧ Guided (s 0).network N node (j t) (v t) ∧ (s t).network = (s 0).network := by
  have hle : ∀ t ≤ n, σ t ≤ x N := by
    intro t ht
    rcases Nat.lt_or_ge t n with h' | h'
    · linarith [hend t h']
    · rw [show t = n by omega]; exact hlast
  have hge : ∀ t ≤ n, x 0 ≤ σ t := by
    intro t ht
    induction t with
    | zero => rw [hσ0]; exact ha
    | succ t ih =>
      rw [hσ]
      have := mul_nonneg (h.forward t (by omega)) h0
      linarith [ih (by omega)]
  -- build the run frame by frame
  have key : ∀ t ≤ n, ∃ j : ℕ → ℕ, j 0 = j0 ∧ (∀ t' < t, (j (t' + 1) = j t' ∨ j (t' + 1) = j t' + 1) ∧ σ t' ≤ x (j (t' + 1) + 1) - 5 / 2) ∧
      (∀ t' ≤ t, Travels o θ N node m x (σ t') (j t') (v t') ∧ Guided (s 0).network N node (j t') (v t') ∧ (s t').network = (s 0).network) ∧
      KeepsLane (s 0).network N node (v t) ∧ (s t).regulated = false := by
    intro t ht'
    induction t with
    | zero =>
      refine ⟨fun _ => j0, rfl, fun t' h' => absurd h' (by omega), fun t' h' => ?_, hk, h.unregulated⟩
      rw [Nat.le_zero.1 h', hσ0]
      exact ⟨ht, hg, rfl⟩
    | succ t ih =>
      obtain ⟨j, j1, j2, j3, j4, j5⟩ := ih (by omega)
      obtain ⟨b1, b2, b3⟩ := j3 t le_rfl
      have hf0 := mul_nonneg (h.forward t (by omega)) h0
      obtain ⟨c1, j', c2, c3, c4, c5, c6, c7⟩ := Journey.journey_frame (r := s t) (by rw [b3]; exact hw) (by rw [b3]; exact hc) j5 (h.notCommanded t (by omega))
        (h.run t (by omega)) (h.car t (by omega)) (h.car (t + 1) ht') (h.sound t (by omega)) (h.sound (t + 1) ht') b1 (by rw [b3]; exact b2)
        (by rw [b3]; exact j4) (hge t (by omega)) (hend t (by omega)) hf0 (h5 t (by omega)) (by rw [← hσ]; exact hle (t + 1) ht')
      rw [b3] at c4 c5
      have hnet : (s (t + 1)).network = (s 0).network := by
        have hr := h.run t (by omega)
        unfold frame at hr
        obtain ⟨r1, h1, hr⟩ := bind_ok hr
        obtain ⟨r2, h2, hr⟩ := bind_ok hr
        obtain ⟨e1, _, _⟩ := Settle.commands_other h1 (h.notCommanded t (by omega))
        have e2 := (Road.act_frame h2).2
        obtain ⟨_, e3, _⟩ := Road.step_frame hr
        exact e3.trans (e2.network.trans (e1.network.trans b3))
      refine ⟨fun i => if i ≤ t then j i else j', ?_, fun t' h' => ?_, fun t' h' => ?_, c5, c1⟩
      · dsimp only; rw [if_pos (by omega), j1]
      · dsimp only
        rw [if_pos (show t' ≤ t by omega)]
        by_cases e : t' + 1 ≤ t
        · rw [if_pos e]; exact j2 t' (by omega)
        · rw [if_neg e, show t' = t by omega]; exact ⟨c2, c7⟩
      · dsimp only
        by_cases e : t' ≤ t
        · rw [if_pos e]; exact j3 t' e
        · rw [if_neg e, show t' = t + 1 by omega, hσ]
          exact ⟨c3, c4, hnet⟩
  obtain ⟨j, j1, j2, j3, _⟩ := key n le_rfl
  exact ⟨j, j1, j2, j3⟩

/-- **C113, the time of arrival.**  A vehicle of the traffic with nobody ahead, on its way along the chain at `u` m/s, at most its target speed `T`: it is at distance `X` not later than
`(X - a) / T + (T - u) / acc` seconds after being at distance `a`, `acc` being its maximal comfortable acceleration (rounded up to a frame), and not earlier than `(X - a) / T`. -/
theorem arrives (G : Globals) (dt : ℝ) (h0 : 0 < dt) (k : ℕ) (s : ℕ → Road) (cmds : ℕ → List (ℕ × VAction)) (n : ℕ) (v : ℕ → Vehicle)
    (h : FreeRide G dt k s cmds n v) (hw : WellFormed (s 0).network) {o : Vec2} {θ : ℝ} {N m : ℕ} {node : ℕ → String} {x : ℕ → ℝ} {lane : ℕ → Lane}
    (hc : RoadChain (s 0).network o θ N node m x lane) {a : ℝ} {j0 : ℕ} (ht : Travels o θ N node m x a j0 (v 0)) (hg : Guided (s 0).network N node j0 (v 0))
    (hidm : (v 0).kind = .idm) (hk : KeepsLane (s 0).network N node (v 0)) (ha : x 0 ≤ a)
    (T u acc X : ℝ) (hT : (v 0).targetSpeed = T) (hu : (v 0).speed = u) (hacc : G.comfortAccMax .idm = acc) (hpos : 0 < acc) (ha6 : acc ≤ 6)
    (hslow : 4 * acc * dt ≤ T) (hT1 : 1 / 100 < T) (hT40 : T ≤ 40) (hTd : T * dt ≤ 5 / 2) (hu0 : 0 ≤ u) (huT : u ≤ T)
    (hX : a < X) (hXN : X ≤ x N - 5 / 2) (hn : (X - a) / T + (T - u) / acc ≤ n * dt) :
    ∃ t ≤ n, ∃ d j, X ≤ d ∧ d ≤ X + 5 / 2 ∧ Travels o θ N node m x d j (v t) ∧ (X - a) / T ≤ t * dt ∧ t * dt < (X - a) / T + (T - u) / acc + dt := by
  have hTp : 0 < T := by linarith
  obtain ⟨f1, f2, _, _⟩ := free_settles G dt k s cmds n v h hidm T acc T hT hacc hpos ha6 h0.le hslow hT1 hT40 (by rw [hu]; linarith) (by rw [hu]; exact huT)
    (by rw [hu, max_eq_left (by linarith)])
  have hfwd : ∀ t ≤ n, 0 ≤ (v t).speed := by
    intro t ht
    induction t with
    | zero => rw [hu]; exact hu0
    | succ t ih => exact (ih (by omega)).trans (f2 t (by omega))
  set q := 1 - acc * dt / T with hq
  obtain ⟨σ, hσ0, hσ⟩ : ∃ σ : ℕ → ℝ, σ 0 = a ∧ ∀ t, σ (t + 1) = σ t + (v t).speed * dt :=
    ⟨fun t => Nat.rec a (fun t y => y + (v t).speed * dt) t, rfl, fun _ => rfl⟩
  have hlow : ∀ t ≤ n, a + T * (t * dt) - (T - u) * T / acc * (1 - q ^ t) ≤ σ t := by
    intro t ht
    induction t with
    | zero => rw [hσ0]; simp
    | succ t ih =>
      have := ih (by omega)
      have h1 := (f1 t (by omega)).2.2
      rw [hu] at h1
      have h2 : (T - q ^ t * (T - u)) * dt ≤ (v t).speed * dt := mul_le_mul_of_nonneg_right (by linarith) h0.le
      have h3 : (T - u) * T / acc * (1 - q ^ (t + 1)) = (T - u) * T / acc * (1 - q ^ t) + q ^ t * (T - u) * dt := by
        rw [pow_succ, hq]; field_simp; ring
      rw [hσ, h3]
      push_cast
      linarith
  have hup : ∀ t ≤ n, σ t ≤ a + T * (t * dt) := by
    intro t ht
    induction t with
    | zero => rw [hσ0]; simp
    | succ t ih =>
      have := ih (by omega)
      have h1 : (v t).speed * dt ≤ T * dt := mul_le_mul_of_nonneg_right (f1 t (by omega)).2.1 h0.le
      rw [hσ]
      push_cast
      linarith
  have hqn : 0 ≤ q := by
    have : acc * dt / T ≤ 1 := (div_le_one hTp).2 (by nlinarith [mul_pos hpos h0])
    linarith
  have hlate : ∀ t ≤ n, (X - a) / T + (T - u) / acc ≤ t * dt → X ≤ σ t := by
    intro t ht h'
    have h1 := hlow t ht
    have h2 : T * ((X - a) / T + (T - u) / acc) ≤ T * (t * dt) := mul_le_mul_of_nonneg_left h' hTp.le
    have h3 : T * ((X - a) / T + (T - u) / acc) = X - a + (T - u) * T / acc := by field_simp
    have h4 : 0 ≤ (T - u) * T / acc := div_nonneg (mul_nonneg (by linarith) hTp.le) hpos.le
    have h5 : 0 ≤ q ^ t := pow_nonneg hqn t
    nlinarith
  have hex : ∃ t, X ≤ σ t := ⟨n, hlate n le_rfl hn⟩
  set t0 := Nat.find hex with ht0
  have hX0 : X ≤ σ t0 := Nat.find_spec hex
  have hmin : ∀ t < t0, σ t < X := fun t h' => not_le.1 (Nat.find_min hex h')
  have ht0n : t0 ≤ n := Nat.find_min' hex (hlate n le_rfl hn)
  have ht00 : 0 < t0 := by
    rcases Nat.eq_zero_or_pos t0 with e | e
    · rw [e, hσ0] at hX0; linarith
    · exact e
  have hover : σ t0 ≤ X + 5 / 2 := by
    obtain ⟨t1, e⟩ : ∃ t1, t0 = t1 + 1 := ⟨t0 - 1, by omega⟩
    rw [e, hσ]
    have h1 := hmin t1 (by omega)
    have h2 : (v t1).speed * dt ≤ T * dt := mul_le_mul_of_nonneg_right (f1 t1 (by omega)).2.1 h0.le
    linarith
  have hride : Ride G dt k s cmds t0 v := ⟨fun t h' => h.run t (by omega), h.unregulated, fun t h' => h.notCommanded t (by omega),
    fun t h' => h.car t (by omega), fun t h' => h.sound t (by omega), fun t h' => hfwd t (by omega)⟩
  obtain ⟨j, _, _, j3⟩ := follows_route G dt h0.le k s cmds t0 v hride hw hc ht hg hk ha
    (fun t h' => (mul_le_mul_of_nonneg_right (f1 t (by omega)).2.1 h0.le).trans (by linarith)) σ hσ0 hσ
    (fun t h' => (hmin t h').le.trans hXN) (by linarith)
  refine ⟨t0, ht0n, σ t0, j t0, hX0, hover, (j3 t0 le_rfl).1, ?_, ?_⟩
  · rw [div_le_iff₀ hTp]
    linarith [hup t0 ht0n]
  · by_contra hno
    push Not at hno
    obtain ⟨t1, e⟩ : ∃ t1, t0 = t1 + 1 := ⟨t0 - 1, by omega⟩
    rw [e] at hno
    push_cast at hno
    have := hlate t1 (by omega) (by linarith)
    linarith [hmin t1 (by omega)]

/-- **C113, alone.**  A vehicle of the traffic alone on the chain travels it without exception and without crash, for any number of frames, and arrives in time. -/
theorem travels_alone (G : Globals) (dt : ℝ) (h0 : 0 < dt) (r : Road) (hr : Healthy r) (hreg : r.regulated = false) (hobj : r.objects = []) (w : Vehicle)
    (hv : r.vehicles = [w]) (hcr : w.crashed = false) {o : Vec2} {θ : ℝ} {N m : ℕ} {node : ℕ → String} {x : ℕ → ℝ} {lane : ℕ → Lane}
    (hc : RoadChain r.network o θ N node m x lane) {a : ℝ} {j0 : ℕ} (ht : Travels o θ N node m x a j0 w) (hg : Guided r.network N node j0 w)
    (hidm : w.kind = .idm) (hk : KeepsLane r.network N node w) (ha : x 0 ≤ a)
    (T u acc : ℝ) (hT : w.targetSpeed = T) (hu : w.speed = u) (hacc : G.comfortAccMax .idm = acc) (hpos : 0 < acc) (ha6 : acc ≤ 6)
    (hslow : 4 * acc * dt ≤ T) (hT1 : 1 / 100 < T) (hT40 : T ≤ 40) (hTd : T * dt ≤ 5 / 2) (hu0 : 0 ≤ u) (huT : u ≤ T) :
    ∃ (s : ℕ → Road) (v : ℕ → Vehicle), s 0 = r ∧ v 0 = w ∧ (∀ t, frame G dt (s t) [] = .ok (s (t + 1)) ∧ (s t).vehicles[0]? = some (v t) ∧ (v t).crashed = false) ∧
      ∀ X, a < X → X ≤ x N - 5 / 2 → ∃ t d j, X ≤ d ∧ d ≤ X + 5 / 2 ∧ Travels o θ N node m x d j (v t) ∧
        (X - a) / T ≤ t * dt ∧ t * dt < (X - a) / T + (T - u) / acc + dt := by
  obtain ⟨s, v, hs0, hv0, hride⟩ := alone_rides G dt r hr hreg hobj w hv hcr
  refine ⟨s, v, hs0, hv0, fun t => ⟨(hride (t + 1)).run t (by omega), (hride t).car t le_rfl, (hride t).sound t le_rfl⟩, fun X hX hXN => ?_⟩
  obtain ⟨n, hn⟩ := exists_nat_ge (((X - a) / T + (T - u) / acc) / dt)
  obtain ⟨t, _, d, j, e1, e2, e3, e4, e5⟩ := arrives G dt h0 0 s (fun _ => []) n v (hride n) (by rw [hs0]; exact hr.wf) (by rw [hs0]; exact hc)
    (by rw [hv0]; exact ht) (by rw [hs0, hv0]; exact hg) (by rw [hv0]; exact hidm) (by rw [hs0, hv0]; exact hk) ha T u acc X (by rw [hv0]; exact hT)
    (by rw [hv0]; exact hu) hacc hpos ha6 hslow hT1 hT40 hTd hu0 huT hX hXN ((div_le_iff₀ h0).1 hn)
  exact ⟨t, d, j, e1, e2, e3, e4, e5⟩

/-! ## The hypotheses are met -/

namespace Journey

/-- Two roads of 100 m and 200 m laid end to end, with a crossroad at their junction. -/
def lane0 : Lane := { shape := .straight ⟨0, 0⟩ ⟨100, 0⟩ }
def lane1 : Lane := { shape := .straight ⟨100, 0⟩ ⟨300, 0⟩ }
def crossroad : Lane := { shape := .straight ⟨100, 0⟩ ⟨100, 50⟩ }
def map : Graph := [("a", [("b", [lane0])]), ("b", [("x", [crossroad]), ("c", [lane1])])]
def nodes : ℕ → String := fun k => if k = 0 then "a" else if k = 1 then "b" else "c"
def marks : ℕ → ℝ := fun k => if k = 0 then 0 else if k = 1 then 100 else 300
def laneOf : ℕ → Lane := fun k => if k = 0 then lane0 else lane1

theorem map_lanes {a b : String} {k : ℕ} {l : Lane} : HasLane map a b k l ↔ k = 0 ∧ (a = "a" ∧ b = "b" ∧ l = lane0 ∨ a = "b" ∧ b = "x" ∧ l = crossroad ∨ a = "b" ∧ b = "c" ∧ l = lane1) := by
  constructor
  · rintro ⟨ls, ⟨d, h1, h2⟩, h3⟩
    simp only [map, List.mem_cons, Prod.mk.injEq, List.not_mem_nil, or_false] at h1
    rcases h1 with ⟨rfl, rfl⟩ | ⟨rfl, rfl⟩
    · simp only [List.mem_cons, Prod.mk.injEq, List.not_mem_nil, or_false] at h2
      obtain ⟨rfl, rfl⟩ := h2
      rcases k with _ | k
      · simp at h3; exact ⟨rfl, .inl ⟨rfl, rfl, h3.symm⟩⟩
      · simp at h3
    · simp only [List.mem_cons, Prod.mk.injEq, List.not_mem_nil, or_false] at h2
      rcases h2 with ⟨rfl, rfl⟩ | ⟨rfl, rfl⟩
      · rcases k with _ | k
        · simp at h3; exact ⟨rfl, .inr (.inl ⟨rfl, rfl, h3.symm⟩)⟩
        · simp at h3
      · rcases k with _ | k
        · simp at h3; exact ⟨rfl, .inr (.inr ⟨rfl, rfl, h3.symm⟩)⟩
        · simp at h3
  · rintro ⟨rfl, ⟨rfl, rfl, rfl⟩ | ⟨rfl, rfl, rfl⟩ | ⟨rfl, rfl, rfl⟩⟩
    · exact ⟨[lane0], ⟨[("b", [lane0])], by simp [map], by simp⟩, rfl⟩
    · exact ⟨[crossroad], ⟨[("x", [crossroad]), ("c", [lane1])], by simp [map], by simp⟩, rfl⟩
    · exact ⟨[lane1], ⟨[("x", [crossroad]), ("c", [lane1])], by simp [map], by simp⟩, rfl⟩

theorem map_wf : WellFormed map where
  outer := by simp [map]
  inner := by simp [map]
  nonemptyNode := by simp [map]
  nonemptyEdge nd hnd kl hkl := by
    simp only [map, List.mem_cons, List.not_mem_nil, or_false] at hnd
    rcases hnd with rfl | rfl
    · simp only [List.mem_cons, List.not_mem_nil, or_false] at hkl
      subst hkl; simp
    · simp only [List.mem_cons, List.not_mem_nil, or_false] at hkl
      rcases hkl with rfl | rfl <;> simp

theorem map_single {a b : String} {ls : List Lane} (h : RoadLanes map a b ls) : ls.length = 1 := by
  obtain ⟨d, h1, h2⟩ := h
  simp only [map, List.mem_cons, Prod.mk.injEq, List.not_mem_nil, or_false] at h1
  rcases h1 with ⟨rfl, rfl⟩ | ⟨rfl, rfl⟩
  · simp only [List.mem_cons, Prod.mk.injEq, List.not_mem_nil, or_false] at h2
    obtain ⟨rfl, rfl⟩ := h2
    rfl
  · simp only [List.mem_cons, Prod.mk.injEq, List.not_mem_nil, or_false] at h2
    rcases h2 with ⟨rfl, rfl⟩ | ⟨rfl, rfl⟩ <;> rfl

theorem point_zero (s : ℝ) : pointAt ⟨0, 0⟩ 0 s = ⟨s, 0⟩ := by
  unfold pointAt; ext <;> simp [Vec2.dir]

theorem map_chain : RoadChain map ⟨0, 0⟩ 0 2 nodes 0 marks laneOf where
  angle := ⟨by linarith [Real.pi_pos], Real.pi_pos.le⟩
  lanes k hk := by
    match k, hk with
    | 0, _ => exact map_lanes.2 (by simp [nodes, laneOf])
    | 1, _ => exact map_lanes.2 (by simp [nodes, laneOf])
  straight k hk := by
    match k, hk with
    | 0, _ => simp [laneOf, lane0, marks, point_zero]
    | 1, _ => simp [laneOf, lane1, marks, point_zero]
  long k hk := by
    match k, hk with
    | 0, _ => norm_num [marks]
    | 1, _ => norm_num [marks]
  sameWidth k hk ls ls' h h' := by rw [map_single h, map_single h']
  distinct j hj k hk h := by
    match j, hj, k, hk with
    | 0, _, 0, _ => rfl
    | 0, _, 1, _ => simp [nodes] at h
    | 0, _, 2, _ => simp [nodes] at h
    | 1, _, 0, _ => simp [nodes] at h
    | 1, _, 1, _ => rfl
    | 1, _, 2, _ => simp [nodes] at h
    | 2, _, 0, _ => simp [nodes] at h
    | 2, _, 1, _ => simp [nodes] at h
    | 2, _, 2, _ => rfl
  named k hk := by
    match k, hk with
    | 0, _ => simp [nodes]
    | 1, _ => simp [nodes]
    | 2, _ => simp [nodes]
  noOther s h0 h1 a b k l hl ht := by
    obtain ⟨rfl, ⟨rfl, rfl, rfl⟩ | ⟨rfl, rfl, rfl⟩ | ⟨rfl, rfl, rfl⟩⟩ := map_lanes.1 hl
    · exact ⟨0, by norm_num, by simp [nodes], by simp [nodes], rfl⟩
    · exfalso
      have h := ht.direction
      have e : crossroad.headingAt (crossroad.localCoordinates (pointAt ⟨0, 0⟩ 0 s)).1 = Real.pi / 2 := by
        unfold Lane.headingAt crossroad
        dsimp only
        have ha : Along (⟨100, 0⟩ : Vec2) ⟨100, 50⟩ ⟨0, 1⟩ 50 := ⟨by simp, by simp, by simp, by norm_num⟩
        rw [ha.heading]
        exact arctan2_north
      rw [e, wrapToPi_of_mem (by linarith [Real.pi_pos]) (by linarith [Real.pi_pos])] at h
      linarith [Real.pi_pos]
    · exact ⟨1, by norm_num, by simp [nodes], by simp [nodes], rfl⟩

/-- A car at 20 m/s in the middle of the first road, whose route goes straight on; it would like to drive at 25 m/s. -/
def traveller : Vehicle :=
  { uid := 0, kind := .idm, pos := ⟨50, 0⟩, heading := 0, speed := 20, laneIndex := ⟨"a", "b", 0⟩, lane := lane0, targetLane := ⟨"a", "b", 0⟩, targetSpeed := 25
    route := some [⟨"a", "b", some 0⟩, ⟨"b", "c", none⟩] }

def road : Road := { network := map, rng := ⟨fun _ => 0, fun _ => 0, 0, 0⟩, vehicles := [traveller] }

theorem road_healthy : Healthy road := by
  refine ⟨map_wf, ?_, ?_, ?_⟩
  · intro v hv
    simp only [road, List.mem_cons, List.not_mem_nil, or_false] at hv
    subst hv
    have h0 : HasLane map "a" "b" 0 lane0 := map_lanes.2 ⟨rfl, .inl ⟨rfl, rfl, rfl⟩⟩
    refine ⟨⟨⟨0, _, rfl, h0⟩, getLane_of_hasLane (k := 0) map_wf.toIsPyGraph rfl h0, ⟨0, _, rfl, h0⟩⟩, ?_⟩
    intro st hst
    simp only [traveller, Option.getD_some, List.mem_cons, List.not_mem_nil, or_false] at hst
    rcases hst with rfl | rfl
    · exact ⟨_, h0.choose_spec.1⟩
    · have h1 : HasLane map "b" "c" 0 lane1 := map_lanes.2 ⟨rfl, .inr (.inr ⟨rfl, rfl, rfl⟩)⟩
      exact ⟨_, h1.choose_spec.1⟩
  · simp [road, traveller, VKind.isLinear]
  · intro h; cases h

end Journey

/-- The car passes the junction and reaches the last metres (297.5 m) of the second road: between 9.9 and 11.7 s later. -/
example : ∃ (s : ℕ → Road) (v : ℕ → Vehicle) (t : ℕ) (d : ℝ) (j : ℕ), s 0 = Journey.road ∧ (∀ t, frame {} (1 / 15) (s t) [] = .ok (s (t + 1))) ∧
    (s t).vehicles[0]? = some (v t) ∧ 595 / 2 ≤ d ∧ Travels ⟨0, 0⟩ 0 2 Journey.nodes 0 Journey.marks d j (v t) ∧ 9.9 ≤ t * (1 / 15 : ℝ) ∧ t * (1 / 15 : ℝ) < 11.7 := by
  obtain ⟨s, v, h0, _, h1, h2⟩ := travels_alone {} (1 / 15) (by norm_num) Journey.road Journey.road_healthy rfl rfl Journey.traveller rfl rfl Journey.map_chain
    (a := 50) (j0 := 0) ⟨by rw [Journey.point_zero]; rfl, rfl, ⟨0, by norm_num, rfl, by norm_num [Journey.marks], by norm_num [Journey.marks]⟩, by norm_num, rfl,
      by norm_num [Journey.marks], by norm_num [Journey.marks]⟩
    (.inl ⟨_, rfl, rfl⟩) rfl (.inr (.inr ⟨rfl, .inr fun k _ ls h => Journey.map_single h⟩)) (by norm_num [Journey.marks]) 25 20 3 rfl rfl rfl
    (by norm_num) (by norm_num) (by norm_num) (by norm_num) (by norm_num) (by norm_num) (by norm_num) (by norm_num)
  obtain ⟨t, d, j, e1, e2, e3, e4, e5⟩ := h2 (595 / 2) (by norm_num) (by norm_num [Journey.marks])
  exact ⟨s, v, t, d, j, h0, fun t => (h1 t).1, (h1 t).2.1, e1, e3, le_trans (by norm_num) e4, e5.trans_le (by norm_num)⟩

end HighwayEnv.Props
