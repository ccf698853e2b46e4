import Verif.Props.Journey
import Verif.Props.Lanes

/-!
# C114: traffic does not see beyond the end of its road
-/

noncomputable section
open Classical
namespace HighwayEnv.Props
open HighwayEnv Spec Graph

namespace Junction

variable {g : Graph} {o : Vec2} {θ : ℝ} {N m : ℕ} {node : ℕ → String} {x : ℕ → ℝ} {lane : ℕ → Lane}

theorem pair_list {α : Type} {xs : List α} {x y : α} (hl : xs.length = 2) (h : xs[0]? = some x) (h' : xs[1]? = some y) : xs = [x, y] := by
  match xs, hl, h, h' with
  | [a, b], _, h, h' => simp at h h'; rw [h, h']

/-- One frame of two vehicles alone on a road without objects. -/
theorem pair_frame {G : Globals} {dt : ℝ} {r r' : Road} (hreg : r.regulated = false) (hobj : r.objects = []) {v w : Vehicle} (hv : r.vehicles = [v, w])
    (hcv : v.collisionsEnabled = true) (hcw : w.collisionsEnabled = true) (h : frame G dt r [] = .ok r') :
    r'.regulated = false ∧ r'.objects = [] ∧ r'.network = r.network ∧ ∃ q w' rng rec u z, Road.SameScene r q ∧ Pointwise SameBody r.vehicles q.vehicles ∧
      w.act G q .none = .ok (w', rng) ∧ w'.step r.network rec dt = .ok z ∧
      (∃ q v' rng, Road.SameScene r q ∧ Pointwise SameBody r.vehicles q.vehicles ∧ v.act G q .none = .ok (v', rng) ∧ v'.step r.network rec dt = .ok u) ∧
      (Overlap u z → ∃ a b, r'.vehicles = [a, b] ∧ a.crashed = true ∧ b.crashed = true) ∧ (¬Overlap u z → r'.vehicles = [u, z]) := by
  unfold frame at h
  obtain ⟨r1, h1, hmid⟩ := bind_ok h
  obtain ⟨r2, h2, h3⟩ := bind_ok hmid
  clear h hmid
  have h := h3
  clear h3
  obtain rfl : r = r1 := Except.ok.inj h1
  have a1 := (Road.act_frame h2).2
  have a2 := Road.act_acted h2
  have hstep : r2.stepBase dt = .ok r' := by
    unfold Road.step at h
    rw [a1.regulated, hreg] at h
    exact h
  have hobj2 : r2.objects = [] := a1.objects.trans hobj
  obtain ⟨_, b2, _, b4, _, _, b7⟩ := Road.stepBase_frame hstep
  have hobj' : r'.objects = [] := by
    rw [hobj2] at b7; exact List.forall₂_nil_left_iff.1 b7
  refine ⟨b4.trans (a1.regulated.trans hreg), hobj', ?_, ?_⟩
  · obtain ⟨_, e, _⟩ := Road.step_frame h
    exact e.trans a1.network
  unfold Road.stepBase at hstep
  obtain ⟨r3, h3, hstep⟩ := bind_ok hstep
  unfold Road.moveAll at h3
  obtain ⟨moved, h4, h3⟩ := bind_ok h3
  cases h3
  cases hstep
  have hp := mapM_pointwise h4
  obtain ⟨v', hv', s, rng, hs, hb, hact⟩ := a2.2 0 v (by rw [hv]; rfl)
  obtain ⟨w', hw', s', rng', hs', hb', hact'⟩ := a2.2 1 w (by rw [hv]; rfl)
  obtain ⟨u, hu, hst⟩ := hp.2 0 v' hv'
  obtain ⟨z, hz, hst'⟩ := hp.2 1 w' hw'
  have hm : moved = [u, z] := pair_list (hp.1.trans (a2.1.trans (by rw [hv]; rfl))) hu hz
  rw [a1.network] at hst hst'
  have hev := (Road.collidePass_evolves moved r2.objects).1
  have hl : (Road.collidePass moved r2.objects).1.length = 2 := hev.1.trans (by rw [hm]; rfl)
  have hcu : u.collisionsEnabled = true := ((Vehicle.step_mind hst).collisionsEnabled.trans (Vehicle.act_body hact).collisionsEnabled).trans hcv
  have hcz : z.collisionsEnabled = true := ((Vehicle.step_mind hst').collisionsEnabled.trans (Vehicle.act_body hact').collisionsEnabled).trans hcw
  refine ⟨s', w', rng', _, u, z, hs', hb', hact', hst', ⟨s, v', rng, hs, hb, hact, hst⟩, fun hov => ?_, fun hov => ?_⟩
  · obtain ⟨a, b, c1, c2, c3, c4⟩ := both_crash moved r2.objects 0 1 u z (by omega) hu hz hcu hcz hov
    exact ⟨a, b, pair_list hl c1 c2, c3, c4⟩
  · obtain ⟨a, ha, sa, ba, ea, _, _, hca⟩ := hev.2 0 u hu
    obtain ⟨b, hb, sb, bb, eb, _, _, hcb⟩ := hev.2 1 z hz
    change (Road.collidePass moved r2.objects).1 = [u, z]
    have e1 : a = u := by
      rcases hca with e | ⟨⟨v2, hv2, _, hcause⟩, _⟩
      · exact e
      · exfalso
        rw [hu] at hv2; cases hv2
        rcases hcause with ⟨j, w2, hj, hw2, _, hc⟩ | ⟨o, ho, _⟩
        · have hj1 : j = 1 := by
            rw [hm] at hw2
            match j, hj, hw2 with
            | 0, hj, _ => exact absurd rfl hj
            | 1, _, _ => rfl
            | j + 2, _, h => simp at h
          subst hj1
          rw [hz] at hw2; cases hw2
          simp only [precheck_vehicles] at hc
          rcases hc with hc | hc
          · exact hov hc
          · exact hov (by unfold Overlap; rw [rectanglesIntersect_symm]; exact hc)
        · rw [hobj2] at ho; simp at ho
    have e2 : b = z := by
      rcases hcb with e | ⟨⟨v2, hv2, _, hcause⟩, _⟩
      · exact e
      · exfalso
        rw [hz] at hv2; cases hv2
        rcases hcause with ⟨j, w2, hj, hw2, _, hc⟩ | ⟨o, ho, _⟩
        · have hj1 : j = 0 := by
            rw [hm] at hw2
            match j, hj, hw2 with
            | 1, hj, _ => exact absurd rfl hj
            | 0, _, _ => rfl
            | j + 2, _, h => simp at h
          subst hj1
          rw [hu] at hw2; cases hw2
          simp only [precheck_vehicles] at hc
          rcases hc with hc | hc
          · exact hov (by unfold Overlap; rw [rectanglesIntersect_symm]; exact hc)
          · exact hov hc
        · rw [hobj2] at ho; simp at ho
    rw [← e1, ← e2]
    exact pair_list hl ha hb

/-- A plain vehicle that stands with no acceleration stays where it is. -/
theorem stands {G : Globals} {q : Road} {w w' z : Vehicle} {rng : Rng} {g : Graph} {rec : Bool} {dt : ℝ} (hk : w.kind = .plain) (h0 : w.speed = 0)
    (ha : w.acceleration = 0) (hcr : w.crashed = false) (hact : w.act G q .none = .ok (w', rng)) (hst : w'.step g rec dt = .ok z) :
    z.kind = .plain ∧ z.speed = 0 ∧ z.acceleration = 0 ∧ z.crashed = false ∧ z.pos = w.pos ∧ z.heading = w.heading ∧ z.uid = w.uid ∧ z.collisionsEnabled = w.collisionsEnabled := by
  obtain rfl : w' = w := by
    unfold Vehicle.act at hact
    rw [hk] at hact
    exact (congrArg Prod.fst (Except.ok.inj hact)).symm
  have hnb : w'.kind ≠ .bicycle := by rw [hk]; simp
  have hm := Vehicle.step_mind hst
  obtain ⟨k1, k2, k3⟩ := step_kin hnb hst
  have k4 := (step_steering hnb hst).2
  have hex : executedAcceleration w' = 0 := by
    unfold executedAcceleration
    rw [hcr, hk, h0, ha]
    simp [VKind.maxSpeed]
  refine ⟨hm.kind.trans hk, by rw [k3, hex, h0]; simp, by rw [k4, hex], hm.crashed.trans hcr, ?_, ?_, hm.uid, hm.collisionsEnabled⟩
  · rw [k1, h0]; ext <;> simp
  · rw [k2, h0]; simp

/-- The decision and motion of a traffic vehicle between standstill and its target speed: it brakes at most at 6 m/s² and does not exceed its target speed. -/
theorem bounds {G : Globals} {q : Road} {v v' u : Vehicle} {rng : Rng} {g : Graph} {rec : Bool} {dt T acc : ℝ} (hk : v.kind = .idm) (hcr : v.crashed = false)
    (hT : v.targetSpeed = T) (hT1 : 1 / 100 < T) (hT40 : T ≤ 40) (h0 : 0 ≤ v.speed) (huT : v.speed ≤ T) (hdt : 0 < dt)
    (hacc : G.comfortAccMax .idm = acc) (hpos : 0 < acc) (hslow : 4 * acc * dt ≤ T)
    (hact : v.act G q .none = .ok (v', rng)) (hst : v'.step g rec dt = .ok u) :
    v.speed - 6 * dt ≤ u.speed ∧ u.speed ≤ T ∧ u.targetSpeed = T ∧ u.kind = .idm ∧ u.crashed = false ∧ u.uid = v.uid ∧ u.collisionsEnabled = v.collisionsEnabled := by
  have hbody := Vehicle.act_body hact
  have hm := Vehicle.step_mind hst
  obtain ⟨h6, lane, front, w, ac, _, _, hac, ⟨_, _, e3, _, e5, e6, _⟩, hva, hvt⟩ := traffic_command G q v v' .none rng (by rw [hk]; rfl) hcr hact
  obtain ⟨_, _, k3⟩ := step_kin (by rw [hbody.kind, hk]; simp) hst
  have hspeed : u.speed = v.speed + v'.acceleration * dt := by
    rw [k3, hbody.speed]
    unfold executedAcceleration
    rw [hbody.crashed, hcr, hbody.kind, hk, hbody.speed]
    simp only [Bool.false_eq_true, if_false]
    rw [if_neg (by simp only [VKind.maxSpeed]; linarith), if_neg (by simp only [VKind.maxSpeed]; linarith)]
  obtain ⟨l6, u6⟩ := abs_le.1 h6
  refine ⟨by rw [hspeed]; nlinarith, ?_, hm.targetSpeed.trans (hvt.trans hT), hm.kind.trans (hbody.kind.trans hk), hm.crashed.trans (hbody.crashed.trans hcr),
    hm.uid.trans hbody.uid, hm.collisionsEnabled.trans hbody.collisionsEnabled⟩
  obtain ⟨m1, _, m3, _⟩ := Settle.below_math (a := acc) (x := v.speed) (T := T) (dt := dt) (M := T) hpos (by linarith) huT le_rfl (by linarith) hslow hdt.le
  have hle : ac ≤ acc * (1 - (max v.speed 0 / T) ^ 4) := by
    unfold Vehicle.accelerationOf at hac
    dsimp only at hac
    rw [e5, hk] at hac
    rw [if_neg (by simp [VKind.isLinear])] at hac
    have hac' := Except.ok.inj hac
    rw [← hac']
    unfold Vehicle.idmAcceleration
    dsimp only
    rw [e5, hk, hacc, e3, e6, hT]
    have hn : notZero (if VKind.isControlled .idm = true then T else 0) = T := by
      rw [if_pos (by rfl)]
      unfold notZero
      rw [if_pos (by rw [abs_of_pos (by linarith)]; linarith)]
    rw [hn]
    cases front with
    | none => exact le_rfl
    | some f =>
      dsimp only
      have : 0 ≤ acc * (Vehicle.desiredGap G .idm w f / notZero (w.laneDistanceTo f.pos)) ^ 2 := mul_nonneg hpos.le (sq_nonneg _)
      linarith
  have hva' : v'.acceleration ≤ acc * (1 - (max v.speed 0 / T) ^ 4) := by
    rw [hva]
    refine (min_le_left _ _).trans (max_le hle (by linarith))
  rw [hspeed]
  have := mul_le_mul_of_nonneg_right hva' hdt.le
  linarith

/-- A traffic vehicle on a road of the chain before the junction at `x K` does not see a vehicle that stands at least 5 m beyond the junction. -/
theorem blind {r : Road} (hw : WellFormed r.network) (hc : RoadChain r.network o θ N node m x lane) (hobj : r.objects = []) {v w : Vehicle}
    (hv : r.vehicles = [v, w]) {s d : ℝ} {j K : ℕ} (ht : Travels o θ N node m x s j v) (hK : K ≤ N) (hwp : w.pos = pointAt o θ (x K + d)) (hd : 5 ≤ d) (hs : s < x K) :
    ∃ b, r.neighbourVehicles v = .ok (none, b) := by
  obtain ⟨k, hk, e1, e2, e3⟩ := ht.on
  obtain ⟨f, b, h1, h2, h3⟩ := neighbours_nearest r v none (lane k) (by rw [Option.getD_none, e1]; exact Journey.getLane hw hc hk)
  have hkK : k < K := by
    by_contra hn
    have := Journey.monotone hc (show K ≤ k by omega) (by omega)
    linarith
  refine ⟨b, ?_⟩
  rw [h1]
  have : f = none := by
    refine h2.1.2 fun e he hq => ?_
    rw [hv, hobj] at he
    simp only [List.map_cons, List.map_nil, List.append_nil, List.mem_cons, List.not_mem_nil, or_false] at he
    rcases he with rfl | rfl
    · exact absurd rfl hq.1
    · exfalso
      have h5 := hq.2.2.2.2
      obtain ⟨g1, g2, _⟩ := Journey.lane_geom hc hk
      unfold along at h5
      simp only [Entity.pos] at h5
      rw [hwp, g1, g2] at h5
      have := Journey.monotone hc (show k + 1 ≤ K by omega) hK
      simp only at h5
      linarith
  rw [this]

/-- A vehicle of the traffic (the first of the two) drives along the chain towards a plain vehicle that stands `d` metres beyond the junction at `x K`. -/
structure Approach (g : Graph) (o : Vec2) (N : ℕ) (node : ℕ → String) (m : ℕ) (x : ℕ → ℝ) (K : ℕ) (T d s : ℝ) (r : Road) : Prop where
  network : r.network = g
  regulated : r.regulated = false
  objects : r.objects = []
  cars : ∃ v w j, r.vehicles = [v, w] ∧ v.uid ≠ w.uid ∧ v.collisionsEnabled = true ∧ w.collisionsEnabled = true ∧
    Travels o 0 N node m x s j v ∧ Guided g N node j v ∧ KeepsLane g N node v ∧ v.kind = .idm ∧ v.crashed = false ∧ v.targetSpeed = T ∧ 7 ≤ v.speed ∧ v.speed ≤ T ∧
    (s < x K → v.speed = T) ∧ (x K ≤ s → T ^ 2 + 12 * x K ≤ v.speed ^ 2 + 12 * s) ∧
    w.kind = .plain ∧ w.speed = 0 ∧ w.acceleration = 0 ∧ w.crashed = false ∧ w.heading = 0 ∧ w.pos = pointAt o 0 (x K + d)
  begun : x 0 ≤ s
  before : s < x K + d - 9 / 2

set_option maxHeartbeats 1000000 in
theorem approach_frame {G : Globals} {dt : ℝ} {r r' : Road} {K : ℕ} {T d s acc : ℝ} (hw : WellFormed g) (hc : RoadChain g o 0 N node m x lane) (hK : K < N)
    (hd : 5 ≤ d) (hend : x K + d ≤ x N - 5 / 2) (hdt : 0 < dt) (hT40 : T ≤ 40) (hTd : T * dt ≤ 5 / 2) (hT : 12 * d ≤ T ^ 2)
    (hacc : G.comfortAccMax .idm = acc) (hpos : 0 < acc) (hslow : 4 * acc * dt ≤ T)
    (h : Approach g o N node m x K T d s r) (hf : frame G dt r [] = .ok r') :
    (∃ a b, r'.vehicles = [a, b] ∧ a.crashed = true ∧ b.crashed = true) ∨ ∃ s', s + 7 * dt ≤ s' ∧ Approach g o N node m x K T d s' r' := by
  obtain ⟨hnet, hreg, hobj, ⟨v, w, j, hv, huid, hcv, hcw, htr, hgd, hkl, hidm, hcr, hvT, h7, hvle, hfull, hen, w1, w2, w3, w4, w5, w6⟩, hbeg, hbef⟩ := h
  subst hnet
  have hT7 : 7 ≤ T := h7.trans hvle
  have h7d : 7 * dt ≤ 5 / 2 := (mul_le_mul_of_nonneg_right hT7 hdt.le).trans hTd
  obtain ⟨f1, f2, f3, q, w', rng, rec, u, z, hq, hb, hact, hst, ⟨q', v', rng', hq', hb', hact', hst'⟩, hov, hnov⟩ := pair_frame hreg hobj hv hcv hcw hf
  by_cases hcoll : Overlap u z
  · exact .inl (hov hcoll)
  · right
    have hr' := hnov hcoll
    obtain ⟨z1, z2, z3, z4, z5, z6, z7, z8⟩ := stands w1 w2 w3 w4 hact hst
    obtain ⟨u1, u2, u3, u4, u5, u6, u7⟩ := bounds hidm hcr hvT (by linarith) hT40 (by linarith) hvle hdt hacc hpos hslow hact' hst'
    have hstep0 : v.speed * dt ≤ T * dt := mul_le_mul_of_nonneg_right hvle hdt.le
    have hstep7 : 7 * dt ≤ v.speed * dt := mul_le_mul_of_nonneg_right h7 hdt.le
    obtain ⟨_, j', hj', t1, t2, t3, _, _⟩ := Journey.journey_frame (k := 0) (cmds := []) (r := r) (r' := r') hw hc hreg (by simp) hf (v := v) (w := u)
      (by rw [hv]; rfl) (by rw [hr']; rfl) hcr u5 htr hgd hkl hbeg (by linarith) (by linarith) (by linarith) (by linarith)
    have hnew : s + v.speed * dt < x K + d - 9 / 2 := by
      by_contra hno
      push Not at hno
      apply hcoll
      unfold Overlap Vehicle.rect
      rw [t1.pos, t1.heading, z5, w6, z6, w5]
      rw [rectanglesIntersect_aligned_gap _ _ _ _ (by norm_num [Vehicle.LENGTH]) (by norm_num [Vehicle.WIDTH])]
      simp only [pointAt, Vec2.dir, Vec2.add_x, Vec2.add_y, Vec2.smul_x, Vec2.smul_y, Real.cos_zero, Real.sin_zero, mul_one, mul_zero, add_zero, sub_self, abs_zero,
        Vehicle.LENGTH, Vehicle.WIDTH]
      refine ⟨abs_le.2 ⟨?_, ?_⟩, by norm_num⟩ <;> linarith
    -- the speed
    have hblind : s < x K → u.speed = T := by
      intro hs
      obtain ⟨b, hb⟩ := blind hw hc hobj hv htr hK.le w6 hd hs
      obtain ⟨_, _, _, _, e⟩ := Settle.free_frame (k := 0) hreg (by simp) hf (v := v) (w := u) (by rw [hv]; rfl) (by rw [hr']; rfl) (by rw [hidm]; rfl) hcr u5
        (abs_le.2 ⟨by linarith, by linarith⟩) hb
      have hz : Settle.freeAcc G v = 0 := by
        unfold Settle.freeAcc
        rw [hidm, if_neg (by simp [VKind.isLinear]), hfull hs, hvT, max_eq_left (by linarith)]
        have hn : notZero T = T := by
          unfold notZero
          rw [if_pos (by rw [abs_of_pos (by linarith)]; linarith)]
        rw [hn, div_self (by linarith)]
        ring
      rw [e, hz, npClip_of_mem (by norm_num) (by norm_num), hfull hs]
      ring
    have henergy : x K ≤ s + v.speed * dt → T ^ 2 + 12 * x K ≤ u.speed ^ 2 + 12 * (s + v.speed * dt) := by
      intro hx
      rcases lt_or_ge s (x K) with hs | hs
      · rw [hblind hs]; linarith
      · have := hen hs
        have hsq : (v.speed - 6 * dt) ^ 2 ≤ u.speed ^ 2 := pow_le_pow_left₀ (by linarith) u1 2
        nlinarith [sq_nonneg dt]
    have h7' : 7 ≤ u.speed := by
      rcases lt_or_ge s (x K) with hs | hs
      · rw [hblind hs]; exact hT7
      · have he := henergy (by linarith)
        have : 7 ^ 2 ≤ u.speed ^ 2 := by linarith
        nlinarith [u1]
    have hfwd : 0 ≤ v.speed * dt := by linarith
    have hbeg' : x 0 ≤ s + v.speed * dt := by linarith
    have hadv : s + 7 * dt ≤ s + v.speed * dt := by linarith
    have hpre : s + v.speed * dt < x K → u.speed = T := fun hs => hblind (by linarith)
    have e1 : z.heading = 0 := z6.trans w5
    have e2 : z.pos = pointAt o 0 (x K + d) := z5.trans w6
    have e3 : u.uid ≠ z.uid := by rw [u6, z7]; exact huid
    refine ⟨s + v.speed * dt, hadv, f3, f1, f2, ⟨u, z, j', hr', e3, u7.trans hcv, z8.trans hcw, t1, t2, t3, u4, u5, u3, h7',
      u2, hpre, henergy, z1, z2, z3, z4, e1, e2⟩, hbeg', hnew⟩

end Junction

/-- **C114.**  Traffic does not see beyond the end of its road.  A vehicle of the traffic drives at its target speed `T` along a chain of roads; a vehicle stands on a following road,
`d ≥ 5` metres beyond the junction at `x K`, with `d` at most the braking distance `T² / 12` — however long it has been in front of the first.  The first vehicle drives at full
speed up to the junction, and crashes into the second. -/
theorem junction_blind (G : Globals) (dt : ℝ) (hdt : 0 < dt) (s : ℕ → Road) (hrun : ∀ t, frame G dt (s t) [] = .ok (s (t + 1)))
    (hwf : WellFormed (s 0).network) (hreg : (s 0).regulated = false) (hobj : (s 0).objects = []) (v w : Vehicle) (hv : (s 0).vehicles = [v, w]) (huid : v.uid ≠ w.uid)
    (hcv : v.collisionsEnabled = true) (hcw : w.collisionsEnabled = true) (hvs : v.crashed = false) (hws : w.crashed = false)
    {o : Vec2} {N m : ℕ} {node : ℕ → String} {x : ℕ → ℝ} {lane : ℕ → Lane} (hc : RoadChain (s 0).network o 0 N node m x lane)
    {a : ℝ} {j0 : ℕ} (ht : Travels o 0 N node m x a j0 v) (hg : Guided (s 0).network N node j0 v) (hidm : v.kind = .idm) (hk : KeepsLane (s 0).network N node v) (ha : x 0 ≤ a)
    {K : ℕ} (hK : K < N) (haK : a < x K) {d : ℝ} (hd : 5 ≤ d) (hend : x K + d ≤ x N - 5 / 2)
    (hwk : w.kind = .plain) (hw0 : w.speed = 0) (hwa : w.acceleration = 0) (hwh : w.heading = 0) (hwp : w.pos = pointAt o 0 (x K + d))
    (T acc : ℝ) (hT : v.targetSpeed = T) (hvT : v.speed = T) (hT40 : T ≤ 40) (hT0 : 0 ≤ T) (hTd : T * dt ≤ 5 / 2) (hbrake : 12 * d ≤ T ^ 2)
    (hacc : G.comfortAccMax .idm = acc) (hpos : 0 < acc) (hslow : 4 * acc * dt ≤ T) :
    ∃ (t : ℕ) (v' w' : Vehicle), (s t).vehicles = [v', w'] ∧ v'.crashed = true ∧ w'.crashed = true ∧ t * (7 * dt) ≤ x K + d - a ∧
      ∀ t' < t, ∃ u p, (s t').vehicles[0]? = some u ∧ u.crashed = false ∧ u.pos = pointAt o 0 p ∧ (p < x K → u.speed = T) := by
  have hT7 : 7 ≤ T := by nlinarith
  have h7d : 7 * dt ≤ 5 / 2 := (mul_le_mul_of_nonneg_right hT7 hdt.le).trans hTd
  have key : ∀ t : ℕ, (∃ p, a + t * (7 * dt) ≤ p ∧ Junction.Approach (s 0).network o N node m x K T d p (s t)) ∨
      ∃ t0 ≤ t, (∃ v' w', (s t0).vehicles = [v', w'] ∧ v'.crashed = true ∧ w'.crashed = true) ∧
        ∀ t' < t0, ∃ p, a + t' * (7 * dt) ≤ p ∧ Junction.Approach (s 0).network o N node m x K T d p (s t') := by
    intro t
    -- either all earlier states are approaches, or the crash has happened
    have strong : (∀ t' ≤ t, ∃ p, a + t' * (7 * dt) ≤ p ∧ Junction.Approach (s 0).network o N node m x K T d p (s t')) ∨
        ∃ t0 ≤ t, (∃ v' w', (s t0).vehicles = [v', w'] ∧ v'.crashed = true ∧ w'.crashed = true) ∧
          ∀ t' < t0, ∃ p, a + t' * (7 * dt) ≤ p ∧ Junction.Approach (s 0).network o N node m x K T d p (s t') := by
      induction t with
      | zero =>
        left
        intro t' h'
        obtain rfl : t' = 0 := by omega
        exact ⟨a, by simp, rfl, hreg, hobj, ⟨v, w, j0, hv, huid, hcv, hcw, ht, hg, hk, hidm, hvs, hT, by rw [hvT]; exact hT7, hvT.le, fun _ => hvT,
          fun h => absurd h (by linarith), hwk, hw0, hwa, hws, hwh, hwp⟩, ha, by linarith⟩
      | succ t ih =>
        rcases ih with ih | ⟨t0, h1, h2⟩
        · obtain ⟨p, hp, happ⟩ := ih t le_rfl
          rcases Junction.approach_frame hwf hc hK hd hend hdt hT40 hTd hbrake hacc hpos hslow happ (hrun t) with hcrash | ⟨p', hp', happ'⟩
          · exact .inr ⟨t + 1, le_rfl, hcrash, fun t' h' => ih t' (by omega)⟩
          · left
            intro t' h'
            rcases Nat.lt_or_ge t' (t + 1) with h'' | h''
            · exact ih t' (by omega)
            · obtain rfl : t' = t + 1 := by omega
              exact ⟨p', by push_cast; linarith, happ'⟩
        · exact .inr ⟨t0, by omega, h2⟩
    rcases strong with h | h
    · exact .inl (h t le_rfl)
    · exact .inr h
  obtain ⟨n, hn⟩ := exists_nat_ge ((x K + d - a) / (7 * dt))
  have hn' := (div_le_iff₀ (by linarith)).1 hn
  rcases key n with ⟨p, hp, happ⟩ | ⟨t0, _, ⟨v', w', c1, c2, c3⟩, hb⟩
  · exact absurd happ.before (by linarith)
  · refine ⟨t0, v', w', c1, c2, c3, ?_, fun t' h' => ?_⟩
    · rcases Nat.eq_zero_or_pos t0 with e | e
      · rw [e]; simp; linarith
      · obtain ⟨p, hp, happ⟩ := hb (t0 - 1) (by omega)
        have := happ.before
        rw [Nat.cast_sub e] at hp
        push_cast at hp
        linarith
    · obtain ⟨p, hp, happ⟩ := hb t' h'
      obtain ⟨u, z, j, e1, _, _, _, e2, _, _, _, e3, _, _, _, e4, _⟩ := happ.cars
      exact ⟨u, p, by rw [e1]; rfl, e3, e2.pos, e4⟩

/-! ## The hypotheses are met -/

namespace Junction

/-- The car of `Journey.traveller`, at its target speed of 25 m/s, 50 m before the junction; a vehicle stands 50 m beyond it. -/
def fast : Vehicle := { Journey.traveller with speed := 25 }
def parked : Vehicle := { uid := 1, kind := .plain, pos := ⟨150, 0⟩, heading := 0, speed := 0, laneIndex := ⟨"b", "c", 0⟩, lane := Journey.lane1, targetLane := ⟨"b", "c", 0⟩, targetSpeed := 0 }
def road : Road := { network := Journey.map, rng := ⟨fun _ => 0, fun _ => 0, 0, 0⟩, vehicles := [fast, parked] }

theorem road_healthy : Healthy road := by
  refine ⟨Journey.map_wf, ?_, ?_, ?_⟩
  · intro v hv
    have h0 : HasLane Journey.map "a" "b" 0 Journey.lane0 := Journey.map_lanes.2 ⟨rfl, .inl ⟨rfl, rfl, rfl⟩⟩
    have h1 : HasLane Journey.map "b" "c" 0 Journey.lane1 := Journey.map_lanes.2 ⟨rfl, .inr (.inr ⟨rfl, rfl, rfl⟩)⟩
    simp only [road, List.mem_cons, List.not_mem_nil, or_false] at hv
    rcases hv with rfl | rfl
    · refine ⟨⟨⟨0, _, rfl, h0⟩, getLane_of_hasLane (k := 0) Journey.map_wf.toIsPyGraph rfl h0, ⟨0, _, rfl, h0⟩⟩, ?_⟩
      intro st hst
      simp only [fast, Journey.traveller, Option.getD_some, List.mem_cons, List.not_mem_nil, or_false] at hst
      rcases hst with rfl | rfl
      · exact ⟨_, h0.choose_spec.1⟩
      · exact ⟨_, h1.choose_spec.1⟩
    · refine ⟨⟨⟨0, _, rfl, h1⟩, getLane_of_hasLane (k := 0) Journey.map_wf.toIsPyGraph rfl h1, ⟨0, _, rfl, h1⟩⟩, ?_⟩
      intro st hst
      simp [parked] at hst
  · simp [road, fast, parked, Journey.traveller, VKind.isLinear]
  · intro h; cases h

end Junction

/-- The two cars are 100 m apart and in line: they crash within 15 s, the first driving at 25 m/s as far as the junction. -/
example : ∃ (s : ℕ → Road) (t : ℕ) (v w : Vehicle), s 0 = Junction.road ∧ (∀ t, frame {} (1 / 15) (s t) [] = .ok (s (t + 1))) ∧
    (s t).vehicles = [v, w] ∧ v.crashed = true ∧ w.crashed = true ∧ t * (1 / 15 : ℝ) ≤ 15 := by
  obtain ⟨s, h0, hrun⟩ := runs_for_ever {} (1 / 15) Junction.road Junction.road_healthy rfl
  obtain ⟨t, v, w, e1, e2, e3, e4, _⟩ := junction_blind {} (1 / 15) (by norm_num) s hrun (by rw [h0]; exact Journey.map_wf) (by rw [h0]; rfl) (by rw [h0]; rfl)
    Junction.fast Junction.parked (by rw [h0]; rfl) (by simp [Junction.fast, Junction.parked, Journey.traveller]) rfl rfl rfl rfl
    (by rw [h0]; exact Journey.map_chain) (a := 50) (j0 := 0)
    ⟨by rw [Journey.point_zero]; rfl, rfl, ⟨0, by norm_num, rfl, by norm_num [Journey.marks], by norm_num [Journey.marks]⟩, by norm_num, rfl,
      by norm_num [Journey.marks], by norm_num [Journey.marks]⟩
    (.inl ⟨_, rfl, rfl⟩) rfl (.inr (.inr ⟨rfl, .inr fun k _ ls h => by rw [h0] at h; exact Journey.map_single h⟩)) (by norm_num [Journey.marks])
    (K := 1) (by norm_num) (by norm_num [Journey.marks]) (d := 50) (by norm_num) (by norm_num [Journey.marks]) rfl rfl rfl rfl
    (by rw [Journey.point_zero]; norm_num [Junction.parked, Journey.marks]) 25 3 rfl rfl (by norm_num) (by norm_num) (by norm_num) (by norm_num) rfl (by norm_num) (by norm_num)
  refine ⟨s, t, v, w, h0, hrun, e1, e2, e3, ?_⟩
  norm_num [Journey.marks] at e4
  linarith

end HighwayEnv.Props
