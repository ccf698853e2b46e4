import Verif.Props.Cruise
import Verif.Props.Traffic
import Verif.Props.Queries
import Verif.Props.Collision
import Verif.Props.NoRaise
import Verif.Lemmas.Idm
import Mathlib.Tactic.Linarith

/-!
# C95: traffic on a lane does not run into the vehicle ahead
-/

noncomputable section
open Classical
namespace HighwayEnv.Props
open HighwayEnv Spec Graph

namespace Platoon

variable {i : LaneIndex} {l : Lane}

/-! ## The network -/

theorem net_py (a b : String) (l : Lane) : IsPyGraph [(a, [(b, [l])])] := ⟨by simp, by simp⟩

theorem net_wf (a b : String) (l : Lane) : WellFormed [(a, [(b, [l])])] :=
  { net_py a b l with nonemptyNode := by simp, nonemptyEdge := by simp }

theorem net_has (a b : String) (l : Lane) : HasLane [(a, [(b, [l])])] a b 0 l := ⟨[l], ⟨[(b, [l])], by simp, by simp⟩, rfl⟩

theorem net_only {j : LaneIndex} (h0 : i.id = 0) (h : ValidIndex [(i.src, [(i.dst, [l])])] j) : j = i := by
  obtain ⟨k, l', hk, ls, ⟨d, hd, hl⟩, hls⟩ := h
  simp only [List.mem_singleton, Prod.mk.injEq] at hd
  obtain ⟨hs, rfl⟩ := hd
  simp only [List.mem_singleton, Prod.mk.injEq] at hl
  obtain ⟨hd, rfl⟩ := hl
  have hk0 : k = 0 := by
    have := (List.getElem?_eq_some_iff.1 hls).1
    simpa using this
  cases i; cases j
  simp_all

theorem net_get (h0 : i.id = 0) : Graph.getLane [(i.src, [(i.dst, [l])])] i = .ok l :=
  getLane_of_hasLane (k := 0) (net_py _ _ _) (by rw [h0]; rfl) (net_has _ _ _)

theorem net_end (h : i.src ≠ i.dst) (t : String) : ¬ Edge [(i.src, [(i.dst, [l])])] i.dst t := by
  rintro ⟨ls, d, hd, _⟩
  simp only [List.mem_singleton, Prod.mk.injEq] at hd
  exact h hd.1.symm

theorem net_side (h0 : i.id = 0) : Graph.sideLanes [(i.src, [(i.dst, [l])])] i = .ok [] := by
  have h1 : Graph.lanesOf [(i.src, [(i.dst, [l])])] i.src i.dst = .ok [l] :=
    (lanesOf_ok_iff (net_py _ _ _)).2 ⟨[(i.dst, [l])], by simp, by simp⟩
  unfold Graph.sideLanes
  rw [h1]
  simp [bind, Except.bind, h0, pure, Except.pure]

/-! ## Geometry of the lane -/

theorem onCentre_pos (hs : ∃ p q, p ≠ q ∧ l.shape = .straight p q) :
    ∃ p q, p ≠ q ∧ l.shape = .straight p q ∧ Vec2.dir (l.headingAt 0) = Lane.straightDir p q ∧
      ∀ x y, (l.localCoordinates x).1 - (l.localCoordinates y).1 = (x - y).dot (Vec2.dir (l.headingAt 0)) := by
  obtain ⟨p, q, hpq, h⟩ := hs
  have hd : Vec2.dir (l.headingAt 0) = Lane.straightDir p q := by
    rw [Lane.straightDir_eq_dir hpq]; unfold Lane.headingAt; rw [h]
  refine ⟨p, q, hpq, h, hd, fun x y => ?_⟩
  rw [hd]
  unfold Lane.localCoordinates
  rw [h]
  simp only [Lane.straightLocal, Vec2.dot, Vec2.sub_x, Vec2.sub_y]
  ring

theorem abs_dot_dir (a : Vec2) (h : ℝ) : |a.dot (Vec2.dir h)| ≤ a.norm := by
  have h1 : (a.dot (Vec2.dir h)) ^ 2 ≤ a.norm ^ 2 := by
    rw [Vec2.norm_sq]
    simp only [Vec2.dot, Vec2.dir]
    nlinarith [Real.sin_sq_add_cos_sq h, sq_nonneg (a.x * Real.sin h - a.y * Real.cos h), sq_nonneg a.x, sq_nonneg a.y]
  exact abs_le_of_sq_le_sq h1 (Vec2.norm_nonneg a) |> fun h => h

theorem station_le_norm (hs : ∃ p q, p ≠ q ∧ l.shape = .straight p q) (v w : Vehicle) :
    |station l w - station l v| ≤ (w.pos - v.pos).norm := by
  obtain ⟨p, q, _, _, _, h⟩ := onCentre_pos hs
  unfold station
  rw [h]
  exact abs_dot_dir _ _

/-! ## One vehicle -/

/-- The model's acceleration behind a vehicle that drives on the same line. -/
theorem acc_le {G : Globals} (hG : G.comfortAccMax .idm = 3 ∧ G.comfortAccMin .idm = -5 ∧ G.distanceWanted .idm = 10)
    {v w : Vehicle} (hk : v.kind = .idm) (hv : OnMiddle i l v) (hw : OnMiddle i l w) (hd : 5 < station l w - station l v) :
    Vehicle.idmAcceleration G v.kind v (some (.veh w)) ≤ 3 * (1 - (Idm.gap v.speed w.speed / (station l w - station l v)) ^ 2) := by
  obtain ⟨g1, g2, g3⟩ := hG
  have hdist : v.laneDistanceTo w.pos = station l w - station l v := by
    unfold Vehicle.laneDistanceTo station; rw [hv.lane]
  have hgap : Vehicle.desiredGap G v.kind v (.veh w) = Idm.gap v.speed w.speed := by
    unfold Vehicle.desiredGap Idm.gap
    dsimp only
    rw [hk, g1, g2, g3]
    have e1 : (v.velocity - Entity.velocity (.veh w)).dot v.direction = v.speed - w.speed := by
      have hh : w.heading = v.heading := by rw [hv.heading, hw.heading]
      simp only [Entity.velocity, Vehicle.velocity, Vehicle.direction, hh, Vec2.dot, Vec2.sub_x, Vec2.sub_y, Vec2.smul_x, Vec2.smul_y, Vec2.dir]
      linear_combination (v.speed - w.speed) * Real.cos_sq_add_sin_sq v.heading
    rw [e1]
    have e2 : (-3 * -5 : ℝ) = 15 := by norm_num
    have e3 : Vehicle.timeWanted .idm = 3 / 2 := by simp [Vehicle.timeWanted, VKind.isLinear]
    rw [e2, e3]
  have hnz : notZero (station l w - station l v) = station l w - station l v := by
    unfold notZero; rw [if_pos]; rw [abs_of_pos (by linarith)]; linarith
  unfold Vehicle.idmAcceleration
  dsimp only [Entity.pos]
  rw [hgap, hdist, hnz, hk, g1]
  have : 0 ≤ (max v.speed 0 / notZero (if (VKind.idm).isControlled = true then v.targetSpeed else 0)) ^ 4 := by positivity
  linarith

/-- One frame of a traffic vehicle that drives on the lane. -/
theorem drive {G : Globals} {dt : ℝ} (hG : G.comfortAccMax .idm = 3) (h0 : 0 < dt) (h1 : dt ≤ 1 / 10)
    {r s : Road} (hr : SingleLane r i l) (hs : Road.SameScene r s) {v v' u : Vehicle} {rng : Rng} (hv : DrivesOn dt i l v)
    (hc : v.crashed = false) (hact : v.act G s .none = .ok (v', rng)) {rec : Bool} (hst : v'.step r.network rec dt = .ok u) :
    DrivesOn dt i l u ∧ station l u = station l v + v.speed * dt ∧ v.speed - 6 * dt ≤ u.speed ∧
    ∃ front rear acc, s.neighbourVehicles v = .ok (front, rear) ∧ acc = Vehicle.idmAcceleration G v.kind v front ∧
      (-40 ≤ v.speed → u.speed = v.speed + npClip acc (-6) 6 * dt) ∧ (v.speed < -40 → u.speed ≤ 0) := by
  have hkI : v.kind.isIDM = true := by rw [hv.kind]; rfl
  have hnet : s.network = [(i.src, [(i.dst, [l])])] := hs.network.trans hr.network
  have hi := Vehicle.act_idm hkI hact
  have hb := Vehicle.act_body hact
  have hm := Vehicle.step_mind hst
  have hspeed := decide_step (by rw [hG]; norm_num) h0.le (by linarith) hv.kind hc hv.positive (by rw [hG]; linarith [hv.notTiny]) hv.notSpeeding hact hst
  have hval : ValidIndex s.network v.targetLane := by
    rw [hnet, hv.targetLane]; exact ⟨0, l, by rw [hr.id]; rfl, net_has _ _ _⟩
  -- the decision
  unfold Vehicle.idmAct at hi
  rw [if_neg (by simp [hc])] at hi
  obtain ⟨⟨front, rear⟩, hf, hi⟩ := bind_ok hi
  obtain ⟨⟨w1, rng1⟩, hw1, hi⟩ := bind_ok hi
  obtain ⟨w2, hw2, hi⟩ := bind_ok hi
  obtain ⟨st, hst3, hi⟩ := bind_ok hi
  obtain ⟨acc, hacc, hi⟩ := bind_ok hi
  cases hi
  obtain ⟨t1, ro, rfl, v1, c1, _⟩ := Vehicle.followRoad_ok (by rw [hnet]; exact net_wf _ _ _) hval hw1
  have ht1 : t1 = i := net_only hr.id (by rw [hnet] at v1; exact v1)
  subst ht1
  -- lane changes are impossible
  have h2 : ∃ tm, w2 = { v with targetLane := t1, route := ro, timer := tm } := by
    obtain ⟨t, tm, e, hcase⟩ := Vehicle.maybeChangeLane_shape hw2
    subst e
    dsimp only at hcase ⊢
    rcases hcase with ⟨_, h, _⟩ | ⟨_, h⟩ | ⟨_, _, _, h⟩
    · exact absurd hv.laneIndex h
    · exact ⟨tm, by rw [h]⟩
    · rcases h with h | ⟨_, _, sides, hsd, hmem, _⟩
      · exact ⟨tm, by rw [h]⟩
      · rw [hnet, hv.laneIndex, net_side hr.id] at hsd
        cases hsd
        simp at hmem
  obtain ⟨tm, rfl⟩ := h2
  -- the steering command is zero
  have hst0 : st = 0 := by
    unfold Vehicle.steeringControl at hst3
    dsimp only at hst3
    rw [hnet, net_get hr.id] at hst3
    simp only [bind, Except.bind] at hst3
    rw [if_neg (by rw [hv.kind]; simp [VKind.isLinear])] at hst3
    cases hst3
    obtain ⟨p, q, _, hshape⟩ := hr.straight
    exact steering_centred hshape (by dsimp only; exact hv.lateral) (by dsimp only; exact hv.heading)
  subst hst0
  have hclip : npClip 0 (-Vehicle.MAX_STEERING_ANGLE) Vehicle.MAX_STEERING_ANGLE = 0 :=
    npClip_of_mem (by unfold Vehicle.MAX_STEERING_ANGLE; linarith [Real.pi_pos]) (by unfold Vehicle.MAX_STEERING_ANGLE; positivity)
  have hacc' : acc = Vehicle.idmAcceleration G v.kind v front := by
    unfold Vehicle.accelerationOf at hacc
    dsimp only at hacc
    rw [if_neg (by rw [hv.kind]; simp [VKind.isLinear])] at hacc
    injection hacc with hacc
    rw [← hacc]; rfl
  obtain ⟨k1, k2, k3⟩ := step_kin (by dsimp only; rw [hv.kind]; simp) hst
  obtain ⟨j, lj, hist, hj, hlj, hu⟩ := Vehicle.step_ok hst
  have hex : executedSteering ({ v with targetLane := t1, route := ro, timer := tm
                                        steering := npClip 0 (-Vehicle.MAX_STEERING_ANGLE) Vehicle.MAX_STEERING_ANGLE
                                        acceleration := npClip acc (-Vehicle.ACC_MAX) Vehicle.ACC_MAX } : Vehicle) = 0 := by
    unfold executedSteering; dsimp only; rw [hclip]; simp
  have hslip : Vehicle.slip 0 = 0 := by unfold Vehicle.slip; simp
  rw [hex, hslip] at k1 k2
  dsimp only at k1 k2
  rw [add_zero] at k1
  rw [Real.sin_zero] at k2
  have k2 : u.heading = v.heading := by rw [k2]; ring
  obtain ⟨p, q, hpq, hshape, hdir, hdiff⟩ := onCentre_pos hr.straight
  have hji : j = t1 := net_only hr.id (by rw [← hr.network]; exact closest_spec hj)
  have hljl : lj = l := by
    rw [hr.network, hji, net_get hr.id] at hlj; cases hlj; rfl
  have hstat : station l u = station l v + v.speed * dt := by
    have := hdiff u.pos v.pos
    unfold station
    rw [k1, hv.heading] at this
    rw [k1, hv.heading]
    have e : (v.pos + dt • v.speed • Vec2.dir (l.headingAt 0) - v.pos).dot (Vec2.dir (l.headingAt 0)) = v.speed * dt := by
      simp only [Vec2.dot, Vec2.sub_x, Vec2.sub_y, Vec2.add_x, Vec2.add_y, Vec2.smul_x, Vec2.smul_y, Vec2.dir]
      linear_combination (v.speed * dt) * Real.cos_sq_add_sin_sq (l.headingAt 0)
    rw [e] at this
    linarith
  refine ⟨{ lateral := ?_, heading := k2.trans hv.heading, laneIndex := by rw [hu]; exact hji, lane := by rw [hu]; exact hljl,
            kind := hm.kind.trans hv.kind, targetLane := hm.targetLane, notSpeeding := ?_, limit := ?_, positive := ?_, notTiny := ?_ },
    hstat, ?_, front, rear, acc, hf, hacc', ?_, ?_⟩
  · have hlat := hv.lateral
    unfold Lane.localCoordinates at hlat ⊢
    rw [hshape] at hlat ⊢
    simp only at hlat ⊢
    rw [k1, hv.heading, hdir]
    unfold Lane.straightLocal Vec2.dot at hlat ⊢
    simp only [Vec2.sub_x, Vec2.sub_y, Vec2.add_x, Vec2.add_y, Vec2.smul_x, Vec2.smul_y] at hlat ⊢
    linear_combination hlat
  · rw [hm.targetSpeed]; exact hspeed
  · rw [hm.targetSpeed]; exact hv.limit
  · rw [hm.targetSpeed]; exact hv.positive
  · rw [hm.targetSpeed]; exact hv.notTiny
  · rw [k3]
    have hv30 : v.speed ≤ 30 := hv.notSpeeding.trans hv.limit
    have h6 : -6 ≤ npClip acc (-Vehicle.ACC_MAX) Vehicle.ACC_MAX := by
      unfold npClip Vehicle.ACC_MAX; exact le_min (le_max_right _ _) (by norm_num)
    unfold executedAcceleration
    dsimp only
    rw [hc, hv.kind]
    simp only [Bool.false_eq_true, if_false, VKind.maxSpeed]
    rw [if_neg (by linarith)]
    split_ifs
    · have : 0 ≤ max (npClip acc (-Vehicle.ACC_MAX) Vehicle.ACC_MAX) (40 - v.speed) := le_max_of_le_right (by linarith)
      nlinarith
    · nlinarith
  · intro hlow
    rw [k3]
    have hv30 : v.speed ≤ 30 := hv.notSpeeding.trans hv.limit
    unfold executedAcceleration
    dsimp only
    rw [hc, hv.kind]
    simp only [Bool.false_eq_true, if_false, VKind.maxSpeed]
    rw [if_neg (by linarith), if_neg (by linarith)]
    rfl
  · intro hlow
    rw [k3]
    unfold executedAcceleration
    dsimp only
    rw [hc, hv.kind]
    simp only [Bool.false_eq_true, if_false, VKind.maxSpeed]
    rw [if_neg (by linarith), if_pos (by linarith)]
    have : npClip acc (-Vehicle.ACC_MAX) Vehicle.ACC_MAX ≤ 6 := by
      unfold npClip Vehicle.ACC_MAX; exact min_le_right _ _
    rw [max_eq_right (by linarith)]
    nlinarith

/-! ## One frame of the road -/

theorem spread {f : Vehicle → ℝ} {vs : List Vehicle} (h : ∀ (k : ℕ) (w v : Vehicle), vs[k]? = some w → vs[k + 1]? = some v → 5 < f w - f v)
    (j n : ℕ) (w v : Vehicle) (hw : vs[j]? = some w) (hv : vs[j + 1 + n]? = some v) : 5 < f w - f v := by
  induction n generalizing v with
  | zero => exact h j w v hw hv
  | succ n ih =>
    have hlt := (List.getElem?_eq_some_iff.1 hv).1
    obtain ⟨u, hu⟩ : ∃ u, vs[j + 1 + n]? = some u := ⟨_, List.getElem?_eq_getElem (by omega)⟩
    have h1 := ih u hu
    have h2 := h (j + 1 + n) u v hu hv
    linarith

theorem spread' {f : Vehicle → ℝ} {vs : List Vehicle} (h : ∀ (k : ℕ) (w v : Vehicle), vs[k]? = some w → vs[k + 1]? = some v → 5 < f w - f v)
    {j k : ℕ} {w v : Vehicle} (hjk : j < k) (hw : vs[j]? = some w) (hv : vs[k]? = some v) : 5 < f w - f v := by
  obtain ⟨n, rfl⟩ : ∃ n, k = j + 1 + n := ⟨k - (j + 1), by omega⟩
  exact spread h j n w v hw hv

theorem commands {G : Globals} {cmds : List (ℕ × VAction)} {r r1 : Road}
    (h : cmds.foldlM (fun r c => r.actAt G c.2 c.1) r = .ok r1) (hc : ∀ c ∈ cmds, c.1 = 0) :
    Road.SameScene r r1 ∧ Pointwise SameBody r.vehicles r1.vehicles ∧ ∀ k, (0 < k ∨ cmds = []) → r1.vehicles[k]? = r.vehicles[k]? := by
  induction cmds generalizing r with
  | nil =>
    rw [List.foldlM_nil] at h; cases h
    exact ⟨⟨rfl, rfl, rfl, rfl, rfl⟩, .refl' SameBody.refl _, fun _ _ => rfl⟩
  | cons c cs ih =>
    rw [List.foldlM_cons] at h
    obtain ⟨r2, h2, h⟩ := bind_ok h
    obtain ⟨i1, i2, i3⟩ := ih h (fun c' hc' => hc c' (by simp [hc']))
    obtain ⟨f1, f2⟩ := Road.actAt_frame h2
    refine ⟨f2.trans i1, Pointwise.comp (R := SameBody) SameBody.trans f1 i2, fun k hk => ?_⟩
    have hk : 0 < k := by simpa using hk
    rw [i3 k (.inl hk)]
    have hc0 := hc c (by simp)
    unfold Road.actAt at h2
    split at h2
    · cases h2; rfl
    · obtain ⟨⟨w, rng⟩, hw, h2⟩ := bind_ok h2
      cases h2
      rw [hc0]
      exact List.getElem?_set_ne (by omega)

/-- The parts of a frame: the vehicles after the move, before the collision checks. -/
theorem frame_parts {G : Globals} {dt : ℝ} {cmds : List (ℕ × VAction)} {r r' : Road} (hr : SingleLane r i l)
    (hc : ∀ c ∈ cmds, c.1 = 0) (h : frame G dt r cmds = .ok r') :
    SingleLane r' i l ∧ ∃ moved : List Vehicle, moved.length = r.vehicles.length ∧ r'.vehicles = (Road.collidePass moved []).1 ∧
      Pointwise (fun v u => u.uid = v.uid ∧ u.crashed = v.crashed) r.vehicles moved ∧
      ∀ k v, (0 < k ∨ cmds = []) → r.vehicles[k]? = some v →
        ∃ s v' rng rec u, Road.SameScene r s ∧ Pointwise SameBody r.vehicles s.vehicles ∧ v.act G s .none = .ok (v', rng) ∧
          v'.step r.network rec dt = .ok u ∧ moved[k]? = some u := by
  unfold frame at h
  obtain ⟨r1, h1, h⟩ := bind_ok h
  obtain ⟨r2, h2, h⟩ := bind_ok h
  obtain ⟨c1, c2, c3⟩ := commands h1 hc
  have a1 := (Road.act_frame h2).2
  have a2 := Road.act_acted h2
  have s2 := c1.trans a1
  have hstep : r2.stepBase dt = .ok r' := by
    unfold Road.step at h
    rw [s2.regulated, hr.regulated] at h
    exact h
  have hobj : r2.objects = [] := s2.objects.trans hr.objects
  obtain ⟨_, b2, _, b4, _, _, b7⟩ := Road.stepBase_frame hstep
  have hobj' : r'.objects = [] := by
    rw [hobj] at b7; exact List.forall₂_nil_left_iff.1 b7
  unfold Road.stepBase at hstep
  obtain ⟨r3, h3, hstep⟩ := bind_ok hstep
  unfold Road.moveAll at h3
  obtain ⟨moved, h4, h3⟩ := bind_ok h3
  cases h3
  cases hstep
  have hp := mapM_pointwise h4
  have hlen : moved.length = r.vehicles.length := hp.1.trans (a2.1.trans c2.1)
  refine ⟨{ network := b2.trans (s2.network.trans hr.network), id := hr.id, oneWay := hr.oneWay, straight := hr.straight, width := hr.width
            regulated := b4.trans (s2.regulated.trans hr.regulated), objects := hobj' }, moved, hlen, by rw [← hobj], ?_, ?_⟩
  · have hp' : Pointwise (fun v u => u.uid = v.uid ∧ u.crashed = v.crashed) r1.vehicles moved := by
      refine a2.trans' (fun a b c x y => ?_) hp
      obtain ⟨_, _, _, _, hact⟩ := x
      have hb := Vehicle.act_body hact
      have hm := Vehicle.step_mind y
      exact ⟨hm.uid.trans hb.uid, hm.crashed.trans hb.crashed⟩
    exact c2.trans' (fun a b c x y => ⟨y.1.trans x.uid, y.2.trans x.crashed⟩) hp'
  · intro k v hk hv
    have hv1 : r1.vehicles[k]? = some v := by rw [c3 k hk]; exact hv
    obtain ⟨v', hv', s, rng, hs, hb, hact⟩ := a2.2 k v hv1
    obtain ⟨u, hu, hst⟩ := hp.2 k v' hv'
    exact ⟨s, v', rng, _, u, c1.trans hs, Pointwise.comp (R := SameBody) SameBody.trans c2 hb, hact,
      by rw [← s2.network]; exact hst, hu⟩

/-- Vehicles on the centre line more than 5 m from each other do not collide. -/
theorem no_collision {vs : List Vehicle} (hs : ∃ p q, p ≠ q ∧ l.shape = .straight p q)
    (h : ∀ (k : ℕ) (w v : Vehicle), vs[k]? = some w → vs[k + 1]? = some v → 5 < station l w - station l v) :
    (Road.collidePass vs []).1 = vs := by
  have hev := (Road.collidePass_evolves vs []).1
  have hfar : ∀ (j k : ℕ) (w v : Vehicle), j ≠ k → vs[j]? = some w → vs[k]? = some v → v.isColliding w.rect = false := by
    intro j k w v hjk hw hv
    have h5 : 5 < |station l w - station l v| := by
      rcases Nat.lt_or_gt_of_ne hjk with hlt | hlt
      · have := spread' h hlt hw hv
        exact this.trans_le (le_abs_self _)
      · have := spread' h hlt hv hw
        rw [abs_sub_comm]
        exact this.trans_le (le_abs_self _)
    have := h5.trans_le (station_le_norm hs v w)
    unfold Vehicle.isColliding
    rw [if_pos]
    exact this
  refine List.ext_getElem? fun k => ?_
  rcases hv : vs[k]? with _ | v
  · rw [List.getElem?_eq_none_iff] at hv ⊢
    rw [hev.1]; exact hv
  · obtain ⟨w, hw, sp, b, _, _, _, hcase⟩ := hev.2 k v hv
    rcases hcase with rfl | ⟨⟨v2, hv2, _, hcause⟩, _⟩
    · exact hw
    · rw [hv] at hv2; cases hv2
      rcases hcause with ⟨j, w2, hjk, hw2, _, hcol⟩ | ⟨o, ho, _⟩
      · rw [hfar j k w2 v hjk hw2 hv, hfar k j v w2 hjk.symm hv hw2] at hcol
        simp at hcol
      · simp at ho

/-- The front neighbour of a vehicle of the queue is the previous vehicle. -/
theorem front {r s : Road} (hr : SingleLane r i l) (hs : Road.SameScene r s) (hb : Pointwise SameBody r.vehicles s.vehicles)
    (huid : (r.vehicles.map Vehicle.uid).Nodup) (hon : ∀ v ∈ r.vehicles, OnMiddle i l v)
    (hgap : ∀ (k : ℕ) (w v : Vehicle), r.vehicles[k]? = some w → r.vehicles[k + 1]? = some v → 5 < station l w - station l v)
    {k : ℕ} {w v : Vehicle} (hw : r.vehicles[k]? = some w) (hv : r.vehicles[k + 1]? = some v) (hvis : Visible l w)
    {f b : Option Entity} (hf : s.neighbourVehicles v = .ok (f, b)) :
    ∃ w', f = some (.veh w') ∧ SameBody w w' := by
  obtain ⟨lane, hl, hn, _⟩ := neighbours_sound _ _ _ _ _ hf
  simp only [Option.getD_none] at hl
  rw [hs.network, hr.network, (hon v (List.mem_of_getElem? hv)).laneIndex, net_get hr.id] at hl
  cases hl
  rw [hs.objects, hr.objects] at hn
  simp only [List.map_nil, List.append_nil] at hn
  have hne : w.uid ≠ v.uid := by
    intro he
    have h1 : (r.vehicles.map Vehicle.uid)[k]? = some w.uid := by simp [hw]
    have h2 : (r.vehicles.map Vehicle.uid)[k + 1]? = some w.uid := by simp [hv, he]
    have := (List.Nodup.getElem_inj_iff huid (hi := (List.getElem?_eq_some_iff.1 h1).1) (hj := (List.getElem?_eq_some_iff.1 h2).1)).1
      (by rw [(List.getElem?_eq_some_iff.1 h1).2, (List.getElem?_eq_some_iff.1 h2).2])
    omega
  obtain ⟨w', hw', hbw⟩ := hb.2 k w hw
  have hmem : Entity.veh w' ∈ s.vehicles.map Entity.veh := List.mem_map_of_mem (List.mem_of_getElem? hw')
  have hq : OnQueriedLane l v.uid (.veh w') := by
    refine ⟨?_, rfl, ?_, ?_, ?_⟩
    · change w'.uid ≠ v.uid; rw [hbw.uid]; exact hne
    · change |(l.localCoordinates w'.pos).2| ≤ _
      rw [hbw.pos, (hon w (List.mem_of_getElem? hw)).lateral, abs_zero]
      linarith [hr.width]
    · change -5 ≤ (l.localCoordinates w'.pos).1; rw [hbw.pos]; exact hvis.2.1
    · change (l.localCoordinates w'.pos).1 < _; rw [hbw.pos]; exact hvis.2.2
  have hd := hgap k w v hw hv
  unfold station at hd
  have halong : along l (.veh w') = (l.localCoordinates w.pos).1 := by
    change (l.localCoordinates w'.pos).1 = _; rw [hbw.pos]
  rcases f with _ | e
  · have := hn.1.1 rfl _ hmem hq
    rw [halong] at this
    linarith
  · obtain ⟨m1, m2, m3, m4⟩ := hn.2 e rfl
    have m5 := m4 _ hmem hq (by rw [halong]; linarith)
    obtain ⟨z, hz, rfl⟩ := List.mem_map.1 m1
    obtain ⟨j, hj⟩ := List.getElem?_of_mem hz
    obtain ⟨z0, hz0⟩ : ∃ z0, r.vehicles[j]? = some z0 :=
      ⟨_, List.getElem?_eq_getElem (by rw [← hb.1]; exact (List.getElem?_eq_some_iff.1 hj).1)⟩
    obtain ⟨z', hz', hbz⟩ := hb.2 j z0 hz0
    rw [hj] at hz'; cases hz'
    have hza : along l (.veh z) = (l.localCoordinates z0.pos).1 := by
      change (l.localCoordinates z.pos).1 = _; rw [hbz.pos]
    rw [hza, halong] at m5
    rw [hza] at m3
    have hjk : j = k := by
      rcases Nat.lt_trichotomy j k with h | h | h
      · have := spread' (f := station l) hgap h hz0 hw
        unfold station at this
        linarith
      · exact h
      · rcases Nat.lt_or_ge (k + 1) j with h' | h'
        · have := spread' (f := station l) hgap h' hv hz0
          unfold station at this
          linarith
        · have : j = k + 1 := by omega
          subst this
          rw [hv] at hz0; cases hz0
          exact absurd hbz.uid m2.1
    subst hjk
    rw [hw] at hz0; cases hz0
    exact ⟨z, rfl, hbz⟩

/-- What is carried from frame to frame. -/
structure Queue (dt : ℝ) (i : LaneIndex) (l : Lane) (r : Road) : Prop where
  road : SingleLane r i l
  ids : (r.vehicles.map Vehicle.uid).Nodup
  gaps : SafeGaps dt l r.vehicles
  on : ∀ v ∈ r.vehicles, OnMiddle i l v
  drives : ∀ (k : ℕ) (v : Vehicle), 0 < k → r.vehicles[k]? = some v → DrivesOn dt i l v
  sound : ∀ v ∈ r.vehicles, v.crashed = false

theorem safe_gt {dt v w : ℝ} : 5 ≤ safeDistance dt v w := le_add_of_nonneg_right (le_max_left _ _)

theorem Queue.gaps5 {dt : ℝ} {r : Road} (h : Queue dt i l r) :
    ∀ (k : ℕ) (w v : Vehicle), r.vehicles[k]? = some w → r.vehicles[k + 1]? = some v → 5 < station l w - station l v :=
  fun k w v hw hv => safe_gt.trans_lt (h.gaps k w v hw hv)

private theorem get_of_len {r : List Vehicle} {m : List Vehicle} (h : m.length = r.length) {k : ℕ} {u : Vehicle} (hu : m[k]? = some u) :
    ∃ v, r[k]? = some v := ⟨_, List.getElem?_eq_getElem (by rw [← h]; exact (List.getElem?_eq_some_iff.1 hu).1)⟩

/-- One frame of a queue: nobody collides, and the safe distances are kept, provided the first vehicle drives along the lane. -/
theorem queue_frame {G : Globals} {dt : ℝ} (hG : G.comfortAccMax .idm = 3 ∧ G.comfortAccMin .idm = -5 ∧ G.distanceWanted .idm = 10)
    (h0 : 0 < dt) (h1 : dt ≤ 1 / 10) {cmds : List (ℕ × VAction)} {r r' : Road} (hc : ∀ c ∈ cmds, c.1 = 0)
    (hq : Queue dt i l r) (h : frame G dt r cmds = .ok r')
    (hlead : ∀ v v', r.vehicles[0]? = some v → r'.vehicles[0]? = some v' →
      OnMiddle i l v' ∧ station l v' = station l v + v.speed * dt ∧ (v'.crashed = false → v.speed - 6 * dt ≤ v'.speed))
    (hvis : ∀ (k : ℕ) (v : Vehicle), k + 1 < r.vehicles.length → r.vehicles[k]? = some v → Visible l v)
    (hfwd : ∀ (k : ℕ) (v : Vehicle), k + 1 < r'.vehicles.length → r'.vehicles[k]? = some v → v.crashed = false → 0 ≤ v.speed) :
    Queue dt i l r' := by
  obtain ⟨hr', moved, hlen, hfinal, hsteady, hmove⟩ := frame_parts hq.road hc h
  have hev := (Road.collidePass_evolves moved []).1
  rw [← hfinal] at hev
  -- what each follower does
  have hfol : ∀ (k : ℕ) (w v u : Vehicle), r.vehicles[k]? = some w → r.vehicles[k + 1]? = some v → moved[k + 1]? = some u →
      DrivesOn dt i l u ∧ station l u = station l v + v.speed * dt ∧ v.speed - 6 * dt ≤ u.speed ∧
      ∀ w', 0 ≤ w' → w.speed - 6 * dt ≤ w' →
        safeDistance dt u.speed w' < (station l w + w.speed * dt) - (station l v + v.speed * dt) := by
    intro k w v u hw hv hu
    obtain ⟨s, v', rng, rec, u', hs, hb, hact, hst, hu'⟩ := hmove (k + 1) v (.inl (by omega)) hv
    rw [hu] at hu'; cases hu'
    have hdv := hq.drives (k + 1) v (by omega) hv
    have hw0 := hvis k w (List.getElem?_eq_some_iff.1 hv).1 hw
    have hgap := hq.gaps k w v hw hv
    obtain ⟨d1, d2, d3, f, b, acc, hf, hacc, hsp, hlow⟩ := drive hG.1 h0 h1 hq.road hs hdv
      (hq.sound v (List.mem_of_getElem? hv)) hact hst
    obtain ⟨w1, rfl, hbw⟩ := front hq.road hs hb hq.ids hq.on hq.gaps5 hw hv hw0 hf
    have how := hq.on w (List.mem_of_getElem? hw)
    have how1 : OnMiddle i l w1 := ⟨by rw [hbw.pos]; exact how.lateral, by rw [hbw.heading]; exact how.heading,
      by rw [hbw.laneIndex]; exact how.laneIndex, by rw [hbw.lane]; exact how.lane⟩
    have hst1 : station l w1 = station l w := by unfold station; rw [hbw.pos]
    have ha := acc_le hG hdv.kind hdv.toOnMiddle how1 (by rw [hst1]; exact safe_gt.trans_lt hgap)
    rw [← hacc, hst1, hbw.speed] at ha
    have hv30 : v.speed ≤ 30 := hdv.notSpeeding.trans hdv.limit
    refine ⟨d1, d2, d3, ?_⟩
    · intro w' hw' hw6
      rcases le_or_gt (-40) v.speed with hv40 | hv40
      · have := Idm.keeps_distance (a := acc) h0 h1 hv30 hw0.1 hw' hw6 hgap ha
        rw [← hsp hv40] at this
        linarith
      · have h5 := hlow hv40
        have hsd : safeDistance dt u.speed w' = 5 := by
          unfold safeDistance
          rw [max_eq_right h5]
          have : (0 : ℝ) ^ 2 / 12 + 0 * dt - (w' ^ 2 / 12 + w' * dt / 2) ≤ 0 := by
            have : 0 ≤ w' ^ 2 / 12 + w' * dt / 2 := by positivity
            linarith
          rw [max_eq_left this]; norm_num
        rw [hsd]
        have h6 := safe_gt.trans_lt hgap
        have h7 : 0 ≤ w.speed * dt := mul_nonneg hw0.1 h0.le
        nlinarith
  -- positions after the move, also of the first vehicle
  have hpos : ∀ (k : ℕ) (v u : Vehicle), r.vehicles[k]? = some v → moved[k]? = some u →
      OnMiddle i l u ∧ station l u = station l v + v.speed * dt := by
    intro k v u hv hu
    rcases Nat.eq_zero_or_pos k with rfl | hk
    · obtain ⟨z, hz, sp, b, rfl, _, _, _⟩ := hev.2 0 u hu
      obtain ⟨l1, l2, _⟩ := hlead v _ hv hz
      exact ⟨⟨l1.lateral, l1.heading, l1.laneIndex, l1.lane⟩, l2⟩
    · obtain ⟨n, rfl⟩ : ∃ n, k = n + 1 := ⟨k - 1, by omega⟩
      obtain ⟨w, hw⟩ : ∃ w, r.vehicles[n]? = some w :=
        ⟨_, List.getElem?_eq_getElem (by have := (List.getElem?_eq_some_iff.1 hv).1; omega)⟩
      obtain ⟨d1, d2, _⟩ := hfol n w v u hw hv hu
      exact ⟨d1.toOnMiddle, d2⟩
  have hfar : ∀ (k : ℕ) (w v : Vehicle), moved[k]? = some w → moved[k + 1]? = some v → 5 < station l w - station l v := by
    intro k w v hw hv
    obtain ⟨w0, hw0⟩ := get_of_len hlen hw
    obtain ⟨v0, hv0⟩ := get_of_len hlen hv
    rw [(hpos k w0 w hw0 hw).2, (hpos (k + 1) v0 v hv0 hv).2]
    obtain ⟨_, _, _, hs⟩ := hfol k w0 v0 v hw0 hv0 hv
    exact safe_gt.trans_lt (hs (max 0 (w0.speed - 6 * dt)) (le_max_left _ _) (le_max_right _ _))
  have hsame : r'.vehicles = moved := by rw [hfinal]; exact no_collision hq.road.straight hfar
  rw [← hsame] at hpos hfol hlen hsteady
  have hwhole : ∀ v ∈ r'.vehicles, v.crashed = false := by
    intro v hv
    obtain ⟨k, hk⟩ := List.getElem?_of_mem hv
    obtain ⟨v0, hv0⟩ := get_of_len hlen hk
    obtain ⟨u, hu, _, hcr⟩ := hsteady.2 k v0 hv0
    rw [hk] at hu; cases hu
    rw [hcr]; exact hq.sound v0 (List.mem_of_getElem? hv0)
  refine ⟨hr', ?_, ?_, ?_, ?_, ?_⟩
  · -- identities
    have : r'.vehicles.map Vehicle.uid = r.vehicles.map Vehicle.uid := by
      refine List.ext_getElem? fun k => ?_
      rw [List.getElem?_map, List.getElem?_map]
      rcases hv : r.vehicles[k]? with _ | v
      · rw [List.getElem?_eq_none_iff.2 (by rw [hlen]; exact List.getElem?_eq_none_iff.1 hv)]
      · obtain ⟨u, hu, hid, _⟩ := hsteady.2 k v hv
        rw [hu]; simp [hid]
    rw [this]; exact hq.ids
  · intro k w v hw hv
    obtain ⟨w0, hw0⟩ := get_of_len hlen hw
    obtain ⟨v0, hv0⟩ := get_of_len hlen hv
    rw [(hpos k w0 w hw0 hw).2, (hpos (k + 1) v0 v hv0 hv).2]
    obtain ⟨_, _, _, hs⟩ := hfol k w0 v0 v hw0 hv0 hv
    refine hs w.speed (hfwd k w (List.getElem?_eq_some_iff.1 hv).1 hw (hwhole w (List.mem_of_getElem? hw))) ?_
    rcases Nat.eq_zero_or_pos k with rfl | hk
    · exact (hlead w0 w hw0 hw).2.2 (hwhole w (List.mem_of_getElem? hw))
    · obtain ⟨n, rfl⟩ : ∃ n, k = n + 1 := ⟨k - 1, by omega⟩
      obtain ⟨z, hz⟩ : ∃ z, r.vehicles[n]? = some z :=
        ⟨_, List.getElem?_eq_getElem (by have := (List.getElem?_eq_some_iff.1 hw0).1; omega)⟩
      exact (hfol n z w0 w hz hw0 hw).2.2.1
  · intro v hv
    obtain ⟨k, hk⟩ := List.getElem?_of_mem hv
    obtain ⟨v0, hv0⟩ := get_of_len hlen hk
    exact (hpos k v0 v hv0 hk).1
  · intro k v hk hv
    obtain ⟨n, rfl⟩ : ∃ n, k = n + 1 := ⟨k - 1, by omega⟩
    obtain ⟨v0, hv0⟩ := get_of_len hlen hv
    obtain ⟨z, hz⟩ : ∃ z, r.vehicles[n]? = some z :=
      ⟨_, List.getElem?_eq_getElem (by have := (List.getElem?_eq_some_iff.1 hv0).1; omega)⟩
    exact (hfol n z v0 v hz hv0 hv).1
  · exact hwhole

/-- The first vehicle of a queue, when it is a traffic vehicle that receives no commands, drives along the lane. -/
theorem first_advances {G : Globals} {dt : ℝ} (hG : G.comfortAccMax .idm = 3) (h0 : 0 < dt) (h1 : dt ≤ 1 / 10)
    {r r' : Road} (hr : SingleLane r i l) (hs : ∀ v ∈ r.vehicles, v.crashed = false) (h : frame G dt r [] = .ok r') {v v' : Vehicle}
    (hv : r.vehicles[0]? = some v) (hv' : r'.vehicles[0]? = some v') (hd : DrivesOn dt i l v) :
    OnMiddle i l v' ∧ station l v' = station l v + v.speed * dt ∧
      (v'.crashed = false → v.speed - 6 * dt ≤ v'.speed ∧ DrivesOn dt i l v') := by
  obtain ⟨_, moved, _, hfinal, _, hmove⟩ := frame_parts hr (by simp) h
  obtain ⟨s, w, rng, rec, u, hsc, _, hact, hst, hu⟩ := hmove 0 v (.inr rfl) hv
  obtain ⟨d1, d2, d3, _⟩ := drive hG h0 h1 hr hsc hd (hs v (List.mem_of_getElem? hv)) hact hst
  have hev := (Road.collidePass_evolves moved []).1
  rw [← hfinal] at hev
  obtain ⟨z, hz, sp, b, hzb, _, _, hcase⟩ := hev.2 0 u hu
  rw [hv'] at hz; cases hz
  refine ⟨?_, ?_, ?_⟩
  · rw [hzb]; exact ⟨d1.lateral, d1.heading, d1.laneIndex, d1.lane⟩
  · rw [hzb]; exact d2
  · intro hcr
    rcases hcase with rfl | ⟨_, hb⟩
    · exact ⟨d3, d1⟩
    · rw [hzb] at hcr
      change b = false at hcr
      rw [hb] at hcr; cases hcr

/-- Nothing is ahead of the first vehicle: it does not slow down. -/
theorem first_free {G : Globals} {dt : ℝ} (hG : G.comfortAccMax .idm = 3) (h0 : 0 < dt) (h1 : dt ≤ 1 / 10)
    {r r' : Road} (hq : Queue dt i l r) (h : frame G dt r [] = .ok r') {v v' : Vehicle}
    (hv : r.vehicles[0]? = some v) (hv' : r'.vehicles[0]? = some v') (hd : DrivesOn dt i l v) (hsp : 0 ≤ v.speed) (hc' : v'.crashed = false) :
    v.speed ≤ v'.speed := by
  obtain ⟨_, moved, _, hfinal, _, hmove⟩ := frame_parts hq.road (by simp) h
  obtain ⟨s, w, rng, rec, u, hsc, hb, hact, hst, hu⟩ := hmove 0 v (.inr rfl) hv
  obtain ⟨_, _, _, f, b, acc, hf, hacc, hspeed, _⟩ := drive hG h0 h1 hq.road hsc hd (hq.sound v (List.mem_of_getElem? hv)) hact hst
  have hev := (Road.collidePass_evolves moved []).1
  rw [← hfinal] at hev
  obtain ⟨z, hz, sp, c, hzb, _, _, hcase⟩ := hev.2 0 u hu
  rw [hv'] at hz; cases hz
  have hvu : v' = u := by
    rcases hcase with e | ⟨_, e⟩
    · exact e
    · rw [hzb] at hc'
      change c = false at hc'
      rw [e] at hc'; cases hc'
  subst hvu
  have hnone : f = none := by
    obtain ⟨lane, hl, hn, _⟩ := neighbours_sound _ _ _ _ _ hf
    simp only [Option.getD_none] at hl
    rw [hsc.network, hq.road.network, hd.laneIndex, net_get hq.road.id] at hl
    cases hl
    rw [hsc.objects, hq.road.objects] at hn
    simp only [List.map_nil, List.append_nil] at hn
    refine hn.1.2 ?_
    intro e he hqe
    obtain ⟨z, hz, rfl⟩ := List.mem_map.1 he
    obtain ⟨j, hj⟩ := List.getElem?_of_mem hz
    obtain ⟨z0, hz0⟩ := get_of_len hb.1 hj
    obtain ⟨z', hz', hbz⟩ := hb.2 j z0 hz0
    rw [hj] at hz'; cases hz'
    rcases Nat.eq_zero_or_pos j with rfl | hj0
    · rw [hv] at hz0; cases hz0
      exact absurd hbz.uid hqe.1
    · have := spread' hq.gaps5 hj0 hv hz0
      change (l.localCoordinates z.pos).1 < _
      rw [hbz.pos]
      unfold station at this
      linarith
  subst hnone
  rw [hspeed (by linarith)]
  have hT : 0 < v.targetSpeed := by linarith [hd.positive]
  have hacc0 : 0 ≤ acc := by
    rw [hacc]
    unfold Vehicle.idmAcceleration
    dsimp only
    rw [hd.kind, hG]
    have hnz : notZero v.targetSpeed = v.targetSpeed := by
      unfold notZero; rw [if_pos]; rw [abs_of_pos hT]; exact hd.positive
    rw [if_pos (by rfl), hnz, max_eq_left hsp]
    have : (v.speed / v.targetSpeed) ^ 4 ≤ 1 := pow_le_one₀ (by positivity) ((div_le_one hT).2 hd.notSpeeding)
    linarith
  have : 0 ≤ npClip acc (-6) 6 := by unfold npClip; exact le_min (le_max_of_le_left hacc0) (by norm_num)
  nlinarith

end Platoon

/-! ## C95 -/

/-- On a road made of one straight lane, a queue of vehicles of which all but the first are traffic vehicles (class with the non-linear model, default parameters), driving on the lane at
most at their target speeds (at most 30 m/s), all keeping at least the safe distance behind the previous one; frames last at most 0.1 s; the first vehicle may be of any class and receive any
commands.  As long as the first one drives along the lane braking at most at 6 m/s², and no vehicle with a follower reverses or leaves the range in which followers see it,
every follower keeps the safe distance (hence stays more than a vehicle length behind), and nobody crashes. -/
theorem no_rear_end (G : Globals) (dt : ℝ) (hG : G.comfortAccMax .idm = 3 ∧ G.comfortAccMin .idm = -5 ∧ G.distanceWanted .idm = 10)
    (h0 : 0 < dt) (h1 : dt ≤ 1 / 10) (i : LaneIndex) (l : Lane) (s : ℕ → Road) (cmds : ℕ → List (ℕ × VAction)) (n : ℕ)
    (hrun : ∀ t < n, frame G dt (s t) (cmds t) = .ok (s (t + 1))) (hcmd : ∀ t < n, ∀ c ∈ cmds t, c.1 = 0)
    (hroad : SingleLane (s 0) i l) (hids : ((s 0).vehicles.map Vehicle.uid).Nodup) (hgaps : SafeGaps dt l (s 0).vehicles)
    (hon : ∀ v, (s 0).vehicles[0]? = some v → OnMiddle i l v)
    (hdrive : ∀ (k : ℕ) (v : Vehicle), 0 < k → (s 0).vehicles[k]? = some v → DrivesOn dt i l v)
    (hsound : ∀ v ∈ (s 0).vehicles, v.crashed = false)
    (hlead : ∀ t < n, ∀ v v', (s t).vehicles[0]? = some v → (s (t + 1)).vehicles[0]? = some v' → Advances dt i l v v')
    (hvis : ∀ t ≤ n, ∀ (k : ℕ) (v : Vehicle), k + 1 < (s t).vehicles.length → (s t).vehicles[k]? = some v → Visible l v) :
    SafeGaps dt l (s n).vehicles ∧
    (∀ (j k : ℕ) (w v : Vehicle), j < k → (s n).vehicles[j]? = some w → (s n).vehicles[k]? = some v → station l v + 5 < station l w) ∧
    (∀ v ∈ (s n).vehicles, v.crashed = false) := by
  have hq : ∀ t ≤ n, Platoon.Queue dt i l (s t) := by
    intro t ht
    induction t with
    | zero =>
      refine ⟨hroad, hids, hgaps, fun v hv => ?_, hdrive, hsound⟩
      obtain ⟨k, hk⟩ := List.getElem?_of_mem hv
      rcases Nat.eq_zero_or_pos k with rfl | hk0
      · exact hon v hk
      · exact (hdrive k v hk0 hk).toOnMiddle
    | succ t ih =>
      exact Platoon.queue_frame hG h0 h1 (hcmd t (by omega)) (ih (by omega)) (hrun t (by omega))
        (fun v v' hv hv' => have h := hlead t (by omega) v v' hv hv'; ⟨h.on, h.advance, fun _ => h.brake⟩)
        (hvis t (by omega)) (fun k v hk hv _ => (hvis (t + 1) ht k v hk hv).1)
  have h := hq n le_rfl
  refine ⟨h.gaps, fun j k w v hjk hw hv => ?_, h.sound⟩
  have := Platoon.spread' h.gaps5 hjk hw hv
  linarith

theorem Platoon.queues {G : Globals} {dt : ℝ} (hG : G.comfortAccMax .idm = 3 ∧ G.comfortAccMin .idm = -5 ∧ G.distanceWanted .idm = 10)
    (h0 : 0 < dt) (h1 : dt ≤ 1 / 10) {i : LaneIndex} {l : Lane} {s : ℕ → Road} {n : ℕ}
    (hrun : ∀ t < n, frame G dt (s t) [] = .ok (s (t + 1)))
    (hroad : SingleLane (s 0) i l) (hids : ((s 0).vehicles.map Vehicle.uid).Nodup) (hgaps : SafeGaps dt l (s 0).vehicles)
    (hdrive : ∀ v ∈ (s 0).vehicles, DrivesOn dt i l v) (hsound : ∀ v ∈ (s 0).vehicles, v.crashed = false)
    (hvis : ∀ t ≤ n, ∀ (k : ℕ) (v : Vehicle), k + 1 < (s t).vehicles.length → (s t).vehicles[k]? = some v → Visible l v) :
    ∀ t ≤ n, Platoon.Queue dt i l (s t) ∧ ∀ v ∈ (s t).vehicles, DrivesOn dt i l v := by
  intro t ht
  induction t with
  | zero =>
    exact ⟨⟨hroad, hids, hgaps, fun v hv => (hdrive v hv).toOnMiddle, fun k v _ hv => hdrive v (List.mem_of_getElem? hv), hsound⟩, hdrive⟩
  | succ t ih =>
    obtain ⟨q, d⟩ := ih (by omega)
    have hfirst := fun v v' hv hv' => Platoon.first_advances hG.1 h0 h1 q.road q.sound (hrun t (by omega)) (v := v) (v' := v') hv hv'
      (d v (List.mem_of_getElem? hv))
    have q' := Platoon.queue_frame hG h0 h1 (by simp) q (hrun t (by omega))
      (fun v v' hv hv' => have h := hfirst v v' hv hv'; ⟨h.1, h.2.1, fun hc => (h.2.2 hc).1⟩)
      (hvis t (by omega)) (fun k v hk hv _ => (hvis (t + 1) ht k v hk hv).1)
    refine ⟨q', fun v hv => ?_⟩
    obtain ⟨k, hk⟩ := List.getElem?_of_mem hv
    rcases Nat.eq_zero_or_pos k with rfl | hk0
    · obtain ⟨_, m, hlen, hfin, _⟩ := Platoon.frame_parts q.road (by simp) (hrun t (by omega))
      have hlt : 0 < (s t).vehicles.length := by
        have h2 := (List.getElem?_eq_some_iff.1 hk).1
        have h3 := (Road.collidePass_evolves m []).1.1
        rw [hfin] at h2
        omega
      exact (((hfirst _ v (List.getElem?_eq_getElem hlt) hk).2.2) (q'.sound v hv)).2
    · exact q'.drives k v hk0 hk

/-- The same for a queue made of traffic vehicles only. -/
theorem traffic_no_rear_end (G : Globals) (dt : ℝ) (hG : G.comfortAccMax .idm = 3 ∧ G.comfortAccMin .idm = -5 ∧ G.distanceWanted .idm = 10)
    (h0 : 0 < dt) (h1 : dt ≤ 1 / 10) (i : LaneIndex) (l : Lane) (s : ℕ → Road) (n : ℕ)
    (hrun : ∀ t < n, frame G dt (s t) [] = .ok (s (t + 1)))
    (hroad : SingleLane (s 0) i l) (hids : ((s 0).vehicles.map Vehicle.uid).Nodup) (hgaps : SafeGaps dt l (s 0).vehicles)
    (hdrive : ∀ v ∈ (s 0).vehicles, DrivesOn dt i l v) (hsound : ∀ v ∈ (s 0).vehicles, v.crashed = false)
    (hvis : ∀ t ≤ n, ∀ (k : ℕ) (v : Vehicle), k + 1 < (s t).vehicles.length → (s t).vehicles[k]? = some v → Visible l v) :
    SafeGaps dt l (s n).vehicles ∧
    (∀ (j k : ℕ) (w v : Vehicle), j < k → (s n).vehicles[j]? = some w → (s n).vehicles[k]? = some v → station l v + 5 < station l w) ∧
    (∀ v ∈ (s n).vehicles, v.crashed = false ∧ v.speed ≤ v.targetSpeed) := by
  have hq := Platoon.queues hG h0 h1 hrun hroad hids hgaps hdrive hsound hvis
  obtain ⟨h, d⟩ := hq n le_rfl
  refine ⟨h.gaps, fun j k w v hjk hw hv => ?_, fun v hv => ⟨h.sound v hv, (d v hv).notSpeeding⟩⟩
  have := Platoon.spread' h.gaps5 hjk hw hv
  linarith

theorem Platoon.pair_queues {G : Globals} {dt : ℝ} (hG : G.comfortAccMax .idm = 3 ∧ G.comfortAccMin .idm = -5 ∧ G.distanceWanted .idm = 10)
    (h0 : 0 < dt) (h1 : dt ≤ 1 / 10) {i : LaneIndex} {l : Lane} {s : ℕ → Road} {n : ℕ} {w v : Vehicle}
    (hrun : ∀ t < n, frame G dt (s t) [] = .ok (s (t + 1))) (hroad : SingleLane (s 0) i l) (hcars : (s 0).vehicles = [w, v])
    (hids : w.uid ≠ v.uid) (hw : DrivesOn dt i l w) (hv : DrivesOn dt i l v) (hcw : w.crashed = false) (hcv : v.crashed = false)
    (hgap : safeDistance dt v.speed w.speed < station l w - station l v) (hsp : 0 ≤ w.speed)
    (hx : -5 ≤ station l w) (hlong : station l w + 30 * dt * n < l.length + 5) :
    ∀ t ≤ n, Platoon.Queue dt i l (s t) ∧ ∃ w' v', (s t).vehicles = [w', v'] ∧ DrivesOn dt i l w' ∧ w.speed ≤ w'.speed ∧
      station l w ≤ station l w' ∧ station l w' ≤ station l w + 30 * dt * t := by
  intro t ht
  induction t with
  | zero =>
    refine ⟨⟨hroad, by rw [hcars]; simpa using hids, ?_, ?_, ?_, ?_⟩, w, v, hcars, hw, le_rfl, le_rfl, by simp⟩
    · rw [hcars]
      intro k a b ha hb
      rcases k with _ | k
      · simp at ha hb; subst ha hb; exact hgap
      · simp at hb
    · rw [hcars]; intro a ha
      simp only [List.mem_cons, List.not_mem_nil, or_false] at ha
      rcases ha with rfl | rfl
      · exact hw.toOnMiddle
      · exact hv.toOnMiddle
    · rw [hcars]; intro k a hk ha
      rcases k with _ | _ | k
      · omega
      · simp at ha; subst ha; exact hv
      · simp at ha
    · rw [hcars]; intro a ha
      simp only [List.mem_cons, List.not_mem_nil, or_false] at ha
      rcases ha with rfl | rfl
      · exact hcw
      · exact hcv
  | succ t ih =>
    obtain ⟨q, a, b, hab, hda, hsa, hxa, hya⟩ := ih (by omega)
    have hf := hrun t (by omega)
    have ha0 : (s t).vehicles[0]? = some a := by rw [hab]; rfl
    obtain ⟨_, m, hlen, hfin, _⟩ := Platoon.frame_parts q.road (by simp) hf
    have hlen' : (s (t + 1)).vehicles.length = 2 := by
      rw [hfin, (Road.collidePass_evolves m []).1.1, hlen, hab]; rfl
    obtain ⟨c, d, hcd⟩ := List.length_eq_two.1 hlen'
    have hc0 : (s (t + 1)).vehicles[0]? = some c := by rw [hcd]; rfl
    obtain ⟨f1, f2, f3⟩ := Platoon.first_advances hG.1 h0 h1 q.road q.sound hf ha0 hc0 hda
    have hvisa : Visible l a := by
      refine ⟨hsp.trans hsa, hx.trans hxa, lt_of_le_of_lt hya (lt_of_le_of_lt ?_ hlong)⟩
      have : (t : ℝ) ≤ n := by exact_mod_cast (by omega : t ≤ n)
      nlinarith
    -- the speed of the first vehicle: if it crashed, it is not needed
    have hfwd : ∀ (k : ℕ) (x : Vehicle), k + 1 < (s (t + 1)).vehicles.length → (s (t + 1)).vehicles[k]? = some x → x.crashed = false → 0 ≤ x.speed := by
      intro k x hk hx hcr
      rw [hlen'] at hk
      obtain rfl : k = 0 := by omega
      rw [hc0] at hx; cases hx
      exact (hsp.trans hsa).trans (Platoon.first_free hG.1 h0 h1 q hf ha0 hc0 hda (hsp.trans hsa) hcr)
    have q' := Platoon.queue_frame hG h0 h1 (by simp) q hf
      (fun x y hx hy => by
        rw [ha0] at hx; cases hx
        rw [hc0] at hy; cases hy
        exact ⟨f1, f2, fun hcr => (f3 hcr).1⟩)
      (fun k x hk hx => by
        rw [hab] at hk hx
        obtain rfl : k = 0 := by simpa using hk
        simp at hx; subst hx; exact hvisa)
      hfwd
    have hcr := q'.sound c (List.mem_of_getElem? hc0)
    have hfree := Platoon.first_free hG.1 h0 h1 q hf ha0 hc0 hda (hsp.trans hsa) hcr
    refine ⟨q', c, d, hcd, (f3 hcr).2, hsa.trans hfree, ?_, ?_⟩
    · rw [f2]
      have : 0 ≤ a.speed * dt := mul_nonneg (hsp.trans hsa) h0.le
      linarith
    · rw [f2]
      have : a.speed * dt ≤ 30 * dt := mul_le_mul_of_nonneg_right (hda.notSpeeding.trans hda.limit) h0.le
      push_cast
      linarith

/-- Two traffic vehicles on a lane that the first one does not leave: nothing else is assumed about their motion. -/
theorem pair_no_rear_end (G : Globals) (dt : ℝ) (hG : G.comfortAccMax .idm = 3 ∧ G.comfortAccMin .idm = -5 ∧ G.distanceWanted .idm = 10)
    (h0 : 0 < dt) (h1 : dt ≤ 1 / 10) (i : LaneIndex) (l : Lane) (s : ℕ → Road) (n : ℕ) (w v : Vehicle)
    (hrun : ∀ t < n, frame G dt (s t) [] = .ok (s (t + 1))) (hroad : SingleLane (s 0) i l) (hcars : (s 0).vehicles = [w, v])
    (hids : w.uid ≠ v.uid) (hw : DrivesOn dt i l w) (hv : DrivesOn dt i l v) (hcw : w.crashed = false) (hcv : v.crashed = false)
    (hgap : safeDistance dt v.speed w.speed < station l w - station l v) (hsp : 0 ≤ w.speed)
    (hx : -5 ≤ station l w) (hlong : station l w + 30 * dt * n < l.length + 5) :
    ∃ w' v', (s n).vehicles = [w', v'] ∧ safeDistance dt v'.speed w'.speed < station l w' - station l v' ∧
      w'.crashed = false ∧ v'.crashed = false ∧ w.speed ≤ w'.speed := by
  have hq := Platoon.pair_queues hG h0 h1 hrun hroad hcars hids hw hv hcw hcv hgap hsp hx hlong
  obtain ⟨q, a, b, hab, _, hsa, _⟩ := hq n le_rfl
  exact ⟨a, b, hab, q.gaps 0 a b (by rw [hab]; rfl) (by rw [hab]; rfl), q.sound a (by rw [hab]; simp), q.sound b (by rw [hab]; simp), hsa⟩

/-- Why vehicles ahead have to be in range: a vehicle 5 m or more beyond the end of the lane, whatever it does, is not a front neighbour for
anybody on the lane, even a follower right behind it. -/
theorem beyond_end_invisible (r : Road) (i : LaneIndex) (l : Lane) (hr : SingleLane r i l) (w v : Vehicle) (hcars : r.vehicles = [w, v])
    (hv : OnMiddle i l v) (hw : l.length + 5 ≤ station l w) : ∃ rear, r.neighbourVehicles v = .ok (none, rear) := by
  obtain ⟨f, b, h, hn, _⟩ := neighbours_nearest r v none l (by
    simp only [Option.getD_none]
    rw [hr.network, hv.laneIndex]; exact Platoon.net_get hr.id)
  rw [hcars, hr.objects] at hn
  have : f = none := by
    refine hn.1.2 fun e he hq => ?_
    simp only [List.map_cons, List.map_nil, List.append_nil, List.mem_cons, List.not_mem_nil, or_false] at he
    rcases he with rfl | rfl
    · have h5 : station l w < l.length + 5 := hq.2.2.2.2
      linarith
    · exact absurd rfl hq.1
  subst this
  exact ⟨b, h⟩

/-! ## The hypotheses are met -/

/-- A healthy road without regulation runs for ever. -/
theorem runs_for_ever (G : Globals) (dt : ℝ) (r : Road) (hr : Healthy r) (hreg : r.regulated = false) :
    ∃ s : ℕ → Road, s 0 = r ∧ ∀ t, frame G dt (s t) [] = .ok (s (t + 1)) := by
  have next : ∀ p : { r : Road // Healthy r ∧ r.regulated = false }, ∃ q : { r : Road // Healthy r ∧ r.regulated = false },
      frame G dt p.1 [] = .ok q.1 := by
    rintro ⟨r, hr, hreg⟩
    obtain ⟨r1, h1⟩ := roadAct_never_raises G r hr
    have hr1 := healthy_forever G r r1 hr (.tail (.refl r) (.act h1))
    have hreg1 : r1.regulated = false := (Road.act_frame h1).2.regulated.trans hreg
    obtain ⟨r2, h2⟩ := roadStep_never_raises r1 hr1 dt (by intro h; rw [hreg1] at h; cases h)
    have hr2 := healthy_forever G r1 r2 hr1 (.tail (.refl r1) (.step dt h2))
    obtain ⟨_, _, _, hreg2, _⟩ := Road.step_frame h2
    refine ⟨⟨r2, hr2, hreg2.trans hreg1⟩, ?_⟩
    unfold frame
    simp only [List.foldlM_nil, pure, Except.pure, bind, Except.bind, h1, h2]
  choose f hf using next
  refine ⟨fun t => (f^[t] ⟨r, hr, hreg⟩).1, rfl, fun t => ?_⟩
  dsimp only
  rw [Function.iterate_succ_apply']
  exact hf _

namespace Platoon

/-- A lane of 10 km. -/
def longLane : Lane := { shape := .straight ⟨0, 0⟩ ⟨10000, 0⟩ }

def car (uid : ℕ) (x speed target : ℝ) : Vehicle :=
  { uid := uid, kind := .idm, pos := ⟨x, 0⟩, heading := 0, speed := speed, laneIndex := ⟨"0", "1", 0⟩, lane := longLane
    targetLane := ⟨"0", "1", 0⟩, targetSpeed := target }

/-- A car at 10 m/s, 60 m behind it one at 25 m/s that would like to drive at 30 m/s. -/
def road : Road :=
  { network := [("0", [("1", [longLane])])], rng := ⟨fun _ => 0, fun _ => 0, 0, 0⟩, vehicles := [car 0 160 10 12, car 1 100 25 30] }

theorem longLane_local (x y : ℝ) : longLane.localCoordinates ⟨x, y⟩ = (x, y) := by
  have : √((10000 : ℝ) ^ 2) = 10000 := by rw [Real.sqrt_sq (by norm_num)]
  simp [longLane, Lane.localCoordinates, Lane.straightLocal, Lane.straightDir, Vec2.norm, Vec2.dot, this]

theorem longLane_length : longLane.length = 10000 := by
  have : √((10000 : ℝ) ^ 2) = 10000 := by rw [Real.sqrt_sq (by norm_num)]
  simp [longLane, Lane.length, Vec2.norm, this]

theorem road_single : SingleLane road ⟨"0", "1", 0⟩ longLane :=
  ⟨rfl, rfl, by simp, ⟨⟨0, 0⟩, ⟨10000, 0⟩, by simp, rfl⟩, by simp [longLane], rfl, rfl⟩

theorem longLane_heading : longLane.headingAt 0 = 0 := by
  have : (⟨10000, 0⟩ : ℂ).arg = 0 := by
    rw [Complex.arg_eq_zero_iff]; norm_num
  simp [longLane, Lane.headingAt, Lane.straightHeading, arctan2, this]

theorem car_drives (uid : ℕ) (x v T : ℝ) (h1 : v ≤ T) (h2 : T ≤ 30) (h3 : 2 ≤ T) : DrivesOn (1 / 15) ⟨"0", "1", 0⟩ longLane (car uid x v T) :=
  { lateral := by simp [car, longLane_local], heading := by rw [longLane_heading]; rfl, laneIndex := rfl, lane := rfl, kind := rfl
    targetLane := rfl, notSpeeding := h1, limit := h2, positive := by change 1 / 100 < T; linarith, notTiny := by change _ ≤ T; linarith }

theorem road_healthy : Healthy road := by
  have hv : ∀ u x v T, Attached road.network (car u x v T) := fun u x v T =>
    ⟨⟨0, _, rfl, net_has _ _ _⟩, getLane_of_hasLane (k := 0) (net_py _ _ _) rfl (net_has _ _ _), ⟨0, _, rfl, net_has _ _ _⟩⟩
  refine ⟨net_wf _ _ _, ?_, ?_, ?_⟩
  · intro v hvm
    simp only [road, List.mem_cons, List.not_mem_nil, or_false] at hvm
    rcases hvm with rfl | rfl <;> exact ⟨hv _ _ _ _, by simp [RouteExists, car]⟩
  · simp [road, car, VKind.isLinear]
  · intro h; cases h

end Platoon

/-- The follower of the example brakes in time, during 5 minutes of driving at 15 frames per second (until the end of the lane comes into reach): all hypotheses of `pair_no_rear_end` hold. -/
example (n : ℕ) (hn : n ≤ 4500) : ∃ s : ℕ → Road, s 0 = Platoon.road ∧ (∀ t, frame {} (1 / 15) (s t) [] = .ok (s (t + 1))) ∧
    ∃ w' v', (s n).vehicles = [w', v'] ∧ station Platoon.longLane v' + 5 < station Platoon.longLane w' ∧
      w'.crashed = false ∧ v'.crashed = false := by
  obtain ⟨s, h0, hs⟩ := runs_for_ever {} (1 / 15) Platoon.road Platoon.road_healthy rfl
  refine ⟨s, h0, hs, ?_⟩
  have hst : ∀ u x v T, station Platoon.longLane (Platoon.car u x v T) = x := by
    intro u x v T; simp [station, Platoon.car, Platoon.longLane_local]
  obtain ⟨w', v', h1, h2, h3, h4, _⟩ := pair_no_rear_end {} (1 / 15) ⟨rfl, rfl, rfl⟩ (by norm_num) (by norm_num) ⟨"0", "1", 0⟩ Platoon.longLane s n
    (Platoon.car 0 160 10 12) (Platoon.car 1 100 25 30) (fun t _ => hs t) (by rw [h0]; exact Platoon.road_single) (by rw [h0]; rfl) (by simp [Platoon.car])
    (Platoon.car_drives _ _ _ _ (by norm_num) (by norm_num) (by norm_num)) (Platoon.car_drives _ _ _ _ (by norm_num) (by norm_num) (by norm_num)) rfl rfl
    (by rw [hst, hst]; norm_num [safeDistance, Platoon.car]) (by norm_num [Platoon.car]) (by rw [hst]; norm_num)
    (by
      rw [hst, Platoon.longLane_length]
      have : (n : ℝ) ≤ 4500 := by exact_mod_cast hn
      linarith)
  refine ⟨w', v', h1, ?_, h3, h4⟩
  have := Platoon.safe_gt.trans_lt h2
  linarith

end HighwayEnv.Props
