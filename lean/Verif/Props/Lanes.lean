import Verif.Props.Settle
import Verif.Props.LaneKeep
import Verif.Props.TwoWay
import Verif.Spec.Lanes

/-!
# C112: traffic that stays in its lanes does not collide, on roads with several parallel lanes
-/

noncomputable section
open Classical
namespace HighwayEnv.Props
open HighwayEnv Spec Graph

namespace Lanes

open Platoon (safe_gt station_le_norm onCentre_pos acc_le)

/-! ## One frame of the road -/

theorem commands_frame {G : Globals} {cmds : List (ℕ × VAction)} {r r1 : Road} (h : cmds.foldlM (fun r c => r.actAt G c.2 c.1) r = .ok r1) :
    Road.SameScene r r1 ∧ Pointwise SameBody r.vehicles r1.vehicles := by
  induction cmds generalizing r with
  | nil =>
    rw [List.foldlM_nil] at h; cases h
    exact ⟨⟨rfl, rfl, rfl, rfl, rfl⟩, .refl' SameBody.refl _⟩
  | cons c cs ih =>
    rw [List.foldlM_cons] at h
    obtain ⟨r3, h3, h⟩ := bind_ok h
    obtain ⟨f1, f2⟩ := Road.actAt_frame h3
    obtain ⟨i1, i2⟩ := ih h
    exact ⟨f2.trans i1, Pointwise.comp (R := SameBody) SameBody.trans f1 i2⟩

/-- The parts of a frame on a road without regulation: the vehicles after the move, before the collision checks. -/
theorem frame_moved {G : Globals} {dt : ℝ} {cmds : List (ℕ × VAction)} {r r' : Road} (hreg : r.regulated = false)
    (h : frame G dt r cmds = .ok r') :
    r'.regulated = false ∧ r'.network = r.network ∧
    ∃ moved : List Vehicle, moved.length = r.vehicles.length ∧ r'.vehicles = (Road.collidePass moved r.objects).1 ∧ r'.objects = (Road.collidePass moved r.objects).2 ∧
      Pointwise (fun v u => u.uid = v.uid ∧ u.crashed = v.crashed) r.vehicles moved ∧
      ∀ k v, (∀ c ∈ cmds, c.1 ≠ k) → r.vehicles[k]? = some v →
        ∃ s v' rng rec u, Road.SameScene r s ∧ Pointwise SameBody r.vehicles s.vehicles ∧ v.act G s .none = .ok (v', rng) ∧
          v'.step r.network rec dt = .ok u ∧ moved[k]? = some u := by
  unfold frame at h
  obtain ⟨r1, h1, h⟩ := bind_ok h
  obtain ⟨r2, h2, h⟩ := bind_ok h
  obtain ⟨c1, c2⟩ := commands_frame h1
  have a1 := (Road.act_frame h2).2
  have a2 := Road.act_acted h2
  have s2 := c1.trans a1
  have hstep : r2.stepBase dt = .ok r' := by
    unfold Road.step at h
    rw [s2.regulated, hreg] at h
    exact h
  obtain ⟨_, b2, _, b4, _, _, _⟩ := Road.stepBase_frame hstep
  unfold Road.stepBase at hstep
  obtain ⟨r3, h3, hstep⟩ := bind_ok hstep
  unfold Road.moveAll at h3
  obtain ⟨moved, h4, h3⟩ := bind_ok h3
  cases h3
  cases hstep
  have hp := mapM_pointwise h4
  have hlen : moved.length = r.vehicles.length := hp.1.trans (a2.1.trans c2.1)
  refine ⟨b4.trans (s2.regulated.trans hreg), b2.trans s2.network, moved, hlen, by rw [← s2.objects], by rw [← s2.objects], ?_, ?_⟩
  · have hp' : Pointwise (fun v u => u.uid = v.uid ∧ u.crashed = v.crashed) r1.vehicles moved := by
      refine a2.trans' (fun a b c x y => ?_) hp
      obtain ⟨_, _, _, _, hact⟩ := x
      have hb := Vehicle.act_body hact
      have hm := Vehicle.step_mind y
      exact ⟨hm.uid.trans hb.uid, hm.crashed.trans hb.crashed⟩
    exact c2.trans' (fun a b c x y => ⟨y.1.trans x.uid, y.2.trans x.crashed⟩) hp'
  · intro k v hk hv
    have hv1 : r1.vehicles[k]? = some v := by rw [(Settle.commands_other h1 hk).2.2]; exact hv
    obtain ⟨v', hv', s, rng, hs, hb, hact⟩ := a2.2 k v hv1
    obtain ⟨u, hu, hst⟩ := hp.2 k v' hv'
    exact ⟨s, v', rng, _, u, c1.trans hs, Pointwise.comp (R := SameBody) SameBody.trans c2 hb, hact,
      by rw [← s2.network]; exact hst, hu⟩

/-! ## One vehicle -/

variable {i : LaneIndex} {l : Lane}

/-- One frame of a traffic vehicle that stays in its lane. -/
theorem drive {G : Globals} {dt : ℝ} (hG : G.comfortAccMax .idm = 3) (h0 : 0 < dt) (h1 : dt ≤ 1 / 10)
    {r s : Road} (hget : r.network.getLane i = .ok l) (hline : ∃ p q, p ≠ q ∧ l.shape = .straight p q)
    (hown : ∀ p, (l.localCoordinates p).2 = 0 → r.network.getClosestLaneIndex p (some (l.headingAt 0)) = .ok i)
    (hs : Road.SameScene r s) {v v' u : Vehicle} {rng : Rng} (hv : DrivesOn dt i l v) (hnl : v.enableLaneChange = false)
    (hend : station l v ≤ l.length - 5 / 2)
    (hc : v.crashed = false) (hact : v.act G s .none = .ok (v', rng)) {rec : Bool} (hst : v'.step r.network rec dt = .ok u) :
    DrivesOn dt i l u ∧ u.enableLaneChange = false ∧ station l u = station l v + v.speed * dt ∧ v.speed - 6 * dt ≤ u.speed ∧
    ∃ front rear acc, s.neighbourVehicles v = .ok (front, rear) ∧ acc = Vehicle.idmAcceleration G v.kind v front ∧
      (-40 ≤ v.speed → u.speed = v.speed + npClip acc (-6) 6 * dt) ∧ (v.speed < -40 → u.speed ≤ 0) := by
  have hkI : v.kind.isIDM = true := by rw [hv.kind]; rfl
  have hi := Vehicle.act_idm hkI hact
  have hb := Vehicle.act_body hact
  have hm := Vehicle.step_mind hst
  have hspeed := decide_step (by rw [hG]; norm_num) h0.le (by linarith) hv.kind hc hv.positive (by rw [hG]; linarith [hv.notTiny]) hv.notSpeeding hact hst
  have hgets : s.network.getLane i = .ok l := by rw [hs.network]; exact hget
  -- the decision
  unfold Vehicle.idmAct at hi
  rw [if_neg (by simp [hc])] at hi
  obtain ⟨⟨front, rear⟩, hf, hi⟩ := bind_ok hi
  obtain ⟨⟨w1, rng1⟩, hw1, hi⟩ := bind_ok hi
  obtain ⟨w2, hw2, hi⟩ := bind_ok hi
  obtain ⟨st, hst3, hi⟩ := bind_ok hi
  obtain ⟨acc, hacc, hi⟩ := bind_ok hi
  cases hi
  -- it is not at the end of the lane
  have e1 : w1 = v := by
    unfold Vehicle.followRoad at hw1
    rw [hv.targetLane, hgets] at hw1
    simp only [bind, Except.bind] at hw1
    have hne : ¬ l.afterEnd v.pos = true := by
      rw [Lane.afterEnd_iff l v.pos]
      unfold station at hend
      linarith
    rw [if_neg hne] at hw1
    cases hw1; rfl
  subst e1
  -- it does not change lanes
  have e2 : w2 = w1 := by
    unfold Vehicle.maybeChangeLane at hw2
    rw [if_neg (by rw [hnl]; simp)] at hw2
    cases hw2; rfl
  subst e2
  -- the steering command is zero
  obtain ⟨p, q, hpq, hshape, hdir, hdiff⟩ := onCentre_pos hline
  have hst0 : st = 0 := by
    unfold Vehicle.steeringControl at hst3
    rw [hv.targetLane, hgets] at hst3
    simp only [bind, Except.bind] at hst3
    rw [if_neg (by rw [hv.kind]; simp [VKind.isLinear])] at hst3
    cases hst3
    exact steering_centred hshape hv.lateral hv.heading
  subst hst0
  have hclip : npClip 0 (-Vehicle.MAX_STEERING_ANGLE) Vehicle.MAX_STEERING_ANGLE = 0 :=
    npClip_of_mem (by unfold Vehicle.MAX_STEERING_ANGLE; linarith [Real.pi_pos]) (by unfold Vehicle.MAX_STEERING_ANGLE; positivity)
  have hacc' : acc = Vehicle.idmAcceleration G w2.kind w2 front := by
    unfold Vehicle.accelerationOf at hacc
    dsimp only at hacc
    rw [if_neg (by rw [hv.kind]; simp [VKind.isLinear])] at hacc
    injection hacc with hacc
    rw [← hacc]
  obtain ⟨k1, k2, k3⟩ := step_kin (by dsimp only; rw [hv.kind]; simp) hst
  obtain ⟨j, lj, hist, hj, hlj, hu⟩ := Vehicle.step_ok hst
  have hex : executedSteering ({ w2 with steering := npClip 0 (-Vehicle.MAX_STEERING_ANGLE) Vehicle.MAX_STEERING_ANGLE
                                         acceleration := npClip acc (-Vehicle.ACC_MAX) Vehicle.ACC_MAX } : Vehicle) = 0 := by
    unfold executedSteering; dsimp only; rw [hclip]; simp
  have hslip : Vehicle.slip 0 = 0 := by unfold Vehicle.slip; simp
  rw [hex, hslip] at k1 k2
  dsimp only at k1 k2
  rw [add_zero] at k1
  rw [Real.sin_zero] at k2
  have k2 : u.heading = w2.heading := by rw [k2]; ring
  have hlat : (l.localCoordinates u.pos).2 = 0 := by
    have hlat := hv.lateral
    unfold Lane.localCoordinates at hlat ⊢
    rw [hshape] at hlat ⊢
    simp only at hlat ⊢
    rw [k1, hv.heading, hdir]
    unfold Lane.straightLocal Vec2.dot at hlat ⊢
    simp only [Vec2.sub_x, Vec2.sub_y, Vec2.add_x, Vec2.add_y, Vec2.smul_x, Vec2.smul_y] at hlat ⊢
    linear_combination hlat
  have hhead : u.heading = l.headingAt 0 := k2.trans hv.heading
  have hji : j = i := by
    rw [hhead, hown _ hlat] at hj; cases hj; rfl
  have hljl : lj = l := by
    rw [hji, hget] at hlj; cases hlj; rfl
  have hstat : station l u = station l w2 + w2.speed * dt := by
    have := hdiff u.pos w2.pos
    unfold station
    rw [k1, hv.heading] at this
    rw [k1, hv.heading]
    have e : (w2.pos + dt • w2.speed • Vec2.dir (l.headingAt 0) - w2.pos).dot (Vec2.dir (l.headingAt 0)) = w2.speed * dt := by
      simp only [Vec2.dot, Vec2.sub_x, Vec2.sub_y, Vec2.add_x, Vec2.add_y, Vec2.smul_x, Vec2.smul_y, Vec2.dir]
      linear_combination (w2.speed * dt) * Real.cos_sq_add_sin_sq (l.headingAt 0)
    rw [e] at this
    linarith
  have hv30 : w2.speed ≤ 30 := hv.notSpeeding.trans hv.limit
  refine ⟨{ lateral := hlat, heading := hhead, laneIndex := by rw [hu]; exact hji, lane := by rw [hu]; exact hljl,
            kind := hm.kind.trans hv.kind, targetLane := hm.targetLane.trans hv.targetLane, notSpeeding := ?_, limit := ?_, positive := ?_, notTiny := ?_ },
    hm.enableLaneChange.trans hnl, hstat, ?_, front, rear, acc, hf, hacc', ?_, ?_⟩
  · rw [hm.targetSpeed]; exact hspeed
  · rw [hm.targetSpeed]; exact hv.limit
  · rw [hm.targetSpeed]; exact hv.positive
  · rw [hm.targetSpeed]; exact hv.notTiny
  · rw [k3]
    have h6 : -6 ≤ npClip acc (-Vehicle.ACC_MAX) Vehicle.ACC_MAX := by
      unfold npClip Vehicle.ACC_MAX; exact le_min (le_max_right _ _) (by norm_num)
    unfold executedAcceleration
    dsimp only
    rw [hc, hv.kind]
    simp only [Bool.false_eq_true, if_false, VKind.maxSpeed]
    rw [if_neg (by linarith)]
    split_ifs
    · have : 0 ≤ max (npClip acc (-Vehicle.ACC_MAX) Vehicle.ACC_MAX) (40 - w2.speed) := le_max_of_le_right (by linarith)
      nlinarith
    · nlinarith
  · intro hlow
    rw [k3]
    unfold executedAcceleration
    dsimp only
    rw [hc, hv.kind]
    simp only [Bool.false_eq_true, if_false, VKind.maxSpeed]
    rw [if_neg (by linarith), if_neg (by linarith)]
    rfl
  · intro hlow
    rw [k3]
    unfold executedAcceleration
    dsimp only
    rw [hc, hv.kind]
    simp only [Bool.false_eq_true, if_false, VKind.maxSpeed]
    rw [if_neg (by linarith), if_pos (by linarith)]
    have : npClip acc (-Vehicle.ACC_MAX) Vehicle.ACC_MAX ≤ 6 := by
      unfold npClip Vehicle.ACC_MAX; exact min_le_right _ _
    rw [max_eq_right (by linarith)]
    nlinarith

/-! ## Several vehicles -/

/-- What is carried from frame to frame. -/
structure Flow (dt : ℝ) (used : Set LaneIndex) (agents : Set ℕ) (r : Road) : Prop where
  net : ParallelLanes r.network used
  regulated : r.regulated = false
  objects : ObstaclesPlaced r.network used r.objects
  ids : (r.vehicles.map Vehicle.uid ++ r.objects.map RoadObject.uid).Nodup
  on : ∀ v ∈ r.vehicles, OnLanes r.network used v
  sound : ∀ v ∈ r.vehicles, v.crashed = false
  gaps : KeepDistances dt r.vehicles
  off : KeepOffObstacles dt r.vehicles r.objects
  traffic : ∀ (k : ℕ) (v : Vehicle), k ∉ agents → r.vehicles[k]? = some v → StaysInLane dt v

theorem line {g : Graph} {used : Set LaneIndex} (hn : ParallelLanes g used) {v : Vehicle} (hv : OnLanes g used v) :
    (∃ p q, p ≠ q ∧ v.lane.shape = .straight p q) ∧ v.lane.width = 4 := by
  obtain ⟨l, x0, x1, y, hl, hs, hx, hw⟩ := hn.level _ hv.1
  rw [hv.2.1] at hl; cases hl
  exact ⟨⟨⟨x0, y⟩, ⟨x1, y⟩, fun h => hx (congrArg Vec2.x h), hs⟩, hw⟩

theorem same_lane {g : Graph} {used : Set LaneIndex} {v w : Vehicle} (hv : OnLanes g used v) (hw : OnLanes g used w) (h : v.laneIndex = w.laneIndex) :
    v.lane = w.lane := by
  have h1 := hv.2.1
  rw [h, hw.2.1] at h1
  exact (Except.ok.inj h1).symm

theorem uid_inj {vs : List Vehicle} (h : (vs.map Vehicle.uid).Nodup) {j k : ℕ} {v w : Vehicle} (hv : vs[j]? = some v) (hw : vs[k]? = some w)
    (he : v.uid = w.uid) : j = k := by
  have h1 : (vs.map Vehicle.uid)[j]? = some v.uid := by simp [hv]
  have h2 : (vs.map Vehicle.uid)[k]? = some v.uid := by simp [hw, he]
  exact (List.Nodup.getElem_inj_iff h (hi := (List.getElem?_eq_some_iff.1 h1).1) (hj := (List.getElem?_eq_some_iff.1 h2).1)).1
    (by rw [(List.getElem?_eq_some_iff.1 h1).2, (List.getElem?_eq_some_iff.1 h2).2])

/-- Somebody, or an obstacle, is ahead of the vehicle at position `j` of the list, on its lane, not further than `x`. -/
def Ahead (r : Road) (j : ℕ) (v : Vehicle) (x : ℝ) : Prop :=
  (∃ k w, k ≠ j ∧ r.vehicles[k]? = some w ∧ BehindOf v w ∧ station v.lane w ≤ x) ∨
  ∃ o ∈ r.objects, StandsOn v.lane o ∧ station v.lane v ≤ stationOf v.lane o ∧ stationOf v.lane o ≤ x

theorem uid_obj {r : Road} (h : (r.vehicles.map Vehicle.uid ++ r.objects.map RoadObject.uid).Nodup) {j : ℕ} {v : Vehicle} {o : RoadObject}
    (hv : r.vehicles[j]? = some v) (ho : o ∈ r.objects) : o.uid ≠ v.uid := by
  have := (List.nodup_append.1 h).2.2 v.uid (List.mem_map_of_mem (List.mem_of_getElem? hv)) o.uid (List.mem_map_of_mem ho)
  exact fun he => this he.symm

/-- The front neighbour of a vehicle that has something ahead on its lane is the nearest vehicle or obstacle. -/
theorem front {dt : ℝ} {used : Set LaneIndex} {agents : Set ℕ} {r s : Road} (hq : Flow dt used agents r) (hs : Road.SameScene r s)
    (hb : Pointwise SameBody r.vehicles s.vehicles) (hend : ∀ v ∈ r.vehicles, BeforeEnd v)
    (hfwd : ∀ (k : ℕ) (v : Vehicle), HasFollower r.vehicles r.objects k → r.vehicles[k]? = some v → Leads v)
    {j : ℕ} {v : Vehicle} {x : ℝ} (hv : r.vehicles[j]? = some v) (ha : Ahead r j v x)
    {f b : Option Entity} (hf : s.neighbourVehicles v = .ok (f, b)) :
    (∃ m z z', m ≠ j ∧ r.vehicles[m]? = some z ∧ BehindOf v z ∧ station v.lane z ≤ x ∧ f = some (.veh z') ∧ SameBody z z') ∨
    ∃ o ∈ r.objects, StandsOn v.lane o ∧ station v.lane v ≤ stationOf v.lane o ∧ stationOf v.lane o ≤ x ∧ f = some (.obj o) := by
  have hov := hq.on v (List.mem_of_getElem? hv)
  obtain ⟨lane, hl, hn, _⟩ := neighbours_sound _ _ _ _ _ hf
  simp only [Option.getD_none] at hl
  rw [hs.network, hov.2.1] at hl
  cases hl
  rw [hs.objects] at hn
  have hwid := (line hq.net hov).2
  -- a candidate
  obtain ⟨e0, hmem, hcand, hge, hle⟩ : ∃ e0, e0 ∈ s.vehicles.map Entity.veh ++ r.objects.map Entity.obj ∧ OnQueriedLane v.lane v.uid e0 ∧
      station v.lane v ≤ along v.lane e0 ∧ along v.lane e0 ≤ x := by
    rcases ha with ⟨k, w, hjk, hw, hvw, hx⟩ | ⟨o, ho, hso, hvo, hx⟩
    · have how := hq.on w (List.mem_of_getElem? hw)
      have hlane := same_lane hov how hvw.1
      obtain ⟨w', hw', hbw⟩ := hb.2 k w hw
      have hew := hend w (List.mem_of_getElem? hw)
      have hew' := (hfwd k w (.inl ⟨j, v, w, hjk.symm, hv, hw, hvw⟩) hw).2
      unfold BeforeEnd at hew
      rw [← hlane] at hew hew'
      have hst : along v.lane (.veh w') = station v.lane w := by
        unfold station; rw [← hbw.pos]; rfl
      refine ⟨.veh w', List.mem_append_left _ (List.mem_map_of_mem (List.mem_of_getElem? hw')), ⟨?_, rfl, ?_, ?_, ?_⟩, ?_, ?_⟩
      · change w'.uid ≠ v.uid
        rw [hbw.uid]
        exact fun he => hjk (uid_inj (List.nodup_append.1 hq.ids).1 hw hv he)
      · change |(v.lane.localCoordinates w'.pos).2| ≤ _
        rw [hbw.pos, hlane, how.2.2.lateral, abs_zero, ← hlane, hwid]; norm_num
      · rw [hst]; exact hew'
      · rw [hst]; linarith
      · rw [hst]; exact hvw.2
      · rw [hst]; exact hx
    · obtain ⟨_, hplace⟩ := hq.objects o ho hso.1
      rcases hplace _ hov.1 _ hov.2.1 with ⟨_, h5, h6⟩ | h4
      · exact ⟨.obj o, List.mem_append_right _ (List.mem_map_of_mem ho), ⟨uid_obj hq.ids hv ho, by simp [Entity.isLandmark, hso.1],
          by change |(v.lane.localCoordinates o.pos).2| ≤ _; rw [hso.2, hwid]; norm_num, h5, h6⟩, hvo, hx⟩
      · rw [hso.2] at h4; norm_num at h4
  unfold station at hge
  rcases f with _ | e
  · have := hn.1.1 rfl _ hmem hcand
    linarith
  · obtain ⟨m1, m2, m3, m4⟩ := hn.2 e rfl
    have m5 := (m4 _ hmem hcand hge).trans hle
    rcases List.mem_append.1 m1 with m1 | m1
    · left
      obtain ⟨z', hz', rfl⟩ := List.mem_map.1 m1
      obtain ⟨m, hm⟩ := List.getElem?_of_mem hz'
      obtain ⟨z, hz⟩ : ∃ z, r.vehicles[m]? = some z :=
        ⟨_, List.getElem?_eq_getElem (by rw [← hb.1]; exact (List.getElem?_eq_some_iff.1 hm).1)⟩
      obtain ⟨z2, hz2, hbz⟩ := hb.2 m z hz
      rw [hm] at hz2; cases hz2
      have hoz := hq.on z (List.mem_of_getElem? hz)
      have hza : along v.lane (.veh z') = station v.lane z := by
        unfold station; rw [← hbz.pos]; rfl
      have hsame : v.laneIndex = z.laneIndex := by
        by_contra hne
        have h4 := hq.net.apart _ hoz.1 _ hov.1 (fun h => hne h.symm) _ _ z.pos hoz.2.1 hov.2.1 hoz.2.2.lateral
        have h3 := m2.2.2.1
        change |(v.lane.localCoordinates z'.pos).2| ≤ _ at h3
        rw [hbz.pos, hwid] at h3
        linarith
      refine ⟨m, z, z', ?_, hz, ⟨hsame, ?_⟩, ?_, rfl, hbz⟩
      · rintro rfl
        rw [hv] at hz; cases hz
        exact m2.1 hbz.uid
      · rw [← hza]; exact m3
      · rw [← hza]; exact m5
    · right
      obtain ⟨o, ho, rfl⟩ := List.mem_map.1 m1
      have hk : o.kind = .obstacle := by
        have := m2.2.1
        simp only [Entity.isLandmark, decide_eq_false_iff_not] at this
        cases hk : o.kind
        · rfl
        · exact absurd hk this
      refine ⟨o, ho, ⟨hk, ?_⟩, m3, m5, rfl⟩
      rcases (hq.objects o ho hk).2 _ hov.1 _ hov.2.1 with ⟨h5, _⟩ | h4
      · exact h5
      · have h3 := m2.2.2.1
        change |(v.lane.localCoordinates o.pos).2| ≤ _ at h3
        rw [hwid] at h3
        linarith

theorem lateral_le_norm {l : Lane} (hs : ∃ p q, p ≠ q ∧ l.shape = .straight p q) (x y : Vec2) :
    |(l.localCoordinates y).2 - (l.localCoordinates x).2| ≤ (y - x).norm := by
  obtain ⟨p, q, hpq, h, hd, _⟩ := onCentre_pos hs
  have e : (l.localCoordinates y).2 - (l.localCoordinates x).2 = (y - x).dot (Vec2.dir (l.headingAt 0 + Real.pi / 2)) := by
    have h1 : Vec2.dir (l.headingAt 0 + Real.pi / 2) = ⟨-(Vec2.dir (l.headingAt 0)).y, (Vec2.dir (l.headingAt 0)).x⟩ := by
      simp [Vec2.dir, Real.cos_add_pi_div_two, Real.sin_add_pi_div_two]
    rw [h1, hd]
    unfold Lane.localCoordinates
    rw [h]
    simp only [Lane.straightLocal, Vec2.dot, Vec2.sub_x, Vec2.sub_y]
    ring
  rw [e]
  exact Platoon.abs_dot_dir _ _

/-- A vehicle on the middle of its lane does not touch an obstacle of the lane that is more than 5 m away, nor one that is not on the lane. -/
theorem obstacle_far {g : Graph} {used : Set LaneIndex} (hn : ParallelLanes g used) {v : Vehicle} (hov : OnLanes g used v) {os : List RoadObject}
    (hos : ObstaclesPlaced g used os) {o : RoadObject} (ho : o ∈ os) (hk : o.kind = .obstacle)
    (h : StandsOn v.lane o → 5 < |stationOf v.lane o - station v.lane v|) : v.isColliding o.rect = false := by
  have hl := (line hn hov).1
  rcases (hos o ho hk).2 _ hov.1 _ hov.2.1 with ⟨h2, _⟩ | h4
  · have h5 : |stationOf v.lane o - station v.lane v| ≤ (o.pos - v.pos).norm := by
      obtain ⟨p, q, _, _, _, hd⟩ := onCentre_pos hl
      unfold stationOf station
      rw [hd]
      exact Platoon.abs_dot_dir _ _
    have := (h ⟨hk, h2⟩).trans_le h5
    unfold Vehicle.isColliding
    rw [if_pos]
    exact this
  · rw [precheck_objects]
    by_contra hcol
    rw [Bool.not_eq_false] at hcol
    have := intersect_norm (r1 := v.rect) (r2 := o.rect) (by norm_num [Vehicle.rect, Vehicle.LENGTH]) (by norm_num [Vehicle.rect, Vehicle.WIDTH])
      (by norm_num [RoadObject.rect, RoadObject.LENGTH]) (by norm_num [RoadObject.rect, RoadObject.WIDTH]) hcol
    simp only [Vehicle.rect, Vehicle.LENGTH, Vehicle.WIDTH, RoadObject.rect, RoadObject.LENGTH, RoadObject.WIDTH] at this
    have h2 : √((9 / 10 * 5 : ℝ) ^ 2 + (9 / 10 * 2) ^ 2) ≤ 49 / 10 := by
      rw [Real.sqrt_le_left (by norm_num)]; norm_num
    have h3 : √((9 / 10 * 2 : ℝ) ^ 2 + (9 / 10 * 2) ^ 2) ≤ 26 / 10 := by
      rw [Real.sqrt_le_left (by norm_num)]; norm_num
    have h5 := lateral_le_norm hl v.pos o.pos
    rw [hov.2.2.lateral, sub_zero] at h5
    linarith

/-- Vehicles that are more than 5 m apart, or on different lanes, do not collide, and do not run into obstacles that are more than 5 m away. -/
theorem no_collision {g : Graph} {used : Set LaneIndex} (hn : ParallelLanes g used) {vs : List Vehicle} (hon : ∀ v ∈ vs, OnLanes g used v)
    (h : ∀ (j k : ℕ) (v w : Vehicle), j ≠ k → vs[j]? = some v → vs[k]? = some w → v.laneIndex = w.laneIndex → 5 < |station v.lane w - station v.lane v|)
    {os : List RoadObject} (hos : ObstaclesPlaced g used os) (hoff : ∀ v ∈ vs, ∀ o ∈ os, StandsOn v.lane o → 5 < |stationOf v.lane o - station v.lane v|) :
    (Road.collidePass vs os).1 = vs := by
  have hev := (Road.collidePass_evolves vs os).1
  have hfar : ∀ (j k : ℕ) (w v : Vehicle), j ≠ k → vs[j]? = some w → vs[k]? = some v → v.isColliding w.rect = false := by
    intro j k w v hjk hw hv
    have hov := hon v (List.mem_of_getElem? hv)
    have how := hon w (List.mem_of_getElem? hw)
    by_cases hlane : v.laneIndex = w.laneIndex
    · have h5 := (h k j v w hjk.symm hv hw hlane).trans_le (station_le_norm (line hn hov).1 v w)
      unfold Vehicle.isColliding
      rw [if_pos]
      exact h5
    · by_contra hcol
      rw [Bool.not_eq_false] at hcol
      have hint : rotatedRectanglesIntersect v.rect w.rect = true := by
        unfold Vehicle.isColliding at hcol
        split at hcol
        · cases hcol
        · exact hcol
      -- both are parallel to the x axis
      have hax : ∀ u : Vehicle, OnLanes g used u → Real.sin u.heading = 0 := by
        intro u hu
        obtain ⟨l, x0, x1, y, hl, hs, hx, _⟩ := hn.level _ hu.1
        rw [hu.2.1] at hl; cases hl
        have hd := Lane.straightDir_eq_dir (a := ⟨x0, y⟩) (b := ⟨x1, y⟩) (fun h => hx (congrArg Vec2.x h))
        have he : u.heading = Lane.straightHeading ⟨x0, y⟩ ⟨x1, y⟩ := by
          rw [hu.2.2.heading]; unfold Lane.headingAt; rw [hs]
        rw [he]
        have := congrArg Vec2.y hd
        simp only [Lane.straightDir, Vec2.dir, Vec2.smul_y, Vec2.sub_y, sub_self] at this
        simpa using this.symm
      obtain ⟨p, hp, hq⟩ := rectanglesIntersect_sound_partial v.rect w.rect (by simp [Vehicle.rect, Vehicle.LENGTH]) (by simp [Vehicle.rect, Vehicle.WIDTH])
        (by simp [Vehicle.rect, Vehicle.LENGTH]) (by simp [Vehicle.rect, Vehicle.WIDTH])
        (by simp [Vehicle.rect, hax v hov]) (by simp [Vehicle.rect, hax w how]) hint
      obtain ⟨s1, t1, a1, b1, _, y1⟩ := hp
      obtain ⟨s2, t2, a2, b2, _, y2⟩ := hq
      simp only [Vehicle.rect, hax v hov, hax w how, mul_zero, add_zero, Vehicle.WIDTH] at y1 y2 b1 b2
      have hdy : |w.pos.y - v.pos.y| < 4 := by
        have e : w.pos.y - v.pos.y = t1 * Real.cos v.heading - t2 * Real.cos w.heading := by linarith
        rw [e]
        have c1 : |t1 * Real.cos v.heading| ≤ 9 / 10 * 2 / 2 := by
          rw [abs_mul]; nlinarith [Real.abs_cos_le_one v.heading, abs_nonneg t1, abs_nonneg (Real.cos v.heading)]
        have c2 : |t2 * Real.cos w.heading| ≤ 9 / 10 * 2 / 2 := by
          rw [abs_mul]; nlinarith [Real.abs_cos_le_one w.heading, abs_nonneg t2, abs_nonneg (Real.cos w.heading)]
        have := abs_sub (t1 * Real.cos v.heading) (t2 * Real.cos w.heading)
        linarith
      -- but their lanes are 4 m apart
      obtain ⟨l, x0, x1, y, hl, hs, hx, _⟩ := hn.level _ hov.1
      rw [hov.2.1] at hl; cases hl
      have h4 := hn.apart _ how.1 _ hov.1 (fun h => hlane h.symm) _ _ w.pos how.2.1 hov.2.1 how.2.2.lateral
      have h0 := hov.2.2.lateral
      obtain ⟨d, hd0, hloc⟩ : ∃ d : ℝ, |d| = 1 ∧ ∀ p : Vec2, (v.lane.localCoordinates p).2 = (p.y - y) * d := by
        have hdir := Lane.straightDir_eq_dir (a := ⟨x0, y⟩) (b := ⟨x1, y⟩) (fun h => hx (congrArg Vec2.x h))
        have hy := congrArg Vec2.y hdir
        refine ⟨(Lane.straightDir ⟨x0, y⟩ ⟨x1, y⟩).x, ?_, fun p => ?_⟩
        · have hs0 : Real.sin (Lane.straightHeading ⟨x0, y⟩ ⟨x1, y⟩) = 0 := by
            simp only [Lane.straightDir, Vec2.dir, Vec2.smul_y, Vec2.sub_y, sub_self] at hy
            simpa using hy.symm
          rw [hdir]
          simp only [Vec2.dir]
          have hsc := Real.sin_sq_add_cos_sq (Lane.straightHeading ⟨x0, y⟩ ⟨x1, y⟩)
          rw [hs0] at hsc
          rcases sq_eq_sq_iff_eq_or_eq_neg.1 (show Real.cos (Lane.straightHeading ⟨x0, y⟩ ⟨x1, y⟩) ^ 2 = 1 ^ 2 by linarith) with e | e <;> simp [e]
        · unfold Lane.localCoordinates
          rw [hs]
          simp [Lane.straightLocal, Vec2.dot, Lane.straightDir]
      rw [hloc, abs_mul, hd0, mul_one] at h4
      have : v.pos.y = y := by
        rw [hloc] at h0
        rcases mul_eq_zero.1 h0 with e | e
        · linarith
        · rw [e] at hd0; simp at hd0
      rw [this] at hdy
      linarith
  refine List.ext_getElem? fun k => ?_
  rcases hv : vs[k]? with _ | v
  · rw [List.getElem?_eq_none_iff] at hv ⊢
    rw [hev.1]; exact hv
  · obtain ⟨w, hw, sp, b, _, _, _, hcase⟩ := hev.2 k v hv
    rcases hcase with rfl | ⟨⟨v2, hv2, _, hcause⟩, _⟩
    · exact hw
    · rw [hv] at hv2; cases hv2
      rcases hcause with ⟨j, w2, hjk, hw2, _, hcol⟩ | ⟨o, ho, hk, hcol⟩
      · rw [hfar j k w2 v hjk hw2 hv, hfar k j v w2 hjk.symm hv hw2] at hcol
        simp at hcol
      · rw [obstacle_far hn (hon v (List.mem_of_getElem? hv)) hos ho hk (hoff v (List.mem_of_getElem? hv) o ho)] at hcol
        cases hcol

/-- Obstacles that nobody touches are not marked as hit. -/
theorem pass_objects {vs : List Vehicle} {os : List RoadObject} (h : ∀ v ∈ vs, ∀ o ∈ os, o.kind = .obstacle → v.isColliding o.rect = false) :
    ∀ (k : ℕ) (o o' : RoadObject), os[k]? = some o → (Road.collidePass vs os).2[k]? = some o' → o.kind = .obstacle → o' = o := by
  have key : ∀ (is : List ℕ) (st : List Vehicle × List RoadObject), Road.Evolves (Road.Cause vs os) vs st.1 → Road.OsEvolves os st.2 →
      (∀ (k : ℕ) (o o' : RoadObject), os[k]? = some o → st.2[k]? = some o' → o.kind = .obstacle → o' = o) →
      ∀ (k : ℕ) (o o' : RoadObject), os[k]? = some o → (is.foldl Road.collideOne st).2[k]? = some o' → o.kind = .obstacle → o' = o := by
    intro is
    induction is with
    | nil => exact fun st _ _ h => h
    | cons i is ih =>
      intro st hev hos hst
      rw [List.foldl_cons]
      obtain ⟨h1, h2⟩ := Road.collideOne_evolves hev hos i
      refine ih _ (hev.trans h1) (hos.trans h2) ?_
      have e1 := Road.foldl_collideVV_evolves (os := os) i (List.range st.1.length) st.1 hev
      unfold Road.collideOne
      dsimp only
      set us := (List.range st.1.length).foldl (Road.collideVV i) st.1
      split
      · exact hst
      · rename_i v hv
        dsimp only
        intro k o o' ho ho' hk
        obtain ⟨c1, c2, _⟩ := Road.collideVO_spec v st.2
        have hlen : st.2.length = os.length := hos.length_eq.symm
        obtain ⟨o1, ho1⟩ : ∃ o1, st.2[k]? = some o1 := ⟨_, List.getElem?_eq_getElem (by rw [hlen]; exact (List.getElem?_eq_some_iff.1 ho).1)⟩
        have e := hst k o o1 ho ho1 hk
        subst e
        rcases c2 k o1 o' ho1 ho' with e | e
        · exact e
        · exfalso
          have h01 := hev.trans e1
          obtain ⟨v0, hv0⟩ : ∃ v0, vs[i]? = some v0 := ⟨_, List.getElem?_eq_getElem (by rw [← h01.1]; exact (List.getElem?_eq_some_iff.1 hv).1)⟩
          obtain ⟨v', hv', sp, b, hb, _⟩ := h01.2 i v0 hv0
          rw [hv] at hv'; cases hv'
          have : v0.isColliding o1.rect = true := by rw [hb] at e; exact e
          rw [h v0 (List.mem_of_getElem? hv0) o1 (List.mem_of_getElem? ho) hk] at this
          cases this
  exact key _ (vs, os) (.refl _ _) (.refl _) (fun k o o' h1 h2 _ => by rw [h1] at h2; exact (Option.some.inj h2).symm)

/-- The objects of the road after the collision checks are the objects before, marked or not. -/
theorem objects_back {os os' : List RoadObject} (h : Road.OsEvolves os os') {o' : RoadObject} (ho : o' ∈ os') :
    ∃ o ∈ os, o'.uid = o.uid ∧ o'.kind = o.kind ∧ o'.pos = o.pos ∧ o'.speed = o.speed := by
  unfold Road.OsEvolves at h
  induction h with
  | nil => cases ho
  | cons h _ ih =>
    rcases List.mem_cons.1 ho with rfl | ho
    · obtain ⟨b, rfl, _⟩ := h
      exact ⟨_, List.mem_cons_self, rfl, rfl, rfl, rfl⟩
    · obtain ⟨o, h1, h2⟩ := ih ho
      exact ⟨o, List.mem_cons_of_mem _ h1, h2⟩

theorem objects_forth {os os' : List RoadObject} (h : Road.OsEvolves os os') {o : RoadObject} (ho : o ∈ os) :
    ∃ o' ∈ os', o'.kind = o.kind ∧ o'.pos = o.pos := by
  unfold Road.OsEvolves at h
  induction h with
  | nil => cases ho
  | cons h _ ih =>
    rcases List.mem_cons.1 ho with rfl | ho
    · obtain ⟨b, rfl, _⟩ := h
      exact ⟨_, List.mem_cons_self, rfl, rfl⟩
    · obtain ⟨o, h1, h2⟩ := ih ho
      exact ⟨o, List.mem_cons_of_mem _ h1, h2⟩

theorem objects_uid {os os' : List RoadObject} (h : Road.OsEvolves os os') : os'.map RoadObject.uid = os.map RoadObject.uid := by
  unfold Road.OsEvolves at h
  induction h with
  | nil => rfl
  | cons h _ ih =>
    obtain ⟨b, rfl, _⟩ := h
    rw [List.map_cons, List.map_cons, ih]

/-- The model's acceleration before an obstacle on the same line. -/
theorem acc_obstacle {G : Globals} (hG : G.comfortAccMax .idm = 3 ∧ G.comfortAccMin .idm = -5 ∧ G.distanceWanted .idm = 10)
    {v : Vehicle} {o : RoadObject} (hk : v.kind = .idm) (ho : o.speed = 0) (hd : 5 < stationOf v.lane o - station v.lane v) :
    Vehicle.idmAcceleration G v.kind v (some (.obj o)) ≤ 3 * (1 - (Idm.gap v.speed 0 / (stationOf v.lane o - station v.lane v)) ^ 2) := by
  obtain ⟨g1, g2, g3⟩ := hG
  have hdist : v.laneDistanceTo o.pos = stationOf v.lane o - station v.lane v := rfl
  have hgap : Vehicle.desiredGap G v.kind v (.obj o) = Idm.gap v.speed 0 := by
    unfold Vehicle.desiredGap Idm.gap
    dsimp only
    rw [hk, g1, g2, g3]
    have e1 : (v.velocity - Entity.velocity (.obj o)).dot v.direction = v.speed - 0 := by
      simp only [Entity.velocity, RoadObject.velocity, ho, Vehicle.velocity, Vehicle.direction, Vec2.dot, Vec2.sub_x, Vec2.sub_y, Vec2.smul_x, Vec2.smul_y, Vec2.dir]
      linear_combination v.speed * Real.cos_sq_add_sin_sq v.heading
    rw [e1]
    have e2 : (-3 * -5 : ℝ) = 15 := by norm_num
    have e3 : Vehicle.timeWanted .idm = 3 / 2 := by simp [Vehicle.timeWanted, VKind.isLinear]
    rw [e2, e3]
  have hnz : notZero (stationOf v.lane o - station v.lane v) = stationOf v.lane o - station v.lane v := by
    unfold notZero; rw [if_pos]; rw [abs_of_pos (by linarith)]; linarith
  unfold Vehicle.idmAcceleration
  dsimp only [Entity.pos]
  rw [hgap, hdist, hnz, hk, g1]
  have : 0 ≤ (max v.speed 0 / notZero (if (VKind.idm).isControlled = true then v.targetSpeed else 0)) ^ 4 := by positivity
  linarith

/-- Safe distances add up. -/
theorem safe_chain {dt v z w d1 d2 : ℝ} (h0 : 0 < dt) (hz : 0 ≤ z) (h1 : safeDistance dt v z < d1) (h2 : safeDistance dt z w < d2) :
    safeDistance dt v w < d1 + d2 := by
  unfold safeDistance at *
  rw [max_eq_left hz] at h2
  have a1 := le_max_left 0 (max v 0 ^ 2 / 12 + max v 0 * dt - (z ^ 2 / 12 + z * dt / 2))
  have a2 := le_max_right 0 (max v 0 ^ 2 / 12 + max v 0 * dt - (z ^ 2 / 12 + z * dt / 2))
  have b1 := le_max_left 0 (z ^ 2 / 12 + z * dt - (w ^ 2 / 12 + w * dt / 2))
  have b2 := le_max_right 0 (z ^ 2 / 12 + z * dt - (w ^ 2 / 12 + w * dt / 2))
  have hzd : 0 ≤ z * dt := mul_nonneg hz h0.le
  rcases max_cases 0 (max v 0 ^ 2 / 12 + max v 0 * dt - (w ^ 2 / 12 + w * dt / 2)) with ⟨e, _⟩ | ⟨e, _⟩ <;> rw [e] <;> linarith

private theorem get_of_len {r m : List Vehicle} (h : m.length = r.length) {k : ℕ} {u : Vehicle} (hu : m[k]? = some u) :
    ∃ v, r[k]? = some v := ⟨_, List.getElem?_eq_getElem (by rw [← h]; exact (List.getElem?_eq_some_iff.1 hu).1)⟩

theorem _root_.HighwayEnv.Spec.ObstaclesUntouched.refl (os : List RoadObject) : ObstaclesUntouched os os := ⟨rfl, fun k o o' h h' _ => by rw [h] at h'; exact (Option.some.inj h').symm⟩

theorem _root_.HighwayEnv.Spec.ObstaclesUntouched.trans {a b c : List RoadObject} (h1 : ObstaclesUntouched a b) (h2 : ObstaclesUntouched b c) : ObstaclesUntouched a c := by
  refine ⟨h2.1.trans h1.1, fun k o o' ho ho' hk => ?_⟩
  obtain ⟨o1, ho1⟩ : ∃ o1, b[k]? = some o1 := ⟨_, List.getElem?_eq_getElem (by rw [h1.1]; exact (List.getElem?_eq_some_iff.1 ho).1)⟩
  have e := h1.2 k o o1 ho ho1 hk
  subst e
  exact h2.2 k o1 o' ho1 ho' hk

/-- One frame: nobody collides, and the safe distances are kept. -/
theorem flow_frame {G : Globals} {dt : ℝ} (hG : G.comfortAccMax .idm = 3 ∧ G.comfortAccMin .idm = -5 ∧ G.distanceWanted .idm = 10)
    (h0 : 0 < dt) (h1 : dt ≤ 1 / 10) {used : Set LaneIndex} {agents : Set ℕ} {cmds : List (ℕ × VAction)} {r r' : Road} (hc : ∀ c ∈ cmds, c.1 ∈ agents)
    (hq : Flow dt used agents r) (h : frame G dt r cmds = .ok r') (hend : ∀ v ∈ r.vehicles, BeforeEnd v)
    (hfwd : ∀ (k : ℕ) (v : Vehicle), HasFollower r.vehicles r.objects k → r.vehicles[k]? = some v → Leads v)
    (hfwd' : ∀ (k : ℕ) (v : Vehicle), HasFollower r.vehicles r.objects k → HasFollower r'.vehicles r'.objects k → r'.vehicles[k]? = some v → v.crashed = false → 0 ≤ v.speed)
    (hadv : ∀ k ∈ agents, ∀ v v', r.vehicles[k]? = some v → r'.vehicles[k]? = some v' → Advances dt v.laneIndex v.lane v v')
    (hkeep : ∀ k ∈ agents, ∀ (j : ℕ) (v w v' w' : Vehicle), j ≠ k → r.vehicles[k]? = some v → r.vehicles[j]? = some w → BehindOf v w →
      r'.vehicles[k]? = some v' → r'.vehicles[j]? = some w' → safeDistance dt v'.speed w'.speed < station v.lane w' - station v.lane v')
    (hkeepoff : ∀ k ∈ agents, ∀ (v v' : Vehicle) (o : RoadObject), r.vehicles[k]? = some v → r'.vehicles[k]? = some v' → o ∈ r.objects → StandsOn v.lane o →
      station v.lane v ≤ stationOf v.lane o → safeDistance dt v'.speed 0 < stationOf v.lane o - station v.lane v') :
    Flow dt used agents r' ∧ ObstaclesUntouched r.objects r'.objects := by
  obtain ⟨hreg', hnet', moved, hlen, hfinal, hobjs, hsteady, hmove⟩ := frame_moved hq.regulated h
  obtain ⟨hev, hevo⟩ := Road.collidePass_evolves moved r.objects
  rw [← hfinal] at hev
  rw [← hobjs] at hevo
  -- what a traffic vehicle does
  have hdrive : ∀ (k : ℕ) (v u : Vehicle), k ∉ agents → r.vehicles[k]? = some v → moved[k]? = some u →
      DrivesOn dt v.laneIndex v.lane u ∧ u.enableLaneChange = false ∧ station v.lane u = station v.lane v + v.speed * dt ∧ v.speed - 6 * dt ≤ u.speed ∧
      ∀ x, Ahead r k v x →
        (∃ m z, m ≠ k ∧ r.vehicles[m]? = some z ∧ BehindOf v z ∧ station v.lane z ≤ x ∧ ∀ z', 0 ≤ z' → z.speed - 6 * dt ≤ z' →
          safeDistance dt u.speed z' < (station v.lane z + z.speed * dt) - (station v.lane v + v.speed * dt)) ∨
        ∃ o ∈ r.objects, StandsOn v.lane o ∧ station v.lane v ≤ stationOf v.lane o ∧ stationOf v.lane o ≤ x ∧
          safeDistance dt u.speed 0 < stationOf v.lane o - (station v.lane v + v.speed * dt) := by
    intro k v u hk hv hu
    obtain ⟨s, v', rng, rec, u', hs, hb, hact, hst, hu'⟩ := hmove k v (fun c hcm he => hk (he ▸ hc c hcm)) hv
    rw [hu] at hu'; cases hu'
    have hvm := List.mem_of_getElem? hv
    have hov := hq.on v hvm
    obtain ⟨hdv, hnl⟩ := hq.traffic k v hk hv
    obtain ⟨d1, d2, d3, d4, f, b, acc, hf, hacc, hsp, hlow⟩ := drive hG.1 h0 h1 hov.2.1 (line hq.net hov).1
      (fun p hp => hq.net.own _ hov.1 _ p hov.2.1 hp) hs hdv hnl (hend v hvm) (hq.sound v hvm) hact hst
    have hv30 : v.speed ≤ 30 := hdv.notSpeeding.trans hdv.limit
    have finish : ∀ d z z' : ℝ, 0 ≤ z → 0 ≤ z' → z - 6 * dt ≤ z' → safeDistance dt v.speed z < d → acc ≤ 3 * (1 - (Idm.gap v.speed z / d) ^ 2) →
        safeDistance dt u.speed z' < d + z * dt - v.speed * dt := by
      intro d z z' hz0 hz' hz6 hgap ha
      rcases le_or_gt (-40) v.speed with hv40 | hv40
      · have := Idm.keeps_distance (a := acc) h0 h1 hv30 hz0 hz' hz6 hgap ha
        rw [← hsp hv40] at this
        linarith
      · have h5 := hlow hv40
        have hsd : safeDistance dt u.speed z' = 5 := by
          unfold safeDistance
          rw [max_eq_right h5]
          have : (0 : ℝ) ^ 2 / 12 + 0 * dt - (z' ^ 2 / 12 + z' * dt / 2) ≤ 0 := by
            have : 0 ≤ z' ^ 2 / 12 + z' * dt / 2 := by positivity
            linarith
          rw [max_eq_left this]; norm_num
        rw [hsd]
        have h6 := safe_gt.trans_lt hgap
        have h7 : 0 ≤ z * dt := mul_nonneg hz0 h0.le
        nlinarith
    refine ⟨d1, d2, d3, d4, fun x hahead => ?_⟩
    rcases front hq hs hb hend hfwd hv hahead hf with ⟨m, z, z1, hmk, hz, hvz, hzw, rfl, hbz⟩ | ⟨o, ho, hso, hvo, hox, rfl⟩
    · refine .inl ⟨m, z, hmk, hz, hvz, hzw, fun z' hz' hz6 => ?_⟩
      have hgap := hq.gaps k m v z hmk.symm hv hz hvz
      have hz0 : 0 ≤ z.speed := (hfwd m z (.inl ⟨k, v, z, hmk.symm, hv, hz, hvz⟩) hz).1
      have hoz := hq.on z (List.mem_of_getElem? hz)
      have hlane := same_lane hov hoz hvz.1
      have hoz1 : OnMiddle v.laneIndex v.lane z1 := ⟨by rw [hbz.pos, hlane]; exact hoz.2.2.lateral, by rw [hbz.heading, hlane]; exact hoz.2.2.heading,
        by rw [hbz.laneIndex]; exact hvz.1.symm, by rw [hbz.lane]; exact hlane.symm⟩
      have hst1 : station v.lane z1 = station v.lane z := by unfold station; rw [hbz.pos]
      have ha := acc_le hG hdv.kind hdv.toOnMiddle hoz1 (by rw [hst1]; exact safe_gt.trans_lt hgap)
      rw [← hacc, hst1, hbz.speed] at ha
      linarith [finish _ _ z' hz0 hz' hz6 hgap ha]
    · refine .inr ⟨o, ho, hso, hvo, hox, ?_⟩
      have hgap := (hq.off v hvm o ho hso).1 hvo
      have ha := acc_obstacle hG hdv.kind (hq.objects o ho hso.1).1 (safe_gt.trans_lt hgap)
      rw [← hacc] at ha
      have := finish _ 0 0 le_rfl le_rfl (by linarith) hgap ha
      linarith
  -- where everybody is after the move
  have hpos : ∀ (k : ℕ) (v u : Vehicle), r.vehicles[k]? = some v → moved[k]? = some u →
      OnMiddle v.laneIndex v.lane u ∧ station v.lane u = station v.lane v + v.speed * dt := by
    intro k v u hv hu
    by_cases hk : k ∈ agents
    · obtain ⟨z, hz, sp, b, rfl, _, _, _⟩ := hev.2 k u hu
      have ha := hadv k hk v _ hv hz
      exact ⟨⟨ha.on.lateral, ha.on.heading, ha.on.laneIndex, ha.on.lane⟩, ha.advance⟩
    · obtain ⟨d1, _, d3, _⟩ := hdrive k v u hk hv hu
      exact ⟨d1.toOnMiddle, d3⟩
  have hon : ∀ (k : ℕ) (v u : Vehicle), r.vehicles[k]? = some v → moved[k]? = some u → OnLanes r.network used u := by
    intro k v u hv hu
    have hov := hq.on v (List.mem_of_getElem? hv)
    have p1 := (hpos k v u hv hu).1
    unfold OnLanes
    rw [p1.laneIndex, p1.lane]
    exact ⟨hov.1, hov.2.1, p1⟩
  -- an obstacle that was passed stays behind
  have hpast : ∀ (k : ℕ) (v : Vehicle) (o : RoadObject), r.vehicles[k]? = some v → o ∈ r.objects → StandsOn v.lane o → stationOf v.lane o ≤ station v.lane v →
      0 ≤ v.speed ∧ 5 < station v.lane v - stationOf v.lane o := by
    intro k v o hv ho hso hle
    obtain ⟨o1, o2⟩ := hq.off v (List.mem_of_getElem? hv) o ho hso
    rcases hle.lt_or_eq with hlt | he
    · exact ⟨(hfwd k v (.inr ⟨v, hv, o, ho, hso, hlt⟩) hv).1, o2 hlt⟩
    · have := safe_gt.trans_lt (o1 he.ge)
      linarith
  -- nobody comes near an obstacle
  have hnearO : ∀ (n j : ℕ) (v : Vehicle) (o : RoadObject), r.vehicles[j]? = some v → o ∈ r.objects → StandsOn v.lane o → station v.lane v ≤ stationOf v.lane o →
      stationOf v.lane o - station v.lane v < 5 * n → 5 < stationOf v.lane o - (station v.lane v + v.speed * dt) := by
    intro n
    induction n with
    | zero =>
      intro j v o hv ho hso hvo hn
      have := safe_gt.trans_lt ((hq.off v (List.mem_of_getElem? hv) o ho hso).1 hvo)
      norm_num at hn
      linarith
    | succ n ih =>
      intro j v o hv ho hso hvo hn
      obtain ⟨u, hu⟩ := get_of_len hlen.symm hv
      have hov := hq.on v (List.mem_of_getElem? hv)
      by_cases hj : j ∈ agents
      · obtain ⟨u', hu', _, _, hbu, _⟩ := hev.2 j u hu
        have := safe_gt.trans_lt (hkeepoff j hj v u' o hv hu' ho hso hvo)
        have e1 : station v.lane u' = station v.lane u := by rw [hbu]; rfl
        rw [e1, (hpos j v u hv hu).2] at this
        exact this
      · obtain ⟨_, _, _, _, hnext⟩ := hdrive j v u hj hv hu
        rcases hnext _ (.inr ⟨o, ho, hso, hvo, le_rfl⟩) with ⟨m, z, hmj, hz, hvz, hzo, hsafe⟩ | ⟨o2, _, _, _, hle, hsafe⟩
        · have h1 := safe_gt.trans_lt (hsafe (max 0 (z.speed - 6 * dt)) (le_max_left _ _) (le_max_right _ _))
          have hlz := same_lane hov (hq.on z (List.mem_of_getElem? hz)) hvz.1
          have hg := safe_gt.trans_lt (hq.gaps j m v z (Ne.symm hmj) hv hz hvz)
          have h2 := ih m z o hz ho (by rw [← hlz]; exact hso) (by rw [← hlz]; exact hzo) (by rw [← hlz]; push_cast at hn; linarith)
          rw [← hlz] at h2
          linarith
        · have := safe_gt.trans_lt hsafe
          linarith
  -- nobody comes near anybody
  have hnear : ∀ (n j k : ℕ) (v w : Vehicle), j ≠ k → r.vehicles[j]? = some v → r.vehicles[k]? = some w → BehindOf v w →
      station v.lane w - station v.lane v < 5 * n → 5 < (station v.lane w + w.speed * dt) - (station v.lane v + v.speed * dt) := by
    intro n
    induction n with
    | zero =>
      intro j k v w hjk hv hw hvw hn
      have := safe_gt.trans_lt (hq.gaps j k v w hjk hv hw hvw)
      norm_num at hn
      linarith
    | succ n ih =>
      intro j k v w hjk hv hw hvw hn
      obtain ⟨u, hu⟩ := get_of_len hlen.symm hv
      obtain ⟨x, hx⟩ := get_of_len hlen.symm hw
      have hov := hq.on v (List.mem_of_getElem? hv)
      by_cases hj : j ∈ agents
      · obtain ⟨u', hu', _, _, hbu, _⟩ := hev.2 j u hu
        obtain ⟨x', hx', _, _, hbx, _⟩ := hev.2 k x hx
        have := safe_gt.trans_lt (hkeep j hj k v w u' x' hjk.symm hv hw hvw hu' hx')
        have e1 : station v.lane u' = station v.lane u := by rw [hbu]; rfl
        have e2 : station v.lane x' = station v.lane x := by rw [hbx]; rfl
        have hlw := same_lane hov (hq.on w (List.mem_of_getElem? hw)) hvw.1
        rw [e1, e2, (hpos j v u hv hu).2] at this
        have e3 := (hpos k w x hw hx).2
        rw [← hlw] at e3
        rw [e3] at this
        exact this
      · obtain ⟨_, _, _, _, hnext⟩ := hdrive j v u hj hv hu
        have hlw := same_lane hov (hq.on w (List.mem_of_getElem? hw)) hvw.1
        rcases hnext _ (.inl ⟨k, w, hjk.symm, hw, hvw, le_rfl⟩) with ⟨m, z, hmj, hz, hvz, hzw, hsafe⟩ | ⟨o, ho, hso, _, hle, hsafe⟩
        swap
        · have h1 := safe_gt.trans_lt hsafe
          obtain ⟨h2, h3⟩ := hpast k w o hw ho (by rw [← hlw]; exact hso) (by rw [← hlw]; exact hle)
          have := mul_nonneg h2 h0.le
          linarith
        have h1 := safe_gt.trans_lt (hsafe (max 0 (z.speed - 6 * dt)) (le_max_left _ _) (le_max_right _ _))
        by_cases hmk : m = k
        · subst hmk
          rw [hw] at hz; cases hz
          exact h1
        · have hlz := same_lane hov (hq.on z (List.mem_of_getElem? hz)) hvz.1
          have hzw' : BehindOf z w := ⟨hvz.1.symm.trans hvw.1, by rw [← hlz]; exact hzw⟩
          have hg := safe_gt.trans_lt (hq.gaps j m v z (Ne.symm hmj) hv hz hvz)
          have h2 := ih m k z w hmk hz hw hzw' (by rw [← hlz]; push_cast at hn; linarith)
          rw [← hlz] at h2
          linarith
  have hfar0 : ∀ (j k : ℕ) (v w u x : Vehicle), j ≠ k → r.vehicles[j]? = some v → r.vehicles[k]? = some w → BehindOf v w →
      moved[j]? = some u → moved[k]? = some x → 5 < station v.lane x - station v.lane u := by
    intro j k v w u x hjk hv hw hvw hu hx
    obtain ⟨n, hn⟩ := exists_nat_gt ((station v.lane w - station v.lane v) / 5)
    have := hnear n j k v w hjk hv hw hvw (by rw [div_lt_iff₀ (by norm_num)] at hn; linarith)
    have hlw := same_lane (hq.on v (List.mem_of_getElem? hv)) (hq.on w (List.mem_of_getElem? hw)) hvw.1
    have e3 := (hpos k w x hw hx).2
    rw [← hlw] at e3
    rw [e3, (hpos j v u hv hu).2]
    exact this
  have hfar : ∀ (j k : ℕ) (u x : Vehicle), j ≠ k → moved[j]? = some u → moved[k]? = some x → u.laneIndex = x.laneIndex →
      5 < |station u.lane x - station u.lane u| := by
    intro j k u x hjk hu hx hlane
    obtain ⟨v, hv⟩ := get_of_len hlen hu
    obtain ⟨w, hw⟩ := get_of_len hlen hx
    have pu := (hpos j v u hv hu).1
    have px := (hpos k w x hw hx).1
    have hl : v.laneIndex = w.laneIndex := by rw [← pu.laneIndex, ← px.laneIndex]; exact hlane
    have hlw := same_lane (hq.on v (List.mem_of_getElem? hv)) (hq.on w (List.mem_of_getElem? hw)) hl
    rw [pu.lane]
    rcases le_total (station v.lane v) (station v.lane w) with hle | hle
    · exact (hfar0 j k v w u x hjk hv hw ⟨hl, hle⟩ hu hx).trans_le (le_abs_self _)
    · have := hfar0 k j w v x u hjk.symm hw hv ⟨hl.symm, by rw [← hlw]; exact hle⟩ hx hu
      rw [← hlw] at this
      rw [abs_sub_comm]
      exact this.trans_le (le_abs_self _)
  have hallon : ∀ u ∈ moved, OnLanes r.network used u := by
    intro u hu
    obtain ⟨k, hk⟩ := List.getElem?_of_mem hu
    obtain ⟨v, hv⟩ := get_of_len hlen hk
    exact hon k v u hv hk
  have hoff0 : ∀ u ∈ moved, ∀ o ∈ r.objects, StandsOn u.lane o → 5 < |stationOf u.lane o - station u.lane u| := by
    intro u hu o ho hso
    obtain ⟨k, hk⟩ := List.getElem?_of_mem hu
    obtain ⟨v, hv⟩ := get_of_len hlen hk
    obtain ⟨p1, p2⟩ := hpos k v u hv hk
    rw [p1.lane] at hso ⊢
    rw [p2]
    rcases le_total (station v.lane v) (stationOf v.lane o) with hle | hle
    · obtain ⟨n, hn⟩ := exists_nat_gt ((stationOf v.lane o - station v.lane v) / 5)
      exact (hnearO n k v o hv ho hso hle (by rw [div_lt_iff₀ (by norm_num)] at hn; linarith)).trans_le (le_abs_self _)
    · obtain ⟨h2, h3⟩ := hpast k v o hv ho hso hle
      have := mul_nonneg h2 h0.le
      rw [abs_sub_comm]
      exact lt_of_lt_of_le (by linarith) (le_abs_self _)
  have hsame : r'.vehicles = moved := by rw [hfinal]; exact no_collision hq.net hallon hfar hq.objects hoff0
  have hunhit : ∀ (k : ℕ) (o o' : RoadObject), r.objects[k]? = some o → r'.objects[k]? = some o' → o.kind = .obstacle → o' = o := by
    rw [hobjs]
    exact pass_objects fun v hv o ho hk => obstacle_far hq.net (hallon v hv) hq.objects ho hk (hoff0 v hv o ho)
  rw [← hsame] at hpos hdrive hlen hsteady hfar0 hallon
  have hbrake : ∀ (k : ℕ) (v u : Vehicle), r.vehicles[k]? = some v → r'.vehicles[k]? = some u → v.speed - 6 * dt ≤ u.speed := by
    intro k v u hv hu
    by_cases hk : k ∈ agents
    · exact (hadv k hk v u hv hu).brake
    · exact (hdrive k v u hk hv hu).2.2.2.1
  have hwhole : ∀ v ∈ r'.vehicles, v.crashed = false := by
    intro v hv
    obtain ⟨k, hk⟩ := List.getElem?_of_mem hv
    obtain ⟨v0, hv0⟩ := get_of_len hlen hk
    obtain ⟨u, hu, _, hcr⟩ := hsteady.2 k v0 hv0
    rw [hk] at hu; cases hu
    rw [hcr]; exact hq.sound v0 (List.mem_of_getElem? hv0)
  have hgaps : ∀ (n j k : ℕ) (v w u x : Vehicle), j ≠ k → r.vehicles[j]? = some v → r.vehicles[k]? = some w → BehindOf v w →
      r'.vehicles[j]? = some u → r'.vehicles[k]? = some x → station v.lane w - station v.lane v < 5 * n →
      safeDistance dt u.speed x.speed < station v.lane x - station v.lane u := by
    intro n
    induction n with
    | zero =>
      intro j k v w u x hjk hv hw hvw _ _ hn
      have := safe_gt.trans_lt (hq.gaps j k v w hjk hv hw hvw)
      norm_num at hn
      linarith
    | succ n ih =>
      intro j k v w u x hjk hv hw hvw hu hx hn
      by_cases hj : j ∈ agents
      · exact hkeep j hj k v w u x hjk.symm hv hw hvw hu hx
      · have hov := hq.on v (List.mem_of_getElem? hv)
        obtain ⟨_, _, _, _, hnext⟩ := hdrive j v u hj hv hu
        have hlw := same_lane hov (hq.on w (List.mem_of_getElem? hw)) hvw.1
        have hpw := hpos k w x hw hx
        rcases hnext _ (.inl ⟨k, w, hjk.symm, hw, hvw, le_rfl⟩) with ⟨m, z, hmj, hz, hvz, hzw, hsafe⟩ | ⟨o, ho, hso, _, hle, hsafe⟩
        swap
        · obtain ⟨h2, h3⟩ := hpast k w o hw ho (by rw [← hlw]; exact hso) (by rw [← hlw]; exact hle)
          have h4 := mul_nonneg h2 h0.le
          rw [← hlw] at h3 hpw
          obtain ⟨o', ho', hk', hp'⟩ := objects_forth hevo ho
          have hst' : stationOf v.lane o' = stationOf v.lane o := by unfold stationOf; rw [hp']
          have h5 : 5 < station v.lane x - stationOf v.lane o := by rw [hpw.2]; linarith
          have hx0 := hfwd' k x (.inr ⟨w, hw, o, ho, by rw [← hlw]; exact hso, by rw [← hlw]; linarith⟩) (.inr ⟨x, hx, o', ho', ⟨hk'.trans hso.1, by rw [hp', hpw.1.lane]; exact hso.2⟩, by rw [hpw.1.lane, hst']; linarith⟩) hx
            (hwhole x (List.mem_of_getElem? hx))
          have h6 : safeDistance dt 0 x.speed < station v.lane x - stationOf v.lane o := by
            refine lt_of_le_of_lt ?_ h5
            have : 0 ≤ x.speed ^ 2 / 12 + x.speed * dt / 2 := by positivity
            unfold safeDistance
            rw [max_eq_left le_rfl, max_eq_left (by linarith)]
            norm_num
          rw [← (hpos j v u hv hu).2] at hsafe
          have := safe_chain h0 le_rfl hsafe h6
          linarith
        obtain ⟨z', hz'⟩ := get_of_len hlen.symm hz
        have hlz := same_lane hov (hq.on z (List.mem_of_getElem? hz)) hvz.1
        have pz := hpos m z z' hz hz'
        have pu := hpos j v u hv hu
        have hst : station v.lane z' = station v.lane z + z.speed * dt := by rw [hlz]; exact pz.2
        have hfol : HasFollower r'.vehicles r'.objects m := by
          refine .inl ⟨j, u, z', Ne.symm hmj, hu, hz', ?_, ?_⟩
          · rw [pu.1.laneIndex, pz.1.laneIndex]; exact hvz.1
          · rw [pu.1.lane]
            have := hfar0 j m v z u z' (Ne.symm hmj) hv hz hvz hu hz'
            linarith
        have hz0 := hfwd' m z' (.inl ⟨j, v, z, Ne.symm hmj, hv, hz, hvz⟩) hfol hz' (hwhole z' (List.mem_of_getElem? hz'))
        have h1 := hsafe z'.speed hz0 (hbrake m z z' hz hz')
        rw [← hst, ← pu.2] at h1
        by_cases hmk : m = k
        · subst hmk
          rw [hx] at hz'; cases hz'
          exact h1
        · have hzw' : BehindOf z w := ⟨hvz.1.symm.trans hvw.1, by rw [← hlz]; exact hzw⟩
          have hg := safe_gt.trans_lt (hq.gaps j m v z (Ne.symm hmj) hv hz hvz)
          have h2 := ih m k z w z' x hmk hz hw hzw' hz' hx (by rw [← hlz]; push_cast at hn; linarith)
          rw [← hlz] at h2
          have := safe_chain h0 hz0 h1 h2
          linarith
  have hgapsO : ∀ (n j : ℕ) (v u : Vehicle) (o : RoadObject), r.vehicles[j]? = some v → o ∈ r.objects → StandsOn v.lane o → station v.lane v ≤ stationOf v.lane o →
      r'.vehicles[j]? = some u → stationOf v.lane o - station v.lane v < 5 * n →
      safeDistance dt u.speed 0 < stationOf v.lane o - station v.lane u := by
    intro n
    induction n with
    | zero =>
      intro j v u o hv ho hso hvo _ hn
      have := safe_gt.trans_lt ((hq.off v (List.mem_of_getElem? hv) o ho hso).1 hvo)
      norm_num at hn
      linarith
    | succ n ih =>
      intro j v u o hv ho hso hvo hu hn
      by_cases hj : j ∈ agents
      · exact hkeepoff j hj v u o hv hu ho hso hvo
      · have hov := hq.on v (List.mem_of_getElem? hv)
        have pu := hpos j v u hv hu
        obtain ⟨_, _, _, _, hnext⟩ := hdrive j v u hj hv hu
        rcases hnext _ (.inr ⟨o, ho, hso, hvo, le_rfl⟩) with ⟨m, z, hmj, hz, hvz, hzo, hsafe⟩ | ⟨o2, _, _, _, hle, hsafe⟩
        · obtain ⟨z', hz'⟩ := get_of_len hlen.symm hz
          have hlz := same_lane hov (hq.on z (List.mem_of_getElem? hz)) hvz.1
          have pz := hpos m z z' hz hz'
          have hst : station v.lane z' = station v.lane z + z.speed * dt := by rw [hlz]; exact pz.2
          have hfol : HasFollower r'.vehicles r'.objects m := by
            refine .inl ⟨j, u, z', Ne.symm hmj, hu, hz', ?_, ?_⟩
            · rw [pu.1.laneIndex, pz.1.laneIndex]; exact hvz.1
            · rw [pu.1.lane]
              have := hfar0 j m v z u z' (Ne.symm hmj) hv hz hvz hu hz'
              linarith
          have hz0 := hfwd' m z' (.inl ⟨j, v, z, Ne.symm hmj, hv, hz, hvz⟩) hfol hz' (hwhole z' (List.mem_of_getElem? hz'))
          have h1 := hsafe z'.speed hz0 (hbrake m z z' hz hz')
          rw [← hst, ← pu.2] at h1
          have hg := safe_gt.trans_lt (hq.gaps j m v z (Ne.symm hmj) hv hz hvz)
          have h2 := ih m z z' o hz ho (by rw [← hlz]; exact hso) (by rw [← hlz]; exact hzo) hz' (by rw [← hlz]; push_cast at hn; linarith)
          rw [← hlz] at h2
          have := safe_chain h0 hz0 h1 h2
          linarith
        · rw [← pu.2] at hsafe
          linarith
  refine ⟨⟨by rw [hnet']; exact hq.net, hreg', ?_, ?_, ?_, ?_, ?_, ?_, ?_⟩, hevo.length_eq.symm, hunhit⟩
  · intro o' ho' hk'
    obtain ⟨o, ho, _, e1, e2, e3⟩ := objects_back hevo ho'
    obtain ⟨p1, p2⟩ := hq.objects o ho (e1 ▸ hk')
    unfold stationOf at p2 ⊢
    rw [hnet', e2, e3]
    exact ⟨p1, p2⟩
  · rw [objects_uid hevo]
    have : r'.vehicles.map Vehicle.uid = r.vehicles.map Vehicle.uid := by
      refine List.ext_getElem? fun k => ?_
      rw [List.getElem?_map, List.getElem?_map]
      rcases hv : r.vehicles[k]? with _ | v
      · rw [List.getElem?_eq_none_iff.2 (by rw [hlen]; exact List.getElem?_eq_none_iff.1 hv)]
      · obtain ⟨u, hu, hid, _⟩ := hsteady.2 k v hv
        rw [hu]; simp [hid]
    rw [this]; exact hq.ids
  · rw [hnet']; exact hallon
  · exact hwhole
  · intro j k u x hjk hu hx hux
    obtain ⟨v, hv⟩ := get_of_len hlen hu
    obtain ⟨w, hw⟩ := get_of_len hlen hx
    have pu := (hpos j v u hv hu).1
    have px := (hpos k w x hw hx).1
    have hl : v.laneIndex = w.laneIndex := by rw [← pu.laneIndex, ← px.laneIndex]; exact hux.1
    have hlw := same_lane (hq.on v (List.mem_of_getElem? hv)) (hq.on w (List.mem_of_getElem? hw)) hl
    have h2 := hux.2
    rw [pu.lane] at h2 ⊢
    rcases le_total (station v.lane v) (station v.lane w) with hle | hle
    · obtain ⟨n, hn⟩ := exists_nat_gt ((station v.lane w - station v.lane v) / 5)
      exact hgaps n j k v w u x hjk hv hw ⟨hl, hle⟩ hu hx (by rw [div_lt_iff₀ (by norm_num)] at hn; linarith)
    · have := hfar0 k j w v x u hjk.symm hw hv ⟨hl.symm, by rw [← hlw]; exact hle⟩ hx hu
      rw [← hlw] at this
      linarith
  · intro u hum o' ho' hso
    obtain ⟨k, hu⟩ := List.getElem?_of_mem hum
    obtain ⟨v, hv⟩ := get_of_len hlen hu
    obtain ⟨p1, p2⟩ := hpos k v u hv hu
    obtain ⟨o, ho, _, e1, e2, _⟩ := objects_back hevo ho'
    have hso2 : StandsOn v.lane o := by
      unfold StandsOn at hso ⊢; rw [p1.lane, e1, e2] at hso; exact hso
    have hst : stationOf u.lane o' = stationOf v.lane o := by unfold stationOf; rw [p1.lane, e2]
    rw [hst, p1.lane]
    rcases le_total (station v.lane v) (stationOf v.lane o) with hle | hle
    · obtain ⟨n, hn⟩ := exists_nat_gt ((stationOf v.lane o - station v.lane v) / 5)
      have h1 := hgapsO n k v u o hv ho hso2 hle hu (by rw [div_lt_iff₀ (by norm_num)] at hn; linarith)
      have := safe_gt.trans_lt h1
      exact ⟨fun _ => h1, fun hlt => by linarith⟩
    · obtain ⟨h2, h3⟩ := hpast k v o hv ho hso2 hle
      have := mul_nonneg h2 h0.le
      exact ⟨fun hle' => by linarith, fun _ => by linarith⟩
  · intro k u hk hu
    obtain ⟨v, hv⟩ := get_of_len hlen hu
    obtain ⟨d1, d2, _⟩ := hdrive k v u hk hv hu
    unfold StaysInLane
    rw [d1.laneIndex, d1.lane]
    exact ⟨d1, d2⟩

/-- One frame of a traffic vehicle. -/
theorem traffic_step {G : Globals} {dt : ℝ} (hG : G.comfortAccMax .idm = 3) (h0 : 0 < dt) (h1 : dt ≤ 1 / 10)
    {used : Set LaneIndex} {agents : Set ℕ} {cmds : List (ℕ × VAction)} {r r' : Road} (hc : ∀ c ∈ cmds, c.1 ∈ agents)
    (hq : Flow dt used agents r) (h : frame G dt r cmds = .ok r') {k : ℕ} {v v' : Vehicle} (hk : k ∉ agents)
    (hv : r.vehicles[k]? = some v) (hv' : r'.vehicles[k]? = some v') (hend : BeforeEnd v) :
    v'.laneIndex = v.laneIndex ∧ v'.lane = v.lane ∧ station v.lane v' = station v.lane v + v.speed * dt ∧
    (v'.crashed = false → v.speed - 6 * dt ≤ v'.speed) := by
  obtain ⟨_, _, moved, _, hfinal, _, _, hmove⟩ := frame_moved hq.regulated h
  obtain ⟨s, w, rng, rec, u, hs, _, hact, hst, hu⟩ := hmove k v (fun c hcm he => hk (he ▸ hc c hcm)) hv
  have hvm := List.mem_of_getElem? hv
  have hov := hq.on v hvm
  obtain ⟨hdv, hnl⟩ := hq.traffic k v hk hv
  obtain ⟨d1, _, d3, d4, _⟩ := drive hG h0 h1 hov.2.1 (line hq.net hov).1
    (fun p hp => hq.net.own _ hov.1 _ p hov.2.1 hp) hs hdv hnl hend (hq.sound v hvm) hact hst
  have hev := (Road.collidePass_evolves moved r.objects).1
  rw [← hfinal] at hev
  obtain ⟨z, hz, sp, b, hzb, _, _, hcase⟩ := hev.2 k u hu
  rw [hv'] at hz; cases hz
  refine ⟨by rw [hzb]; exact d1.laneIndex, by rw [hzb]; exact d1.lane, by rw [hzb]; exact d3, fun hcr => ?_⟩
  rcases hcase with rfl | ⟨_, hb⟩
  · exact d4
  · rw [hzb] at hcr
    change b = false at hcr
    rw [hb] at hcr; cases hcr

theorem flow_run {G : Globals} {dt : ℝ} (hG : G.comfortAccMax .idm = 3 ∧ G.comfortAccMin .idm = -5 ∧ G.distanceWanted .idm = 10)
    (h0 : 0 < dt) (h1 : dt ≤ 1 / 10) {used : Set LaneIndex} {agents : Set ℕ} {s : ℕ → Road} {cmds : ℕ → List (ℕ × VAction)} {n : ℕ}
    (h : LaneTraffic G dt agents s cmds n) (hf : Flow dt used agents (s 0)) : ∀ t ≤ n, Flow dt used agents (s t) ∧ ObstaclesUntouched (s 0).objects (s t).objects := by
  intro t ht
  induction t with
  | zero => exact ⟨hf, ObstaclesUntouched.refl _⟩
  | succ t ih =>
    obtain ⟨i1, i2⟩ := ih (by omega)
    obtain ⟨f1, f2⟩ := flow_frame hG h0 h1 (h.commanded t (by omega)) i1 (h.run t (by omega)) (h.beforeEnd t (by omega)) (h.forwards t (by omega))
      (fun k v _ a b _ => (h.forwards (t + 1) ht k v a b).1) (h.agentsAdvance t (by omega)) (h.agentsKeep t (by omega)) (h.agentsKeepOff t (by omega))
    exact ⟨f1, i2.trans f2⟩

theorem gaps_apart {dt : ℝ} {used : Set LaneIndex} {agents : Set ℕ} {r : Road} (hf : Flow dt used agents r) {j k : ℕ} {v w : Vehicle} (hjk : j ≠ k)
    (hv : r.vehicles[j]? = some v) (hw : r.vehicles[k]? = some w) (hl : v.laneIndex = w.laneIndex) : 5 < |station v.lane w - station v.lane v| := by
  have hlane := same_lane (hf.on v (List.mem_of_getElem? hv)) (hf.on w (List.mem_of_getElem? hw)) hl
  rcases le_total (station v.lane v) (station v.lane w) with h | h
  · exact (safe_gt.trans_lt (hf.gaps j k v w hjk hv hw ⟨hl, h⟩)).trans_le (le_abs_self _)
  · have := safe_gt.trans_lt (hf.gaps k j w v hjk.symm hw hv ⟨hl.symm, by rw [← hlane]; exact h⟩)
    rw [← hlane] at this
    rw [abs_sub_comm]
    exact this.trans_le (le_abs_self _)

/-- Traffic alone, starting at speeds at which nobody can come to a stop within `n` frames. -/
theorem horizon (G : Globals) (dt : ℝ) (hG : G.comfortAccMax .idm = 3 ∧ G.comfortAccMin .idm = -5 ∧ G.distanceWanted .idm = 10)
    (h0 : 0 < dt) (h1 : dt ≤ 1 / 10) (used : Set LaneIndex) (s : ℕ → Road) (n : ℕ) (hrun : ∀ t < n, frame G dt (s t) [] = .ok (s (t + 1)))
    (hreg : (s 0).regulated = false) (hobj : ObstaclesPlaced (s 0).network used (s 0).objects)
    (hids : ((s 0).vehicles.map Vehicle.uid ++ (s 0).objects.map RoadObject.uid).Nodup)
    (hnet : ParallelLanes (s 0).network used) (hon : ∀ v ∈ (s 0).vehicles, OnLanes (s 0).network used v)
    (htraffic : ∀ v ∈ (s 0).vehicles, StaysInLane dt v) (hgaps : KeepDistances dt (s 0).vehicles)
    (hoff : KeepOffObstacles dt (s 0).vehicles (s 0).objects) (hsound : ∀ v ∈ (s 0).vehicles, v.crashed = false)
    (hfast : ∀ v ∈ (s 0).vehicles, 6 * dt * n ≤ v.speed)
    (hlong : ∀ v ∈ (s 0).vehicles, -5 ≤ station v.lane v ∧ station v.lane v + 30 * dt * n ≤ v.lane.length - 5 / 2) :
    ∀ t ≤ n, (Flow dt used ∅ (s t) ∧ ObstaclesUntouched (s 0).objects (s t).objects) ∧ (∀ v ∈ (s t).vehicles, BeforeEnd v ∧ Leads v) := by
  have key : ∀ t ≤ n, (Flow dt used ∅ (s t) ∧ ObstaclesUntouched (s 0).objects (s t).objects) ∧ (s t).vehicles.length = (s 0).vehicles.length ∧
      ∀ (k : ℕ) (v v' : Vehicle), (s 0).vehicles[k]? = some v → (s t).vehicles[k]? = some v' →
        v'.lane = v.lane ∧ v.speed - 6 * dt * t ≤ v'.speed ∧ station v.lane v ≤ station v.lane v' ∧ station v.lane v' ≤ station v.lane v + 30 * dt * t := by
    intro t ht
    induction t with
    | zero =>
      refine ⟨⟨⟨hnet, hreg, hobj, hids, hon, hsound, hgaps, hoff, fun k v _ hv => htraffic v (List.mem_of_getElem? hv)⟩, .refl _⟩, rfl, fun k v v' hv hv' => ?_⟩
      rw [hv] at hv'; cases hv'
      refine ⟨rfl, by simp, le_rfl, by simp⟩
    | succ t ih =>
      obtain ⟨⟨q, qo⟩, hlen, hcars⟩ := ih (by omega)
      have hf := hrun t (by omega)
      have ht' : (t : ℝ) + 1 ≤ n := by exact_mod_cast ht
      have hnn : ∀ x : ℝ, 0 ≤ x → x * dt * t ≤ x * dt * n := fun x hx => mul_le_mul_of_nonneg_left (by linarith) (by positivity)
      have hcar : ∀ (k : ℕ) (v : Vehicle), (s t).vehicles[k]? = some v → ∃ v0, (s 0).vehicles[k]? = some v0 := by
        intro k v hv
        exact ⟨_, List.getElem?_eq_getElem (by rw [← hlen]; exact (List.getElem?_eq_some_iff.1 hv).1)⟩
      have hend : ∀ v ∈ (s t).vehicles, BeforeEnd v ∧ -5 ≤ station v.lane v := by
        intro v hv
        obtain ⟨k, hk⟩ := List.getElem?_of_mem hv
        obtain ⟨v0, hv0⟩ := hcar k v hk
        obtain ⟨c1, _, c3, c4⟩ := hcars k v0 v hv0 hk
        obtain ⟨l1, l2⟩ := hlong v0 (List.mem_of_getElem? hv0)
        unfold BeforeEnd
        rw [c1]
        exact ⟨c4.trans (le_trans (by linarith [hnn 30 (by norm_num)]) l2), l1.trans c3⟩
      have hfwd : ∀ (k : ℕ) (v : Vehicle), (s t).vehicles[k]? = some v → 6 * dt ≤ v.speed := by
        intro k v hv
        obtain ⟨v0, hv0⟩ := hcar k v hv
        obtain ⟨_, c2, _⟩ := hcars k v0 v hv0 hv
        have := hfast v0 (List.mem_of_getElem? hv0)
        have h2 : 6 * dt * ((t : ℝ) + 1) ≤ 6 * dt * n := mul_le_mul_of_nonneg_left ht' (by positivity)
        linarith
      obtain ⟨_, _, moved, hlm, hfin, _⟩ := frame_moved q.regulated hf
      have hlen' : (s (t + 1)).vehicles.length = (s t).vehicles.length := by
        rw [hfin, (Road.collidePass_evolves moved _).1.1, hlm]
      have hback : ∀ (k : ℕ) (v' : Vehicle), (s (t + 1)).vehicles[k]? = some v' → ∃ v, (s t).vehicles[k]? = some v := by
        intro k v' hv'
        exact ⟨_, List.getElem?_eq_getElem (by rw [← hlen']; exact (List.getElem?_eq_some_iff.1 hv').1)⟩
      obtain ⟨q', qo'⟩ := flow_frame hG h0 h1 (by simp) q hf (fun v hv => (hend v hv).1)
        (fun k v _ hv => ⟨by have := hfwd k v hv; linarith, (hend v (List.mem_of_getElem? hv)).2⟩)
        (fun k v' _ _ hv' hcr => by
          obtain ⟨v, hv⟩ := hback k v' hv'
          have h3 := (traffic_step hG.1 h0 h1 (by simp) q hf (by simp) hv hv' (hend v (List.mem_of_getElem? hv)).1).2.2.2 hcr
          have := hfwd k v hv
          linarith)
        (by simp) (by simp) (by simp)
      refine ⟨⟨q', qo.trans qo'⟩, hlen'.trans hlen, fun k v0 v' hv0 hv' => ?_⟩
      obtain ⟨v, hv⟩ := hback k v' hv'
      obtain ⟨_, e2, e3, e4⟩ := traffic_step hG.1 h0 h1 (by simp) q hf (by simp) hv hv' (hend v (List.mem_of_getElem? hv)).1
      obtain ⟨c1, c2, c3, c4⟩ := hcars k v0 v hv0 hv
      have e4 := e4 (q'.sound v' (List.mem_of_getElem? hv'))
      rw [c1] at e2 e3
      have hd := (q.traffic k v (by simp) hv).1
      have h30 : v.speed * dt ≤ 30 * dt := mul_le_mul_of_nonneg_right (hd.notSpeeding.trans hd.limit) h0.le
      have hpos : 0 ≤ v.speed * dt := mul_nonneg (by have := hfwd k v hv; linarith) h0.le
      push_cast
      exact ⟨e2, by linarith, by rw [e3]; linarith, by rw [e3]; linarith⟩
  intro t ht
  obtain ⟨q, hlen, hcars⟩ := key t ht
  refine ⟨q, fun v hv => ?_⟩
  obtain ⟨k, hk⟩ := List.getElem?_of_mem hv
  obtain ⟨v0, hv0⟩ : ∃ v0, (s 0).vehicles[k]? = some v0 := ⟨_, List.getElem?_eq_getElem (by rw [← hlen]; exact (List.getElem?_eq_some_iff.1 hk).1)⟩
  obtain ⟨c1, c2, c3, c4⟩ := hcars k v0 v hv0 hk
  obtain ⟨l1, l2⟩ := hlong v0 (List.mem_of_getElem? hv0)
  have hnn : ∀ x : ℝ, 0 ≤ x → x * dt * t ≤ x * dt * n := fun x hx => mul_le_mul_of_nonneg_left (by exact_mod_cast ht) (by positivity)
  have h6 := hfast v0 (List.mem_of_getElem? hv0)
  unfold BeforeEnd Leads
  rw [c1]
  exact ⟨c4.trans (le_trans (by linarith [hnn 30 (by norm_num)]) l2), by linarith [hnn 6 (by norm_num)], l1.trans c3⟩

/-- Vehicles that are alone on their lanes, before an obstacle. -/
theorem alone_stop (G : Globals) (dt : ℝ) (hG : G.comfortAccMax .idm = 3 ∧ G.comfortAccMin .idm = -5 ∧ G.distanceWanted .idm = 10)
    (h0 : 0 < dt) (h1 : dt ≤ 1 / 10) (used : Set LaneIndex) (s : ℕ → Road) (hrun : ∀ t, frame G dt (s t) [] = .ok (s (t + 1)))
    (hf : Flow dt used ∅ (s 0)) (hblock : ∀ v ∈ (s 0).vehicles, StopsBefore (s 0).objects v)
    (halone : ((s 0).vehicles.map Vehicle.laneIndex).Nodup) (n : ℕ) :
    Flow dt used ∅ (s n) ∧ ObstaclesUntouched (s 0).objects (s n).objects ∧ (∀ v ∈ (s n).vehicles, StopsBefore (s n).objects v) ∧
    ((s n).vehicles.map Vehicle.laneIndex).Nodup := by
  induction n with
  | zero => exact ⟨hf, .refl _, hblock, halone⟩
  | succ n ih =>
    obtain ⟨q, qo, hb, ha⟩ := ih
    have hr := hrun n
    have hend : ∀ v ∈ (s n).vehicles, BeforeEnd v := by
      intro v hv
      obtain ⟨⟨o, ho, hso, hvo, hlen⟩, _⟩ := hb v hv
      have := safe_gt.trans_lt ((q.off v hv o ho hso).1 hvo)
      unfold BeforeEnd
      linarith
    have hno : ∀ k, ¬ HasFollower (s n).vehicles (s n).objects k := by
      rintro k (⟨j, v, w, hjk, hv, hw, hl, _⟩ | ⟨w, hw, o, ho, hso, hlt⟩)
      · have e1 : ((s n).vehicles.map Vehicle.laneIndex)[j]? = some v.laneIndex := by simp [hv]
        have e2 : ((s n).vehicles.map Vehicle.laneIndex)[k]? = some v.laneIndex := by simp [hw, hl]
        exact hjk ((List.Nodup.getElem_inj_iff ha (hi := (List.getElem?_eq_some_iff.1 e1).1) (hj := (List.getElem?_eq_some_iff.1 e2).1)).1
          (by rw [(List.getElem?_eq_some_iff.1 e1).2, (List.getElem?_eq_some_iff.1 e2).2]))
      · have := (hb w (List.mem_of_getElem? hw)).2 o ho hso
        linarith
    obtain ⟨q', qo'⟩ := flow_frame hG h0 h1 (by simp) q hr hend (fun k v hk => absurd hk (hno k)) (fun k v hk => absurd hk (hno k)) (by simp) (by simp) (by simp)
    obtain ⟨_, _, moved, hlm, hfin, hobjs, _, _⟩ := frame_moved q.regulated hr
    obtain ⟨hev, hevo⟩ := Road.collidePass_evolves moved (s n).objects
    rw [← hobjs] at hevo
    have hlen' : (s (n + 1)).vehicles.length = (s n).vehicles.length := by
      rw [hfin, hev.1, hlm]
    have hstep : ∀ (k : ℕ) (v v' : Vehicle), (s n).vehicles[k]? = some v → (s (n + 1)).vehicles[k]? = some v' →
        v'.laneIndex = v.laneIndex ∧ v'.lane = v.lane ∧ station v.lane v' = station v.lane v + v.speed * dt := by
      intro k v v' hv hv'
      obtain ⟨e1, e2, e3, _⟩ := traffic_step hG.1 h0 h1 (by simp) q hr (by simp) hv hv' (hend v (List.mem_of_getElem? hv))
      exact ⟨e1, e2, e3⟩
    refine ⟨q', qo.trans qo', ?_, ?_⟩
    · intro v' hv'
      obtain ⟨k, hk⟩ := List.getElem?_of_mem hv'
      obtain ⟨v, hv⟩ := get_of_len hlen' hk
      obtain ⟨_, e2, e3⟩ := hstep k v v' hv hk
      obtain ⟨⟨o, ho, hso, hvo, hl⟩, hall⟩ := hb v (List.mem_of_getElem? hv)
      -- the frame moves the vehicle by less than its distance to the obstacles
      have hstay : ∀ o ∈ (s n).objects, StandsOn v.lane o → station v.lane v' ≤ stationOf v.lane o := by
        intro o ho hso
        have hg := (q.off v (List.mem_of_getElem? hv) o ho hso).1 (hall o ho hso)
        unfold safeDistance at hg
        have m1 := le_max_right 0 (max v.speed 0 ^ 2 / 12 + max v.speed 0 * dt - (0 ^ 2 / 12 + 0 * dt / 2))
        have m2 : v.speed * dt ≤ max v.speed 0 * dt := mul_le_mul_of_nonneg_right (le_max_left _ _) h0.le
        have m3 : 0 ≤ max v.speed 0 ^ 2 / 12 := by positivity
        rw [e3]
        linarith
      refine ⟨?_, ?_⟩
      · obtain ⟨o', ho', k1, k2⟩ := objects_forth hevo ho
        refine ⟨o', ho', ?_, ?_, ?_⟩
        · unfold StandsOn; rw [e2, k1, k2]; exact hso
        · unfold stationOf; rw [e2, k2]; exact hstay o ho hso
        · unfold stationOf; rw [e2, k2]; exact hl
      · intro o' ho' hso'
        obtain ⟨o2, ho2, _, k1, k2, _⟩ := objects_back hevo ho'
        unfold StandsOn at hso'
        rw [e2, k1, k2] at hso'
        unfold stationOf
        rw [e2, k2]
        exact hstay o2 ho2 hso'
    · have : (s (n + 1)).vehicles.map Vehicle.laneIndex = (s n).vehicles.map Vehicle.laneIndex := by
        refine List.ext_getElem? fun k => ?_
        rw [List.getElem?_map, List.getElem?_map]
        rcases hv : (s n).vehicles[k]? with _ | v
        · rw [List.getElem?_eq_none_iff.2 (by rw [hlen']; exact List.getElem?_eq_none_iff.1 hv)]
        · obtain ⟨u, hu⟩ := get_of_len hlen'.symm hv
          rw [hu]; simp [(hstep k v u hv hu).1]
      rw [this]; exact ha

end Lanes

/-! ## C112 -/

/-- On parallel lanes, traffic vehicles (class with the non-linear model, default parameters) that do not change lanes, and agents that drive along their lanes, brake at most at 6 m/s² and keep
the safe distance behind the vehicles, and before the obstacles, ahead of them: when all distances are safe at the beginning, every vehicle keeps the safe distance to everybody and to every
obstacle ahead of it on its lane, vehicles on the same lane remain more than a vehicle length apart, nobody crashes (in particular, not into vehicles of the neighbouring lanes), and no obstacle
is hit. -/
theorem lane_traffic_safe (G : Globals) (dt : ℝ) (hG : G.comfortAccMax .idm = 3 ∧ G.comfortAccMin .idm = -5 ∧ G.distanceWanted .idm = 10)
    (h0 : 0 < dt) (h1 : dt ≤ 1 / 10) (used : Set LaneIndex) (agents : Set ℕ) (s : ℕ → Road) (cmds : ℕ → List (ℕ × VAction)) (n : ℕ)
    (h : LaneTraffic G dt agents s cmds n) (hnet : ParallelLanes (s 0).network used) (hobj : ObstaclesPlaced (s 0).network used (s 0).objects)
    (hon : ∀ v ∈ (s 0).vehicles, OnLanes (s 0).network used v)
    (htraffic : ∀ (k : ℕ) (v : Vehicle), k ∉ agents → (s 0).vehicles[k]? = some v → StaysInLane dt v)
    (hgaps : KeepDistances dt (s 0).vehicles)
    (hoff : KeepOffObstacles dt (s 0).vehicles (s 0).objects) (hsound : ∀ v ∈ (s 0).vehicles, v.crashed = false) :
    KeepDistances dt (s n).vehicles ∧ KeepOffObstacles dt (s n).vehicles (s n).objects ∧ ObstaclesUntouched (s 0).objects (s n).objects ∧
    (∀ (j k : ℕ) (v w : Vehicle), j ≠ k → (s n).vehicles[j]? = some v → (s n).vehicles[k]? = some w → v.laneIndex = w.laneIndex →
      5 < |station v.lane w - station v.lane v|) ∧
    (∀ v ∈ (s n).vehicles, v.crashed = false ∧ OnLanes (s n).network used v) := by
  obtain ⟨hf, hfo⟩ := Lanes.flow_run hG h0 h1 h ⟨hnet, h.unregulated, hobj, h.ids, hon, hsound, hgaps, hoff, htraffic⟩ n le_rfl
  exact ⟨hf.gaps, hf.off, hfo, fun j k v w hjk hv hw hl => Lanes.gaps_apart hf hjk hv hw hl, fun v hv => ⟨hf.sound v hv, hf.on v hv⟩⟩

/-- Traffic alone, with assumptions on the initial state only: nobody crashes for as long as nobody could come to a stop or reach the end of the road. -/
theorem lane_traffic_horizon (G : Globals) (dt : ℝ) (hG : G.comfortAccMax .idm = 3 ∧ G.comfortAccMin .idm = -5 ∧ G.distanceWanted .idm = 10)
    (h0 : 0 < dt) (h1 : dt ≤ 1 / 10) (used : Set LaneIndex) (s : ℕ → Road) (n : ℕ) (hrun : ∀ t < n, frame G dt (s t) [] = .ok (s (t + 1)))
    (hreg : (s 0).regulated = false) (hobj : ObstaclesPlaced (s 0).network used (s 0).objects)
    (hids : ((s 0).vehicles.map Vehicle.uid ++ (s 0).objects.map RoadObject.uid).Nodup)
    (hnet : ParallelLanes (s 0).network used) (hon : ∀ v ∈ (s 0).vehicles, OnLanes (s 0).network used v)
    (htraffic : ∀ v ∈ (s 0).vehicles, StaysInLane dt v) (hgaps : KeepDistances dt (s 0).vehicles)
    (hoff : KeepOffObstacles dt (s 0).vehicles (s 0).objects) (hsound : ∀ v ∈ (s 0).vehicles, v.crashed = false)
    (hfast : ∀ v ∈ (s 0).vehicles, 6 * dt * n ≤ v.speed)
    (hlong : ∀ v ∈ (s 0).vehicles, -5 ≤ station v.lane v ∧ station v.lane v + 30 * dt * n ≤ v.lane.length - 5 / 2) :
    KeepDistances dt (s n).vehicles ∧ KeepOffObstacles dt (s n).vehicles (s n).objects ∧ ObstaclesUntouched (s 0).objects (s n).objects ∧
    (∀ (j k : ℕ) (v w : Vehicle), j ≠ k → (s n).vehicles[j]? = some v → (s n).vehicles[k]? = some w → v.laneIndex = w.laneIndex →
      5 < |station v.lane w - station v.lane v|) ∧
    (∀ v ∈ (s n).vehicles, v.crashed = false ∧ OnLanes (s n).network used v) := by
  obtain ⟨hf, hfo⟩ := (Lanes.horizon G dt hG h0 h1 used s n hrun hreg hobj hids hnet hon htraffic hgaps hoff hsound hfast hlong n le_rfl).1
  exact ⟨hf.gaps, hf.off, hfo, fun j k v w hjk hv hw hl => Lanes.gaps_apart hf hjk hv hw hl, fun v hv => ⟨hf.sound v hv, hf.on v hv⟩⟩

/-- Traffic vehicles that are alone on their lanes never run into an obstacle, however long they drive: each of them, starting at a safe distance before an obstacle that stands on its lane (and
with no obstacle behind), stays more than 5 m before it for ever. -/
theorem obstacle_never_hit (G : Globals) (dt : ℝ) (hG : G.comfortAccMax .idm = 3 ∧ G.comfortAccMin .idm = -5 ∧ G.distanceWanted .idm = 10)
    (h0 : 0 < dt) (h1 : dt ≤ 1 / 10) (used : Set LaneIndex) (s : ℕ → Road) (hrun : ∀ t, frame G dt (s t) [] = .ok (s (t + 1)))
    (hreg : (s 0).regulated = false) (hobj : ObstaclesPlaced (s 0).network used (s 0).objects)
    (hids : ((s 0).vehicles.map Vehicle.uid ++ (s 0).objects.map RoadObject.uid).Nodup)
    (hnet : ParallelLanes (s 0).network used) (hon : ∀ v ∈ (s 0).vehicles, OnLanes (s 0).network used v)
    (htraffic : ∀ v ∈ (s 0).vehicles, StaysInLane dt v) (halone : ((s 0).vehicles.map Vehicle.laneIndex).Nodup)
    (hblock : ∀ v ∈ (s 0).vehicles, StopsBefore (s 0).objects v)
    (hoff : KeepOffObstacles dt (s 0).vehicles (s 0).objects) (hsound : ∀ v ∈ (s 0).vehicles, v.crashed = false) (n : ℕ) :
    ObstaclesUntouched (s 0).objects (s n).objects ∧
    ∀ v ∈ (s n).vehicles, v.crashed = false ∧ OnLanes (s n).network used v ∧ StopsBefore (s n).objects v ∧
      ∀ o ∈ (s n).objects, StandsOn v.lane o → 5 < stationOf v.lane o - station v.lane v := by
  have hgaps : KeepDistances dt (s 0).vehicles := by
    intro j k v w hjk hv hw hvw
    have e1 : ((s 0).vehicles.map Vehicle.laneIndex)[j]? = some v.laneIndex := by simp [hv]
    have e2 : ((s 0).vehicles.map Vehicle.laneIndex)[k]? = some v.laneIndex := by simp [hw, hvw.1]
    exact absurd ((List.Nodup.getElem_inj_iff halone (hi := (List.getElem?_eq_some_iff.1 e1).1) (hj := (List.getElem?_eq_some_iff.1 e2).1)).1
      (by rw [(List.getElem?_eq_some_iff.1 e1).2, (List.getElem?_eq_some_iff.1 e2).2])) hjk
  obtain ⟨hf, ho, hb, _⟩ := Lanes.alone_stop G dt hG h0 h1 used s hrun
    ⟨hnet, hreg, hobj, hids, hon, hsound, hgaps, hoff, fun k v _ hv => htraffic v (List.mem_of_getElem? hv)⟩ hblock halone n
  exact ⟨ho, fun v hv => ⟨hf.sound v hv, hf.on v hv, hb v hv, fun o ho hso => Platoon.safe_gt.trans_lt ((hf.off v hv o ho hso).1 ((hb v hv).2 o ho hso))⟩⟩

/-- The lanes of the highway are parallel lanes. -/
theorem highway_lanes_parallel {n : ℕ} {len : ℝ} (hl : 0 < len) :
    ParallelLanes (straightNet n len) {i | ∃ k : ℕ, k < n ∧ i = ⟨"0", "1", (k : Int)⟩} := by
  refine ⟨?_, ?_, ?_⟩
  · rintro _ ⟨k, hk, rfl⟩
    exact ⟨_, 0, len, 4 * k, straightNet_getLane (by omega) hk, rfl, hl.ne, rfl⟩
  · rintro _ ⟨k, hk, rfl⟩ l p hg hp
    rw [straightNet_getLane (by omega) hk] at hg
    cases hg
    rw [straightLane_local hl] at hp
    exact straightNet_closest_near (by omega) hl hk p (by simp only at hp; rw [hp]; simp) _
  · rintro _ ⟨j, hj, rfl⟩ _ ⟨k, hk, rfl⟩ hne l m p hgl hgm hp
    rw [straightNet_getLane (by omega) hj] at hgl
    rw [straightNet_getLane (by omega) hk] at hgm
    cases hgl; cases hgm
    rw [straightLane_local hl] at hp ⊢
    simp only at hp ⊢
    have hjk : j ≠ k := fun h => hne (by rw [h])
    have h1 : (1 : ℝ) ≤ |(j : ℝ) - k| := by
      have : (1 : ℤ) ≤ |(j : ℤ) - k| := Int.one_le_abs (by omega)
      exact_mod_cast this
    have : p.y - 4 * k = 4 * ((j : ℝ) - k) := by linarith
    rw [this, abs_mul, abs_of_pos (by norm_num : (0 : ℝ) < 4)]
    linarith

/-- The right lane and the lane of the oncoming traffic of the two-way environment are parallel lanes. -/
theorem twoWay_lanes_parallel {len : ℝ} (hl : 0 < len) : ParallelLanes (twoWayNet len) {⟨"a", "b", 1⟩, ⟨"b", "a", 0⟩} := by
  have g1 : (twoWayNet len).getLane ⟨"a", "b", 1⟩ = .ok (levelLane 0 len 4) :=
    getLane_of_hasLane (k := 1) (twoWayNet_wf len).toIsPyGraph rfl (twoWayNet_lanes.2 (.inl ⟨rfl, rfl, .inr ⟨rfl, rfl⟩⟩))
  have g2 : (twoWayNet len).getLane ⟨"b", "a", 0⟩ = .ok (backLane 0 len 0) :=
    getLane_of_hasLane (k := 0) (twoWayNet_wf len).toIsPyGraph rfl (twoWayNet_lanes.2 (.inr ⟨rfl, rfl, rfl, rfl⟩))
  refine ⟨?_, ?_, ?_⟩
  · rintro _ (rfl | rfl)
    · exact ⟨_, 0, len, 4, g1, rfl, hl.ne, rfl⟩
    · exact ⟨_, len, 0, 0, g2, rfl, hl.ne', rfl⟩
  · rintro _ (rfl | rfl) l p hg hp
    · rw [g1] at hg; cases hg
      rw [level_local hl] at hp
      have : p = ⟨p.x, 4⟩ := by ext <;> simp at hp ⊢; linarith
      rw [level_heading hl, this]
      exact (twoWay_closest hl p.x).1
    · rw [g2] at hg; cases hg
      rw [back_local hl] at hp
      have : p = ⟨p.x, 0⟩ := by ext <;> simp at hp ⊢; exact hp
      rw [back_heading hl, this]
      exact (twoWay_closest hl p.x).2
  · rintro _ (rfl | rfl) _ (rfl | rfl) hne l m p hgl hgm hp
    · exact absurd rfl hne
    · rw [g1] at hgl; cases hgl
      rw [g2] at hgm; cases hgm
      rw [level_local hl] at hp
      rw [back_local hl]
      simp only at hp ⊢
      have : 0 - p.y = -4 := by linarith
      rw [this]; norm_num
    · rw [g2] at hgl; cases hgl
      rw [g1] at hgm; cases hgm
      rw [back_local hl] at hp
      rw [level_local hl]
      simp only at hp ⊢
      have : p.y - 4 = -4 := by linarith
      rw [this]; norm_num
    · exact absurd rfl hne

/-! ## The hypotheses are met -/

namespace Lanes

/-- A traffic vehicle on the right lane of the two-way road, and one on the lane of the oncoming traffic. -/
def rightCar (uid : ℕ) (x speed target : ℝ) : Vehicle :=
  { uid := uid, kind := .idm, pos := ⟨x, 4⟩, heading := 0, speed := speed, laneIndex := ⟨"a", "b", 1⟩, lane := levelLane 0 10000 4
    targetLane := ⟨"a", "b", 1⟩, targetSpeed := target, enableLaneChange := false }

def oncomingCar (uid : ℕ) (x speed target : ℝ) : Vehicle :=
  { uid := uid, kind := .idm, pos := ⟨x, 0⟩, heading := Real.pi, speed := speed, laneIndex := ⟨"b", "a", 0⟩, lane := backLane 0 10000 0
    targetLane := ⟨"b", "a", 0⟩, targetSpeed := target, enableLaneChange := false }

/-- Two vehicles driving to the right, the second one faster, before an obstacle; two oncoming vehicles, with an obstacle behind; a landmark. -/
def road : Road :=
  { network := twoWayNet 10000, rng := ⟨fun _ => 0, fun _ => 0, 0, 0⟩
    vehicles := [rightCar 0 200 20 25, rightCar 1 120 28 30, oncomingCar 2 300 22 25, oncomingCar 3 400 25 28]
    objects := [{ uid := 4, kind := .obstacle, pos := ⟨400, 4⟩ }, { uid := 5, kind := .landmark, pos := ⟨210, 3⟩ }, { uid := 6, kind := .obstacle, pos := ⟨500, 0⟩ }] }

theorem get_right : (twoWayNet 10000).getLane ⟨"a", "b", 1⟩ = .ok (levelLane 0 10000 4) :=
  getLane_of_hasLane (k := 1) (twoWayNet_wf _).toIsPyGraph rfl (twoWayNet_lanes.2 (.inl ⟨rfl, rfl, .inr ⟨rfl, rfl⟩⟩))

theorem get_back : (twoWayNet 10000).getLane ⟨"b", "a", 0⟩ = .ok (backLane 0 10000 0) :=
  getLane_of_hasLane (k := 0) (twoWayNet_wf _).toIsPyGraph rfl (twoWayNet_lanes.2 (.inr ⟨rfl, rfl, rfl, rfl⟩))

theorem right_drives {uid : ℕ} {x v T : ℝ} (h1 : v ≤ T) (h2 : T ≤ 30) (h3 : 2 ≤ T) :
    StaysInLane (1 / 15) (rightCar uid x v T) ∧ OnLanes (twoWayNet 10000) {⟨"a", "b", 1⟩, ⟨"b", "a", 0⟩} (rightCar uid x v T) := by
  have hm : OnMiddle ⟨"a", "b", 1⟩ (levelLane 0 10000 4) (rightCar uid x v T) :=
    ⟨by simp [rightCar, level_local (show (0 : ℝ) < 10000 by norm_num)], by rw [level_heading (by norm_num)]; rfl, rfl, rfl⟩
  exact ⟨⟨{ hm with kind := rfl, targetLane := rfl, notSpeeding := h1, limit := h2, positive := by change 1 / 100 < T; linarith,
                    notTiny := by change _ ≤ T; linarith }, rfl⟩, .inl rfl, get_right, hm⟩

theorem oncoming_drives {uid : ℕ} {x v T : ℝ} (h1 : v ≤ T) (h2 : T ≤ 30) (h3 : 2 ≤ T) :
    StaysInLane (1 / 15) (oncomingCar uid x v T) ∧ OnLanes (twoWayNet 10000) {⟨"a", "b", 1⟩, ⟨"b", "a", 0⟩} (oncomingCar uid x v T) := by
  have hm : OnMiddle ⟨"b", "a", 0⟩ (backLane 0 10000 0) (oncomingCar uid x v T) :=
    ⟨by simp [oncomingCar, back_local (show (0 : ℝ) < 10000 by norm_num)], by rw [back_heading (by norm_num)]; rfl, rfl, rfl⟩
  exact ⟨⟨{ hm with kind := rfl, targetLane := rfl, notSpeeding := h1, limit := h2, positive := by change 1 / 100 < T; linarith,
                    notTiny := by change _ ≤ T; linarith }, rfl⟩, .inr rfl, get_back, hm⟩

theorem right_station (uid uid' : ℕ) (x y v v' T T' : ℝ) : station (rightCar uid x v T).lane (rightCar uid' y v' T') = y := by
  simp [station, rightCar, level_local (show (0 : ℝ) < 10000 by norm_num)]

theorem oncoming_station (uid uid' : ℕ) (x y v v' T T' : ℝ) : station (oncomingCar uid x v T).lane (oncomingCar uid' y v' T') = 10000 - y := by
  simp [station, oncomingCar, back_local (show (0 : ℝ) < 10000 by norm_num)]

theorem road_gaps : KeepDistances (1 / 15) road.vehicles := by
  intro j k v w hjk hv hw hvw
  rcases j with _ | _ | _ | _ | j <;> rcases k with _ | _ | _ | _ | k <;> simp [road] at hv hw <;> try (exact absurd rfl hjk)
  all_goals subst hv; subst hw
  all_goals obtain ⟨h1, h2⟩ := hvw
  all_goals first
    | (rw [right_station, right_station] at h2 ⊢; first | (exfalso; linarith) | (norm_num [safeDistance, rightCar]))
    | (rw [oncoming_station, oncoming_station] at h2 ⊢; first | (exfalso; linarith) | (norm_num [safeDistance, oncomingCar]))
    | exact absurd h1 (by simp [rightCar, oncomingCar])

theorem road_placed : ObstaclesPlaced road.network {⟨"a", "b", 1⟩, ⟨"b", "a", 0⟩} road.objects := by
  have h0 : (0 : ℝ) < 10000 := by norm_num
  have l1 : (levelLane 0 10000 4).length = 10000 - 0 := level_length h0
  have l2 : (backLane 0 10000 0).length = 10000 - 0 := back_length h0
  intro o ho hk
  simp only [road, List.mem_cons, List.not_mem_nil, or_false] at ho
  rcases ho with rfl | rfl | rfl
  · refine ⟨rfl, ?_⟩
    rintro _ (rfl | rfl) l hl
    · change (twoWayNet 10000).getLane _ = _ at hl
      rw [get_right] at hl; cases hl
      left; unfold stationOf; rw [level_local h0, l1]; norm_num
    · change (twoWayNet 10000).getLane _ = _ at hl
      rw [get_back] at hl; cases hl
      right; rw [back_local h0]; norm_num
  · cases hk
  · refine ⟨rfl, ?_⟩
    rintro _ (rfl | rfl) l hl
    · change (twoWayNet 10000).getLane _ = _ at hl
      rw [get_right] at hl; cases hl
      right; rw [level_local h0]; norm_num
    · change (twoWayNet 10000).getLane _ = _ at hl
      rw [get_back] at hl; cases hl
      left; unfold stationOf; rw [back_local h0, l2]; norm_num

theorem road_all {P : Vehicle → Prop} (h : P (rightCar 0 200 20 25) ∧ P (rightCar 1 120 28 30) ∧ P (oncomingCar 2 300 22 25) ∧ P (oncomingCar 3 400 25 28)) :
    ∀ v ∈ road.vehicles, P v := by
  intro v hv
  simp only [road, List.mem_cons, List.not_mem_nil, or_false] at hv
  rcases hv with rfl | rfl | rfl | rfl
  exacts [h.1, h.2.1, h.2.2.1, h.2.2.2]

theorem road_off : KeepOffObstacles (1 / 15) road.vehicles road.objects := by
  have h0 : (0 : ℝ) < 10000 := by norm_num
  have hr : ∀ u x v T (o : RoadObject), stationOf (rightCar u x v T).lane o = o.pos.x ∧ (StandsOn (rightCar u x v T).lane o → o.pos.y = 4) := by
    intro u x v T o
    refine ⟨by simp [stationOf, rightCar, level_local h0], fun h => ?_⟩
    have := h.2
    simp only [rightCar, level_local h0] at this
    linarith
  have hl : ∀ u x v T (o : RoadObject), stationOf (oncomingCar u x v T).lane o = 10000 - o.pos.x ∧ (StandsOn (oncomingCar u x v T).lane o → o.pos.y = 0) := by
    intro u x v T o
    refine ⟨by simp [stationOf, oncomingCar, back_local h0], fun h => ?_⟩
    have := h.2
    simp only [oncomingCar, back_local h0] at this
    linarith
  refine road_all ⟨?_, ?_, ?_, ?_⟩ <;> intro o ho hso <;> simp only [road, List.mem_cons, List.not_mem_nil, or_false] at ho <;> rcases ho with rfl | rfl | rfl
  all_goals first
    | (have := (hr _ _ _ _ _).2 hso; norm_num at this; done)
    | (have := (hl _ _ _ _ _).2 hso; norm_num at this; done)
    | (rw [right_station, (hr _ _ _ _ _).1]; norm_num [safeDistance, rightCar]; done)
    | (rw [oncoming_station, (hl _ _ _ _ _).1]; norm_num [safeDistance, oncomingCar]; done)
    | exact absurd hso.1 (by simp)

theorem road_healthy : Healthy road := by
  have r : ∀ u x v T, Attached road.network (rightCar u x v T) ∧ RouteExists road.network (rightCar u x v T).route := fun u x v T =>
    ⟨⟨⟨1, _, rfl, twoWayNet_lanes.2 (.inl ⟨rfl, rfl, .inr ⟨rfl, rfl⟩⟩)⟩, get_right, ⟨1, _, rfl, twoWayNet_lanes.2 (.inl ⟨rfl, rfl, .inr ⟨rfl, rfl⟩⟩)⟩⟩,
      by simp [RouteExists, rightCar]⟩
  have o : ∀ u x v T, Attached road.network (oncomingCar u x v T) ∧ RouteExists road.network (oncomingCar u x v T).route := fun u x v T =>
    ⟨⟨⟨0, _, rfl, twoWayNet_lanes.2 (.inr ⟨rfl, rfl, rfl, rfl⟩)⟩, get_back, ⟨0, _, rfl, twoWayNet_lanes.2 (.inr ⟨rfl, rfl, rfl, rfl⟩)⟩⟩,
      by simp [RouteExists, oncomingCar]⟩
  refine ⟨twoWayNet_wf _, road_all ⟨r _ _ _ _, r _ _ _ _, o _ _ _ _, o _ _ _ _⟩, ?_, ?_⟩
  · simp [road, rightCar, oncomingCar, VKind.isLinear]
  · intro h; cases h

theorem road_run {s : ℕ → Road} (h0 : s 0 = road) (hs : ∀ t, frame {} (1 / 15) (s t) [] = .ok (s (t + 1))) (n : ℕ) (hn : n ≤ 50) :
    ∀ t ≤ n, (Flow (1 / 15) {⟨"a", "b", 1⟩, ⟨"b", "a", 0⟩} ∅ (s t) ∧ ObstaclesUntouched (s 0).objects (s t).objects) ∧ (∀ v ∈ (s t).vehicles, BeforeEnd v ∧ Leads v) := by
  have hn' : (n : ℝ) ≤ 50 := by exact_mod_cast hn
  refine horizon {} (1 / 15) ⟨rfl, rfl, rfl⟩ (by norm_num) (by norm_num) _ s n (fun t _ => hs t) (by rw [h0]; rfl) (by rw [h0]; exact road_placed)
    (by rw [h0]; simp [road, rightCar, oncomingCar]) (by rw [h0]; exact twoWay_lanes_parallel (by norm_num)) ?_ ?_ (by rw [h0]; exact road_gaps)
    (by rw [h0]; exact road_off) ?_ ?_ ?_
  · rw [h0]; exact road_all ⟨(right_drives (by norm_num) (by norm_num) (by norm_num)).2, (right_drives (by norm_num) (by norm_num) (by norm_num)).2,
      (oncoming_drives (by norm_num) (by norm_num) (by norm_num)).2, (oncoming_drives (by norm_num) (by norm_num) (by norm_num)).2⟩
  · rw [h0]; exact road_all ⟨(right_drives (by norm_num) (by norm_num) (by norm_num)).1, (right_drives (by norm_num) (by norm_num) (by norm_num)).1,
      (oncoming_drives (by norm_num) (by norm_num) (by norm_num)).1, (oncoming_drives (by norm_num) (by norm_num) (by norm_num)).1⟩
  · rw [h0]; exact road_all ⟨rfl, rfl, rfl, rfl⟩
  · rw [h0]; refine road_all ⟨?_, ?_, ?_, ?_⟩ <;> simp only [rightCar, oncomingCar] <;> linarith
  · rw [h0]
    refine road_all ⟨?_, ?_, ?_, ?_⟩
    · rw [right_station, show (rightCar 0 200 20 25).lane.length = 10000 - 0 from level_length (by norm_num)]; constructor <;> linarith
    · rw [right_station, show (rightCar 1 120 28 30).lane.length = 10000 - 0 from level_length (by norm_num)]; constructor <;> linarith
    · rw [oncoming_station, show (oncomingCar 2 300 22 25).lane.length = 10000 - 0 from back_length (by norm_num)]; constructor <;> linarith
    · rw [oncoming_station, show (oncomingCar 3 400 25 28).lane.length = 10000 - 0 from back_length (by norm_num)]; constructor <;> linarith

end Lanes

/-- The hypotheses of `lane_traffic_safe` (and of `lane_traffic_horizon`) hold of four vehicles on the two-way road with obstacles, for 50 frames at 15 frames per second. -/
example (n : ℕ) (hn : n ≤ 50) : ∃ s : ℕ → Road, s 0 = Lanes.road ∧ LaneTraffic {} (1 / 15) ∅ s (fun _ => []) n ∧
    KeepDistances (1 / 15) (s n).vehicles ∧ ∀ v ∈ (s n).vehicles, v.crashed = false := by
  obtain ⟨s, h0, hs⟩ := runs_for_ever {} (1 / 15) Lanes.road Lanes.road_healthy rfl
  have hr := Lanes.road_run h0 hs n hn
  have f0 := (hr 0 (by omega)).1.1
  have hl : LaneTraffic {} (1 / 15) ∅ s (fun _ => []) n :=
    { run := fun t _ => hs t, commanded := by simp, unregulated := by rw [h0]; rfl
      ids := f0.ids, beforeEnd := fun t ht v hv => ((hr t ht).2 v hv).1
      forwards := fun t ht k v _ hv => ((hr t ht).2 v (List.mem_of_getElem? hv)).2, agentsAdvance := by simp, agentsKeep := by simp, agentsKeepOff := by simp }
  obtain ⟨a, _, _, _, b⟩ := lane_traffic_safe {} (1 / 15) ⟨rfl, rfl, rfl⟩ (by norm_num) (by norm_num) _ ∅ s _ n hl f0.net f0.objects f0.on f0.traffic f0.gaps f0.off f0.sound
  exact ⟨s, h0, hl, a, fun v hv => (b v hv).1⟩

namespace Lanes

/-- One vehicle on each lane, before an obstacle on each. -/
def blocked : Road :=
  { network := twoWayNet 10000, rng := ⟨fun _ => 0, fun _ => 0, 0, 0⟩
    vehicles := [rightCar 0 200 28 30, oncomingCar 1 700 25 25]
    objects := [{ uid := 4, kind := .obstacle, pos := ⟨400, 4⟩ }, { uid := 5, kind := .landmark, pos := ⟨210, 3⟩ }, { uid := 6, kind := .obstacle, pos := ⟨500, 0⟩ }] }

end Lanes

/-- The hypotheses of `obstacle_never_hit` are met: for ever, two vehicles do not hit the obstacles on their ways. -/
example : ∃ s : ℕ → Road, s 0 = Lanes.blocked ∧ (∀ t, frame {} (1 / 15) (s t) [] = .ok (s (t + 1))) ∧ ∀ n, ∀ v ∈ (s n).vehicles, v.crashed = false := by
  have h0 : (0 : ℝ) < 10000 := by norm_num
  have hall : ∀ {P : Vehicle → Prop}, P (Lanes.rightCar 0 200 28 30) ∧ P (Lanes.oncomingCar 1 700 25 25) → ∀ v ∈ Lanes.blocked.vehicles, P v := by
    intro P h v hv
    simp only [Lanes.blocked, List.mem_cons, List.not_mem_nil, or_false] at hv
    rcases hv with rfl | rfl
    exacts [h.1, h.2]
  have hhealthy : Healthy Lanes.blocked := by
    refine ⟨twoWayNet_wf _, hall ⟨⟨⟨⟨1, _, rfl, twoWayNet_lanes.2 (.inl ⟨rfl, rfl, .inr ⟨rfl, rfl⟩⟩)⟩, Lanes.get_right,
        ⟨1, _, rfl, twoWayNet_lanes.2 (.inl ⟨rfl, rfl, .inr ⟨rfl, rfl⟩⟩)⟩⟩, by simp [RouteExists, Lanes.rightCar]⟩,
        ⟨⟨⟨0, _, rfl, twoWayNet_lanes.2 (.inr ⟨rfl, rfl, rfl, rfl⟩)⟩, Lanes.get_back, ⟨0, _, rfl, twoWayNet_lanes.2 (.inr ⟨rfl, rfl, rfl, rfl⟩)⟩⟩,
        by simp [RouteExists, Lanes.oncomingCar]⟩⟩, ?_, ?_⟩
    · simp [Lanes.blocked, Lanes.rightCar, Lanes.oncomingCar, VKind.isLinear]
    · intro h; cases h
  have hr : ∀ (o : RoadObject), stationOf (Lanes.rightCar 0 200 28 30).lane o = o.pos.x ∧ (StandsOn (Lanes.rightCar 0 200 28 30).lane o → o.pos.y = 4) := by
    intro o
    refine ⟨by simp [stationOf, Lanes.rightCar, level_local h0], fun h => ?_⟩
    have := h.2
    simp only [Lanes.rightCar, level_local h0] at this
    linarith
  have hl : ∀ (o : RoadObject), stationOf (Lanes.oncomingCar 1 700 25 25).lane o = 10000 - o.pos.x ∧ (StandsOn (Lanes.oncomingCar 1 700 25 25).lane o → o.pos.y = 0) := by
    intro o
    refine ⟨by simp [stationOf, Lanes.oncomingCar, back_local h0], fun h => ?_⟩
    have := h.2
    simp only [Lanes.oncomingCar, back_local h0] at this
    linarith
  obtain ⟨s, hs0, hs⟩ := runs_for_ever {} (1 / 15) Lanes.blocked hhealthy rfl
  refine ⟨s, hs0, hs, fun n v hv => ?_⟩
  refine ((obstacle_never_hit {} (1 / 15) ⟨rfl, rfl, rfl⟩ (by norm_num) (by norm_num) {⟨"a", "b", 1⟩, ⟨"b", "a", 0⟩} s hs ?_ ?_ ?_ ?_ ?_ ?_ ?_ ?_ ?_ ?_ n).2 v hv).1
  all_goals rw [hs0]
  · rfl
  · exact Lanes.road_placed
  · simp [Lanes.blocked, Lanes.rightCar, Lanes.oncomingCar]
  · exact twoWay_lanes_parallel h0
  · exact hall ⟨(Lanes.right_drives (by norm_num) (by norm_num) (by norm_num)).2, (Lanes.oncoming_drives (by norm_num) (by norm_num) (by norm_num)).2⟩
  · exact hall ⟨(Lanes.right_drives (by norm_num) (by norm_num) (by norm_num)).1, (Lanes.oncoming_drives (by norm_num) (by norm_num) (by norm_num)).1⟩
  · simp [Lanes.blocked, Lanes.rightCar, Lanes.oncomingCar]
  · refine hall ⟨⟨⟨⟨4, .obstacle, ⟨400, 4⟩, 0, 0, false⟩, by simp [Lanes.blocked], ⟨rfl, by simp [Lanes.rightCar, level_local h0]⟩, ?_, ?_⟩, ?_⟩,
      ⟨⟨⟨6, .obstacle, ⟨500, 0⟩, 0, 0, false⟩, by simp [Lanes.blocked], ⟨rfl, by simp [Lanes.oncomingCar, back_local h0]⟩, ?_, ?_⟩, ?_⟩⟩
    · rw [Lanes.right_station, (hr _).1]; norm_num
    · rw [(hr _).1, show (Lanes.rightCar 0 200 28 30).lane.length = 10000 - 0 from level_length h0]; norm_num
    · intro o ho hso
      have hy := (hr o).2 hso
      rw [Lanes.right_station, (hr o).1]
      simp only [Lanes.blocked, List.mem_cons, List.not_mem_nil, or_false] at ho
      rcases ho with rfl | rfl | rfl <;> first | (exfalso; norm_num at hy; done) | norm_num
    · rw [Lanes.oncoming_station, (hl _).1]; norm_num
    · rw [(hl _).1, show (Lanes.oncomingCar 1 700 25 25).lane.length = 10000 - 0 from back_length h0]; norm_num
    · intro o ho hso
      have hy := (hl o).2 hso
      rw [Lanes.oncoming_station, (hl o).1]
      simp only [Lanes.blocked, List.mem_cons, List.not_mem_nil, or_false] at ho
      rcases ho with rfl | rfl | rfl <;> first | (exfalso; norm_num at hy; done) | norm_num
  · refine hall ⟨fun o ho hso => ?_, fun o ho hso => ?_⟩
    · have hy := (hr o).2 hso
      rw [Lanes.right_station, (hr o).1]
      simp only [Lanes.blocked, List.mem_cons, List.not_mem_nil, or_false] at ho
      rcases ho with rfl | rfl | rfl <;> first | (exfalso; norm_num at hy; done) | norm_num [safeDistance, Lanes.rightCar]
    · have hy := (hl o).2 hso
      rw [Lanes.oncoming_station, (hl o).1]
      simp only [Lanes.blocked, List.mem_cons, List.not_mem_nil, or_false] at ho
      rcases ho with rfl | rfl | rfl <;> first | (exfalso; norm_num at hy; done) | norm_num [safeDistance, Lanes.oncomingCar]
  · exact hall ⟨rfl, rfl⟩

end HighwayEnv.Props
