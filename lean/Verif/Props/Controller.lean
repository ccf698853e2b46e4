import Verif.Lemmas.Invariant
import Verif.Props.Kinematics
import Verif.Spec.Sample

/-!
# Properties of controlled vehicles (C27 – C33) and absence of exceptions (C75)
-/

noncomputable section
namespace HighwayEnv.Props
open Spec Classical Graph

/-! ## C27 — the target lane always exists; exact effect of lane-change commands -/

/-- A newly built vehicle is attached to the network, for any class, position, heading and speed, provided an explicitly given target
lane exists. -/
theorem construction_attached (G : Globals) (g : Graph) (uid : ℕ) (kind : VKind) (pos : Vec2) (heading speed : ℝ)
    (tl : Option LaneIndex) (ts : Option ℝ) (route : Option (List RouteStep)) (e : Bool) (tm : Option ℝ)
    (htl : ∀ i, tl = some i → ValidIndex g i) (v : Vehicle)
    (h : Vehicle.mk' G g uid kind pos heading speed tl ts route e tm = .ok v) : Attached g v := by
  unfold Vehicle.mk' at h
  obtain ⟨i, hi, h⟩ := bind_ok h
  obtain ⟨l, hl, h⟩ := bind_ok h
  cases h
  have hv := closest_spec hi
  refine ⟨hv, hl, ?_⟩
  cases tl with
  | none => exact hv
  | some j => exact htl j rfl

/-- The next state of the target lane under a high-level action, for a vehicle driven by meta-actions (`ControlledVehicle`,
`MDPVehicle`): first the road is followed to a lane `t0`, then the command is applied to `t0`. -/
theorem command_lane (G : Globals) (r : Road) (hg : WellFormed r.network) (v v' : Vehicle) (a : VAction) (rng' : Rng)
    (hk : v.kind = .controlled ∨ v.kind = .mdp) (hv : Attached r.network v) (h : v.act G r a = .ok (v', rng')) :
    ∃ t0, ValidIndex r.network t0 ∧ Continues r.network v.pos v.targetLane t0 ∧
      v'.targetLane = laneAfter r.network v.pos a t0 := by
  unfold Vehicle.act at h
  rcases hk with hk | hk <;> rw [hk] at h
  · obtain ⟨t0, route, t, ts, st, rfl, h1, h2, h3, h4, h5, h6, h7⟩ := Vehicle.controlledAct_ok hg hv.target h
    exact ⟨t0, h2, h1, h6⟩
  · dsimp only at h
    unfold Vehicle.mdpAct at h
    split at h
    · obtain ⟨t0, route, t, ts, st, rfl, h1, h2, h3, h4, h5, h6, h7⟩ :=
        Vehicle.controlledAct_ok (v := v.setSpeedIndex G _) hg hv.target h
      exact ⟨t0, h2, h1, h6⟩
    · obtain ⟨t0, route, t, ts, st, rfl, h1, h2, h3, h4, h5, h6, h7⟩ :=
        Vehicle.controlledAct_ok (v := v.setSpeedIndex G _) hg hv.target h
      exact ⟨t0, h2, h1, h6⟩
    · obtain ⟨t0, route, t, ts, st, rfl, h1, h2, h3, h4, h5, h6, h7⟩ := Vehicle.controlledAct_ok hg hv.target h
      exact ⟨t0, h2, h1, h6⟩

/-- A traffic vehicle keeps the lane obtained by following the road, or gives up towards its current lane (same road), or changes to
a neighbouring lane of its current one that it can enter. -/
theorem traffic_lane (G : Globals) (r : Road) (hg : WellFormed r.network) (v v' : Vehicle) (a : VAction) (rng' : Rng)
    (hk : v.kind.isIDM = true) (hc : v.crashed = false) (hv : Attached r.network v) (h : v.act G r a = .ok (v', rng')) :
    ∃ t0, ValidIndex r.network t0 ∧ Continues r.network v.pos v.targetLane t0 ∧
      (v'.targetLane = t0 ∨
        (v'.targetLane = v.laneIndex ∧ v.laneIndex.src = t0.src ∧ v.laneIndex.dst = t0.dst) ∨
        (t0 = v.laneIndex ∧ v'.targetLane.src = v.laneIndex.src ∧ v'.targetLane.dst = v.laneIndex.dst ∧
          (v'.targetLane.id = v.laneIndex.id + 1 ∨ v'.targetLane.id = v.laneIndex.id - 1) ∧
          CanEnter r.network v'.targetLane.src v'.targetLane.dst v'.targetLane.id v.pos)) := by
  have h' : v.idmAct G r = .ok (v', rng') := by
    unfold Vehicle.act at h
    revert hk h
    cases v.kind <;> simp [VKind.isIDM]
  obtain ⟨t0, route, t, tm, st, acc, rfl, h1, h2, h3, h4, h5, h6, h7, h8⟩ := Vehicle.idmAct_ok hg hv.here hv.target hc h'
  refine ⟨t0, h2, h1, ?_⟩
  rcases h8 with h8 | h8 | ⟨h8, _, _, h9⟩
  · exact .inl h8
  · exact .inr (.inl h8)
  · exact .inr (.inr ⟨h8, h9⟩)

/-- What `act` can do to any vehicle: body, route and target lane. -/
private theorem act_attached {G : Globals} {r : Road} (hg : WellFormed r.network) {v v' : Vehicle} {a : VAction} {rng' : Rng}
    (hv : Attached r.network v) (h : v.act G r a = .ok (v', rng')) :
    Attached r.network v' ∧ (v'.route.getD [] <:+ v.route.getD []) := by
  have hb := Vehicle.act_body h
  have key : ValidIndex r.network v'.targetLane ∧ (v'.route.getD [] <:+ v.route.getD []) := by
    unfold Vehicle.act at h
    split at h
    · split at h <;> cases h <;> exact ⟨hv.target, List.suffix_refl _⟩
    · split at h <;> cases h <;> exact ⟨hv.target, List.suffix_refl _⟩
    · obtain ⟨t0, route, t, ts, st, rfl, h1, h2, h3, h4, h5, h6, h7⟩ := Vehicle.controlledAct_ok hg hv.target h
      exact ⟨h3, h4⟩
    · unfold Vehicle.mdpAct at h
      split at h
      · obtain ⟨t0, route, t, ts, st, rfl, h1, h2, h3, h4, h5, h6, h7⟩ :=
          Vehicle.controlledAct_ok (v := v.setSpeedIndex G _) hg hv.target h
        exact ⟨h3, h4⟩
      · obtain ⟨t0, route, t, ts, st, rfl, h1, h2, h3, h4, h5, h6, h7⟩ :=
          Vehicle.controlledAct_ok (v := v.setSpeedIndex G _) hg hv.target h
        exact ⟨h3, h4⟩
      · obtain ⟨t0, route, t, ts, st, rfl, h1, h2, h3, h4, h5, h6, h7⟩ := Vehicle.controlledAct_ok hg hv.target h
        exact ⟨h3, h4⟩
    · rcases hc : v.crashed
      · obtain ⟨t0, route, t, tm, st, acc, rfl, h1, h2, h3, h4, h5, h6, h7, h8⟩ :=
          Vehicle.idmAct_ok hg hv.here hv.target hc h
        exact ⟨h3, h4⟩
      · unfold Vehicle.idmAct at h
        rw [if_pos hc] at h
        cases h; exact ⟨hv.target, List.suffix_refl _⟩
  refine ⟨⟨?_, ?_, key.1⟩, key.2⟩
  · rw [hb.laneIndex]; exact hv.here
  · rw [hb.laneIndex, hb.lane]; exact hv.lane

theorem step_attached {g : Graph} {rec : Bool} {dt : ℝ} {v v' : Vehicle}
    (hv : Attached g v) (h : v.step g rec dt = .ok v') : Attached g v' ∧ v'.route = v.route := by
  have hm := Vehicle.step_mind h
  obtain ⟨i, l, hist, hi, hl, e⟩ := Vehicle.step_ok h
  refine ⟨⟨?_, ?_, ?_⟩, hm.route⟩
  · rw [e]; exact closest_spec hi
  · rw [e]; exact hl
  · rw [hm.targetLane]; exact hv.target

private theorem attached_kept (G : Globals) (g : Graph) (hg : WellFormed g) :
    Road.Kept G g (fun v => Attached g v ∧ RouteExists g v.route) where
  act r v v' a rng' e hv h := by
    subst e
    obtain ⟨h1, h2⟩ := act_attached hg hv.1 h
    exact ⟨h1, fun s hs => hv.2 s (h2.subset hs)⟩
  release v v' hv h := by
    obtain ⟨_, _, _, _, rfl⟩ := Road.release_frame h
    exact ⟨⟨hv.1.here, hv.1.lane, hv.1.target⟩, hv.2⟩
  markYield v hv := by
    obtain ⟨_, _, _, _, e⟩ := Road.markYield_frame v
    rw [e]
    exact ⟨⟨hv.1.here, hv.1.lane, hv.1.target⟩, hv.2⟩
  step rec dt v v' hv h := by
    obtain ⟨h1, h2⟩ := step_attached hv.1 h
    exact ⟨h1, by rw [h2]; exact hv.2⟩
  collide v s hv _ := ⟨⟨hv.1.here, hv.1.lane, hv.1.target⟩, hv.2⟩

/-- Along every history of a road (any actions, decisions, collisions, regulation passes, durations), every vehicle stays attached
to the network: in particular its target lane exists.  Routes keep going through existing roads. -/
theorem always_attached (G : Globals) (r r' : Road) (hg : WellFormed r.network)
    (h0 : ∀ v ∈ r.vehicles, Attached r.network v ∧ RouteExists r.network v.route) (h : RoadRun G r r') :
    r'.network = r.network ∧ ∀ v ∈ r'.vehicles, Attached r.network v ∧ RouteExists r.network v.route :=
  (attached_kept G r.network hg).run h h0

example : Attached Sample.net (Sample.car 0 .mdp 10 0 20) ∧ WellFormed Sample.net ∧
    RouteExists Sample.net (Sample.car 0 .mdp 10 0 20).route :=
  ⟨⟨⟨0, _, rfl, Sample.net_has0⟩, getLane_of_hasLane (k := 0) Sample.net_py rfl Sample.net_has0, ⟨0, _, rfl, Sample.net_has0⟩⟩,
    Sample.net_wf, by simp [RouteExists, Sample.car]⟩

/-! ## C28 — steering commands are bounded -/

private theorem steering_kept (G : Globals) (g : Graph) :
    Road.Kept G g (fun v => v.kind.isControlled = true → |v.steering| ≤ Real.pi / 3) where
  act r v v' a rng' e hv h hk := by
    have hb := Vehicle.act_body h
    have hclip : ∀ x, |npClip x (-Vehicle.MAX_STEERING_ANGLE) Vehicle.MAX_STEERING_ANGLE| ≤ Real.pi / 3 :=
      fun x => abs_npClip (by unfold Vehicle.MAX_STEERING_ANGLE; positivity)
    have hc : ∀ (w : Vehicle) rng a, w.controlledAct r.network rng a = .ok (v', rng') → |v'.steering| ≤ Real.pi / 3 := by
      intro w rng a h
      unfold Vehicle.controlledAct at h
      obtain ⟨⟨v1, rng1⟩, h1, h⟩ := bind_ok h
      obtain ⟨v2, h2, h⟩ := bind_ok h
      obtain ⟨st, h3, h⟩ := bind_ok h
      cases h
      exact hclip _
    rw [hb.kind] at hk
    have hv := hv hk
    unfold Vehicle.act at h
    split at h
    · rename_i e; rw [e] at hk; cases hk
    · rename_i e; rw [e] at hk; cases hk
    · exact hc _ _ _ h
    · unfold Vehicle.mdpAct at h
      split at h <;> exact hc _ _ _ h
    · unfold Vehicle.idmAct at h
      split at h
      · cases h; exact hv
      · obtain ⟨p, _, h⟩ := bind_ok h
        obtain ⟨p1, h1, h⟩ := bind_ok h
        obtain ⟨v2, h2, h⟩ := bind_ok h
        obtain ⟨st, h3, h⟩ := bind_ok h
        obtain ⟨acc, h4, h⟩ := bind_ok h
        cases h
        exact hclip _
  release v v' hv h hk := by
    obtain ⟨_, _, _, _, rfl⟩ := Road.release_frame h
    exact hv hk
  markYield v hv hk := by
    obtain ⟨_, _, _, _, e⟩ := Road.markYield_frame v
    rw [e] at hk ⊢
    exact hv hk
  step rec dt v v' hv h hk := by
    have hm := Vehicle.step_mind h
    rw [hm.kind] at hk
    have hv := hv hk
    have hnb : v.kind ≠ .bicycle := by intro e; rw [e] at hk; cases hk
    rw [(step_steering hnb h).1]
    unfold executedSteering
    split
    · rw [abs_zero]; positivity
    · exact hv
  collide v s hv _ hk := hv hk

/-- In every reachable state, the steering command of a controlled vehicle (basic, discrete-action or traffic class, crashed or not)
lies in `[-π/3, π/3]`. -/
theorem steering_bounded (G : Globals) (r r' : Road) (h0 : ∀ v ∈ r.vehicles, v.kind.isControlled = true → |v.steering| ≤ Real.pi / 3)
    (h : RoadRun G r r') : ∀ v ∈ r'.vehicles, v.kind.isControlled = true → |v.steering| ≤ Real.pi / 3 :=
  ((steering_kept G r.network).run h h0).2

/-- New vehicles steer straight, so the hypothesis of `steering_bounded` holds at construction. -/
theorem construction_straight (G : Globals) (g : Graph) (uid : ℕ) (kind : VKind) (pos : Vec2) (heading speed : ℝ)
    (tl : Option LaneIndex) (ts : Option ℝ) (route : Option (List RouteStep)) (e : Bool) (tm : Option ℝ) (v : Vehicle)
    (h : Vehicle.mk' G g uid kind pos heading speed tl ts route e tm = .ok v) : v.steering = 0 ∧ v.acceleration = 0 := by
  unfold Vehicle.mk' at h
  obtain ⟨i, hi, h⟩ := bind_ok h
  obtain ⟨l, hl, h⟩ := bind_ok h
  cases h
  exact ⟨rfl, rfl⟩

/-! ## C30 – C32 — the ladder of target speeds -/

/-- The `k`-th of `n` equally spaced speeds from `lo` to `hi` (just `lo` when there is only one). -/
def level (G : Globals) (k : Int) : ℝ :=
  if 1 < G.speedCount then G.speedMin + k * ((G.speedMax - G.speedMin) / (G.speedCount - 1)) else G.speedMin

theorem indexToSpeed_level (G : Globals) (k : Int) : Vehicle.indexToSpeed G k = level G k := by
  unfold Vehicle.indexToSpeed level
  split
  · ring
  · rfl

/-- The discrete-action vehicle's speed index is one of `0 … SPEED_COUNT - 1` and its target is the corresponding level. -/
def OnLadder (G : Globals) (v : Vehicle) : Prop :=
  0 ≤ v.speedIndex ∧ v.speedIndex < G.speedCount ∧ v.targetSpeed = level G v.speedIndex

private theorem clip_range {G : Globals} (hn : 0 < G.speedCount) (i : Int) :
    0 ≤ npClipInt i 0 ((G.speedCount : Int) - 1) ∧ npClipInt i 0 ((G.speedCount : Int) - 1) < G.speedCount := by
  have h1 : 0 ≤ npClipInt i 0 ((G.speedCount : Int) - 1) := le_npClipInt (by omega)
  have h2 : npClipInt i 0 ((G.speedCount : Int) - 1) ≤ (G.speedCount : Int) - 1 := npClipInt_le
  exact ⟨h1, by omega⟩

/-- The index of any speed is one of `0 … SPEED_COUNT - 1`. -/
theorem speedToIndex_range {G : Globals} (hn : 0 < G.speedCount) (s : ℝ) :
    0 ≤ Vehicle.speedToIndex G s ∧ Vehicle.speedToIndex G s < G.speedCount := clip_range hn _

/-- C30, start: a discrete-action vehicle is built on the ladder, whatever its speed and requested target. -/
theorem construction_ladder (G : Globals) (hn : 0 < G.speedCount) (g : Graph) (uid : ℕ) (pos : Vec2) (heading speed : ℝ)
    (tl : Option LaneIndex) (ts : Option ℝ) (route : Option (List RouteStep)) (e : Bool) (tm : Option ℝ) (v : Vehicle)
    (h : Vehicle.mk' G g uid .mdp pos heading speed tl ts route e tm = .ok v) : OnLadder G v ∧ v.isYielding = false := by
  unfold Vehicle.mk' at h
  obtain ⟨i, hi, h⟩ := bind_ok h
  obtain ⟨l, hl, h⟩ := bind_ok h
  cases h
  refine ⟨⟨?_, ?_, ?_⟩, rfl⟩
  · exact (clip_range hn _).1
  · exact (clip_range hn _).2
  · simp only [if_true]; exact indexToSpeed_level G _

/-- Speed-related attributes after the decision of a controlled vehicle on an action that is neither FASTER nor SLOWER. -/
theorem controlledAct_speed {g : Graph} {rng rng' : Rng} {v' : Vehicle} (w : Vehicle) (b : VAction) (hb1 : b ≠ VAction.faster)
    (hb2 : b ≠ VAction.slower) (h : w.controlledAct g rng b = .ok (v', rng')) :
    v'.speedIndex = w.speedIndex ∧ v'.targetSpeed = w.targetSpeed ∧ v'.isYielding = w.isYielding ∧
      v'.acceleration = (v'.targetSpeed - w.speed) / (6 / 10) := by
  unfold Vehicle.controlledAct at h
  obtain ⟨⟨v1, rng1⟩, h1, h⟩ := bind_ok h
  obtain ⟨v2, h2, h⟩ := bind_ok h
  obtain ⟨st, h3, h⟩ := bind_ok h
  cases h
  have e1 : v1.speedIndex = w.speedIndex ∧ v1.targetSpeed = w.targetSpeed ∧ v1.isYielding = w.isYielding ∧ v1.speed = w.speed := by
    unfold Vehicle.followRoad at h1
    obtain ⟨l, hl, h1⟩ := bind_ok h1
    split at h1
    · obtain ⟨q, _, h1⟩ := bind_ok h1
      cases h1; exact ⟨rfl, rfl, rfl, rfl⟩
    · cases h1; exact ⟨rfl, rfl, rfl, rfl⟩
  have e2 : v2.speedIndex = v1.speedIndex ∧ v2.targetSpeed = v1.targetSpeed ∧ v2.isYielding = v1.isYielding ∧
      v2.speed = v1.speed := by
    unfold Vehicle.applyMeta at h2
    split at h2
    · exact absurd rfl hb1
    · exact absurd rfl hb2
    · unfold Vehicle.changeLane at h2
      obtain ⟨ls, _, h2⟩ := bind_ok h2
      obtain ⟨l, _, h2⟩ := bind_ok h2
      split at h2 <;> cases h2 <;> exact ⟨rfl, rfl, rfl, rfl⟩
    · unfold Vehicle.changeLane at h2
      obtain ⟨ls, _, h2⟩ := bind_ok h2
      obtain ⟨l, _, h2⟩ := bind_ok h2
      split at h2 <;> cases h2 <;> exact ⟨rfl, rfl, rfl, rfl⟩
    · cases h2; exact ⟨rfl, rfl, rfl, rfl⟩
  refine ⟨e2.1.trans e1.1, e2.2.1.trans e1.2.1, e2.2.2.1.trans e1.2.2.1, ?_⟩
  unfold Vehicle.speedControl Vehicle.KP_A
  simp only
  rw [e2.2.2.2, e1.2.2.2]; ring

private def indexAfter (G : Globals) (v : Vehicle) (a : VAction) : Int :=
  match a with
  | .faster => npClipInt (Vehicle.speedToIndex G v.speed + 1) 0 ((G.speedCount : Int) - 1)
  | .slower => npClipInt (Vehicle.speedToIndex G v.speed - 1) 0 ((G.speedCount : Int) - 1)
  | _ => v.speedIndex

private def targetAfter (G : Globals) (v : Vehicle) (a : VAction) : ℝ :=
  match a with
  | .faster => level G (npClipInt (Vehicle.speedToIndex G v.speed + 1) 0 ((G.speedCount : Int) - 1))
  | .slower => level G (npClipInt (Vehicle.speedToIndex G v.speed - 1) 0 ((G.speedCount : Int) - 1))
  | _ => v.targetSpeed

/-- The target speed and index of a discrete-action vehicle after its decision. -/
private theorem mdpAct_speed {G : Globals} {g : Graph} {rng rng' : Rng} {v v' : Vehicle} {a : VAction}
    (h : v.mdpAct G g rng a = .ok (v', rng')) :
    (v'.speedIndex = indexAfter G v a) ∧ (v'.targetSpeed = targetAfter G v a) ∧ v'.isYielding = v.isYielding ∧ v'.acceleration = (v'.targetSpeed - v.speed) / (6 / 10) := by
  have hc := @controlledAct_speed g rng rng' v'
  unfold Vehicle.mdpAct at h
  split at h
  · obtain ⟨h1, h2, h3, h4⟩ := hc _ _ (by simp) (by simp) h
    exact ⟨h1, h2.trans (indexToSpeed_level G _), h3, h4⟩
  · obtain ⟨h1, h2, h3, h4⟩ := hc _ _ (by simp) (by simp) h
    exact ⟨h1, h2.trans (indexToSpeed_level G _), h3, h4⟩
  · rename_i h1 h2
    obtain ⟨h1, h2, h3, h4⟩ := hc _ _ (by simpa using h1) (by simpa using h2) h
    refine ⟨?_, ?_, h3, h4⟩
    · rw [h1]; unfold indexAfter; split <;> first | rfl | simp_all
    · rw [h2]; unfold targetAfter; split <;> first | rfl | simp_all

private theorem ladder_kept (G : Globals) (hn : 0 < G.speedCount) (g : Graph) :
    Road.Kept G g (fun v => v.kind = .mdp → OnLadder G v ∧ v.isYielding = false) where
  act r v v' a rng' e hv h hk := by
    have hb := Vehicle.act_body h
    rw [hb.kind] at hk
    obtain ⟨⟨l1, l2, l3⟩, hy⟩ := hv hk
    unfold Vehicle.act at h
    rw [hk] at h
    dsimp only at h
    obtain ⟨h1, h2, h3, _⟩ := mdpAct_speed h
    refine ⟨?_, h3.trans hy⟩
    unfold OnLadder
    rw [h1, h2]
    cases a with
    | faster => exact ⟨(clip_range hn _).1, (clip_range hn _).2, rfl⟩
    | slower => exact ⟨(clip_range hn _).1, (clip_range hn _).2, rfl⟩
    | _ => exact ⟨l1, l2, l3⟩
  release v v' hv h hk := by
    have hk' : v.kind = .mdp := by
      obtain ⟨_, _, _, _, rfl⟩ := Road.release_frame h
      exact hk
    obtain ⟨h1, h2⟩ := hv hk'
    unfold Road.release at h
    rw [h2] at h
    cases h
    exact ⟨h1, h2⟩
  markYield v hv hk := by
    have hk' : v.kind = .mdp := by
      obtain ⟨_, _, _, _, e⟩ := Road.markYield_frame v
      rw [e] at hk; exact hk
    have : Road.markYield v = v := by unfold Road.markYield; simp [hk']
    rw [this]; exact hv hk'
  step rec dt v v' hv h hk := by
    have hm := Vehicle.step_mind h
    rw [hm.kind] at hk
    obtain ⟨⟨h1, h2, h3⟩, h4⟩ := hv hk
    unfold OnLadder
    rw [hm.speedIndex, hm.targetSpeed, hm.isYielding]
    exact ⟨⟨h1, h2, h3⟩, h4⟩
  collide v s hv _ hk := hv hk

/-- One decision of a discrete-action vehicle: it stays on the ladder, and its acceleration aims at the target speed. -/
theorem mdp_act_ladder (G : Globals) (hn : 0 < G.speedCount) {r : Road} {v v' : Vehicle} {a : VAction} {rng' : Rng} (hk : v.kind = .mdp)
    (hl : OnLadder G v) (hy : v.isYielding = false) (h : v.act G r a = .ok (v', rng')) :
    OnLadder G v' ∧ v'.isYielding = false ∧ v'.acceleration = (v'.targetSpeed - v.speed) / (6 / 10) := by
  have hb := Vehicle.act_body h
  obtain ⟨q1, q2⟩ := (ladder_kept G hn r.network).act r v v' a rng' rfl (fun _ => ⟨hl, hy⟩) h (hb.kind.trans hk)
  refine ⟨q1, q2, ?_⟩
  unfold Vehicle.act at h
  rw [hk] at h
  dsimp only at h
  exact (mdpAct_speed h).2.2.2

/-- One decision of a discrete-action vehicle that has not reached the end of its target lane: it keeps aiming at the same road. -/
theorem mdp_act_road (G : Globals) {r : Road} (hg : WellFormed r.network) {v v' : Vehicle} {a : VAction} {rng' : Rng} (hk : v.kind = .mdp)
    (ht : ValidIndex r.network v.targetLane) (he : ¬ PastEnd r.network v.targetLane v.pos) (h : v.act G r a = .ok (v', rng')) :
    ValidIndex r.network v'.targetLane ∧ v'.targetLane.src = v.targetLane.src ∧ v'.targetLane.dst = v.targetLane.dst := by
  have key : ∀ (w : Vehicle) (b : VAction), w.pos = v.pos → w.targetLane = v.targetLane →
      w.controlledAct r.network r.rng b = .ok (v', rng') →
      ValidIndex r.network v'.targetLane ∧ v'.targetLane.src = v.targetLane.src ∧ v'.targetLane.dst = v.targetLane.dst := by
    intro w b e1 e2 h
    obtain ⟨t0, route, t, ts, st, rfl, c1, c2, c3, _, _, c4, _⟩ := Vehicle.controlledAct_ok hg (by rw [e2]; exact ht) h
    have ht0 : t0 = v.targetLane := by
      rcases c1 with ⟨c1, _⟩ | ⟨c1, _⟩
      · rw [c1, e2]
      · rw [e1, e2] at c1; exact absurd c1 he
    refine ⟨c3, ?_⟩
    dsimp only
    rw [c4, ht0]
    unfold laneAfter
    split
    · split <;> exact ⟨rfl, rfl⟩
    · split <;> exact ⟨rfl, rfl⟩
    · exact ⟨rfl, rfl⟩
  unfold Vehicle.act at h
  rw [hk] at h
  dsimp only at h
  unfold Vehicle.mdpAct at h
  split at h
  · exact key (v.setSpeedIndex G (Vehicle.speedToIndex G v.speed + 1)) _ rfl rfl h
  · exact key (v.setSpeedIndex G (Vehicle.speedToIndex G v.speed - 1)) _ rfl rfl h
  · exact key v _ rfl rfl h

/-- C30: along every history of a road, every discrete-action vehicle stays on the ladder (whatever the actions, collisions and
regulation passes). -/
theorem always_on_ladder (G : Globals) (hn : 0 < G.speedCount) (r r' : Road)
    (h0 : ∀ v ∈ r.vehicles, v.kind = .mdp → OnLadder G v ∧ v.isYielding = false) (h : RoadRun G r r') :
    ∀ v ∈ r'.vehicles, v.kind = .mdp → OnLadder G v :=
  fun v hv hk => (((ladder_kept G hn r.network).run h h0).2 v hv hk).1

/-- A discrete-action vehicle never yields. -/
theorem mdp_not_yielding (G : Globals) (hn : 0 < G.speedCount) (r r' : Road)
    (h0 : ∀ v ∈ r.vehicles, v.kind = .mdp → OnLadder G v ∧ v.isYielding = false) (h : RoadRun G r r') :
    ∀ v ∈ r'.vehicles, v.kind = .mdp → v.isYielding = false :=
  fun v hv hk => (((ladder_kept G hn r.network).run h h0).2 v hv hk).2

/-- The level number of a discrete-action vehicle stays below any bound that the ladder respects, even if the vehicle was built with another
ladder than the one in use. -/
theorem index_stays (G : Globals) (hn : 0 < G.speedCount) (n : Int) (hG : G.speedCount ≤ n) (r r' : Road)
    (h0 : ∀ v ∈ r.vehicles, v.kind = .mdp → 0 ≤ v.speedIndex ∧ v.speedIndex < n) (h : RoadRun G r r') :
    ∀ v ∈ r'.vehicles, v.kind = .mdp → 0 ≤ v.speedIndex ∧ v.speedIndex < n := by
  have k : Road.Kept G r.network (fun v => v.kind = .mdp → 0 ≤ v.speedIndex ∧ v.speedIndex < n) := {
    act := fun r v v' a rng' e hv h hk => by
      have hb := Vehicle.act_body h
      rw [hb.kind] at hk
      unfold Vehicle.act at h
      rw [hk] at h
      dsimp only at h
      obtain ⟨h1, _⟩ := mdpAct_speed h
      rw [h1]
      cases a with
      | faster => exact ⟨(clip_range hn _).1, lt_of_lt_of_le (clip_range hn _).2 hG⟩
      | slower => exact ⟨(clip_range hn _).1, lt_of_lt_of_le (clip_range hn _).2 hG⟩
      | _ => exact hv hk
    release := fun v v' hv h hk => by
      obtain ⟨_, _, _, _, rfl⟩ := Road.release_frame h
      exact hv hk
    markYield := fun v hv hk => by
      unfold Road.markYield at hk ⊢
      split at hk <;> split <;> first | exact hv hk | contradiction
    step := fun rec dt v v' hv h hk => by
      have hm := Vehicle.step_mind h
      rw [hm.kind] at hk
      rw [hm.speedIndex]
      exact hv hk
    collide := fun v s hv _ hk => hv hk }
  exact (k.run h h0).2

/-- Levels lie between the configured extreme speeds. -/
theorem level_range (G : Globals) (h : G.speedMin ≤ G.speedMax) (k : Int) (h0 : 0 ≤ k) (h1 : k < G.speedCount) :
    G.speedMin ≤ level G k ∧ level G k ≤ G.speedMax := by
  unfold level
  split
  · rename_i hn
    have hd : (0 : ℝ) < (G.speedCount : ℝ) - 1 := by
      have : (1 : ℝ) < G.speedCount := by exact_mod_cast hn
      linarith
    have hk0 : (0 : ℝ) ≤ k := by exact_mod_cast h0
    have hk1 : (k : ℝ) ≤ (G.speedCount : ℝ) - 1 := by
      have : k ≤ (G.speedCount : Int) - 1 := by omega
      exact_mod_cast this
    have hs : 0 ≤ (G.speedMax - G.speedMin) / (G.speedCount - 1) := div_nonneg (by linarith) hd.le
    constructor
    · nlinarith
    · have : (k : ℝ) * ((G.speedMax - G.speedMin) / (G.speedCount - 1)) ≤ (G.speedCount - 1) * ((G.speedMax - G.speedMin) / (G.speedCount - 1)) :=
        mul_le_mul_of_nonneg_right hk1 hs
      rw [mul_div_cancel₀ _ hd.ne'] at this
      linarith
  · exact ⟨le_rfl, h⟩

/-- C31: converting a level to a speed and back gives the level. -/
theorem index_roundtrip (G : Globals) (h : G.speedMin < G.speedMax) (k : Int) (h0 : 0 ≤ k) (h1 : k < G.speedCount) :
    Vehicle.speedToIndex G (Vehicle.indexToSpeed G k) = k := by
  unfold Vehicle.speedToIndex
  have hd : G.speedMax - G.speedMin ≠ 0 := by linarith [h]
  have : (Vehicle.indexToSpeed G k - G.speedMin) / (G.speedMax - G.speedMin) * ((G.speedCount : ℝ) - 1) = ((k : Int) : ℝ) := by
    unfold Vehicle.indexToSpeed
    split
    · rename_i hn
      have hn' : ((G.speedCount : ℝ) - 1) ≠ 0 := by
        have : (1 : ℝ) < G.speedCount := by exact_mod_cast hn
        linarith
      field_simp
      ring
    · have : k = 0 := by omega
      subst this
      simp
  rw [this, npRound_int]
  unfold npClipInt
  omega

/-- C31, ties: exactly half-way between two neighbouring levels the even one is returned. -/
theorem index_midpoint (G : Globals) (h : G.speedMin < G.speedMax) (k : Int) (h0 : 0 ≤ k) (h1 : k + 1 < G.speedCount) :
    Vehicle.speedToIndex G ((level G k + level G (k + 1)) / 2) = if k % 2 = 0 then k else k + 1 := by
  have hc : 1 < G.speedCount := by omega
  have hN : (0 : ℝ) < (G.speedCount : ℝ) - 1 := by
    have : (1 : ℝ) < G.speedCount := by exact_mod_cast hc
    linarith
  have hD : (0 : ℝ) < G.speedMax - G.speedMin := by linarith
  unfold Vehicle.speedToIndex
  have e : ((level G k + level G (k + 1)) / 2 - G.speedMin) / (G.speedMax - G.speedMin) * ((G.speedCount : ℝ) - 1) = (k : ℝ) + 1 / 2 := by
    unfold level
    rw [if_pos hc, if_pos hc]
    push_cast
    field_simp
    ring
  rw [e]
  have hf : ⌊(k : ℝ) + 1 / 2⌋ = k := by
    rw [Int.floor_eq_iff]; constructor <;> linarith
  have hr : npRound ((k : ℝ) + 1 / 2) = if k % 2 = 0 then k else k + 1 := by
    unfold npRound
    rw [hf, if_neg (by simp), if_neg (by simp)]
  rw [hr]
  unfold npClipInt
  split_ifs <;> omega

/-- On the default ladder 20, 25, 30 both midpoints are mapped to an even level: 22.5 to 20 and 27.5 to 30. -/
example : Vehicle.speedToIndex {} (45 / 2) = 0 ∧ Vehicle.speedToIndex {} (55 / 2) = 2 := by
  constructor
  · have := index_midpoint {} (by norm_num) 0 (by norm_num) (by norm_num)
    simpa [level, show (20 + (20 + (30 - 20) / (3 - 1)) : ℝ) / 2 = 45 / 2 by norm_num] using this
  · have := index_midpoint {} (by norm_num) 1 (by norm_num) (by norm_num)
    rw [if_neg (by norm_num)] at this
    have e : ((level {} 1 + level {} (1 + 1)) / 2 : ℝ) = 55 / 2 := by simp [level]; norm_num
    rw [e] at this
    simpa using this

/-- C31: the index of any speed, inside or outside the range, is that of a level at minimal distance. -/
theorem index_nearest (G : Globals) (h : G.speedMin < G.speedMax) (hn : 0 < G.speedCount) (s : ℝ) :
    0 ≤ Vehicle.speedToIndex G s ∧ Vehicle.speedToIndex G s < G.speedCount ∧
    ∀ k : Int, 0 ≤ k → k < G.speedCount → |s - level G (Vehicle.speedToIndex G s)| ≤ |s - level G k| := by
  refine ⟨(clip_range hn _).1, (clip_range hn _).2, fun k h0 h1 => ?_⟩
  by_cases hc : 1 < G.speedCount
  · have hN : (0 : ℝ) < (G.speedCount : ℝ) - 1 := by
      have : (1 : ℝ) < G.speedCount := by exact_mod_cast hc
      linarith
    have hD : (0 : ℝ) < G.speedMax - G.speedMin := by linarith
    set x := (s - G.speedMin) / (G.speedMax - G.speedMin) * ((G.speedCount : ℝ) - 1) with hx
    have hlev : ∀ j : Int, s - level G j = (x - j) * ((G.speedMax - G.speedMin) / (G.speedCount - 1)) := by
      intro j
      unfold level
      rw [if_pos hc, hx]
      field_simp
      ring
    have hidx : Vehicle.speedToIndex G s = npClipInt (npRound x) 0 ((G.speedCount : Int) - 1) := rfl
    rw [hlev, hlev, abs_mul, abs_mul]
    apply mul_le_mul_of_nonneg_right _ (abs_nonneg _)
    rw [hidx]
    have hr := npRound_near x
    rw [abs_le] at hr
    set m := npRound x
    have hkN : k ≤ (G.speedCount : Int) - 1 := by omega
    by_cases hlo : m < 0
    · have e : npClipInt m 0 ((G.speedCount : Int) - 1) = 0 := by unfold npClipInt; omega
      rw [e]
      have hm : (m : ℝ) ≤ -1 := by exact_mod_cast (by omega : m ≤ -1)
      have hk : (0 : ℝ) ≤ k := by exact_mod_cast h0
      push_cast
      rw [abs_of_nonpos (by linarith), abs_of_nonpos (by linarith)]
      linarith
    · by_cases hhi : (G.speedCount : Int) - 1 < m
      · have e : npClipInt m 0 ((G.speedCount : Int) - 1) = (G.speedCount : Int) - 1 := by unfold npClipInt; omega
        rw [e]
        have hm : (G.speedCount : ℝ) ≤ m := by exact_mod_cast (by omega : (G.speedCount : Int) ≤ m)
        have hk : (k : ℝ) ≤ (G.speedCount : ℝ) - 1 := by exact_mod_cast hkN
        push_cast
        rw [abs_of_nonneg (by linarith), abs_of_nonneg (by linarith)]
        linarith
      · have e : npClipInt m 0 ((G.speedCount : Int) - 1) = m := by unfold npClipInt; omega
        rw [e]
        rcases lt_trichotomy k m with hkm | hkm | hkm
        · have : (k : ℝ) + 1 ≤ m := by exact_mod_cast hkm
          rw [abs_le]
          have h2 := le_abs_self (x - k)
          constructor <;> linarith
        · rw [hkm]
        · have : (m : ℝ) + 1 ≤ k := by exact_mod_cast hkm
          rw [abs_le]
          have h2 := neg_abs_le (x - k)
          constructor <;> linarith
  · have : ∀ j, level G j = G.speedMin := by intro j; unfold level; rw [if_neg hc]
    rw [this, this]

/-- C32: FASTER and SLOWER set the level one above / below the level nearest to the current speed, saturating at the ends of the
ladder; every other action keeps level and target.  The commanded acceleration is proportional to the remaining speed error. -/
theorem faster_slower (G : Globals) (hn : 0 < G.speedCount) (r : Road) (v v' : Vehicle) (a : VAction) (rng' : Rng)
    (hk : v.kind = .mdp) (h : v.act G r a = .ok (v', rng')) :
    (a = .faster → v'.speedIndex = min (Vehicle.speedToIndex G v.speed + 1) (G.speedCount - 1) ∧
      v'.targetSpeed = level G v'.speedIndex) ∧
    (a = .slower → v'.speedIndex = max (Vehicle.speedToIndex G v.speed - 1) 0 ∧ v'.targetSpeed = level G v'.speedIndex) ∧
    (a ≠ .faster → a ≠ .slower → v'.speedIndex = v.speedIndex ∧ v'.targetSpeed = v.targetSpeed) ∧
    v'.acceleration = (v'.targetSpeed - v.speed) / 0.6 := by
  unfold Vehicle.act at h
  rw [hk] at h
  dsimp only at h
  obtain ⟨h1, h2, h3, h4⟩ := mdpAct_speed h
  obtain ⟨c1, c2⟩ : 0 ≤ Vehicle.speedToIndex G v.speed ∧ Vehicle.speedToIndex G v.speed < G.speedCount := clip_range hn _
  refine ⟨?_, ?_, ?_, by rw [h4]; norm_num⟩
  · rintro rfl
    simp only [indexAfter, targetAfter] at h1 h2
    refine ⟨?_, by rw [h2, h1]⟩
    rw [h1]; unfold npClipInt; omega
  · rintro rfl
    simp only [indexAfter, targetAfter] at h1 h2
    refine ⟨?_, by rw [h2, h1]⟩
    rw [h1]; unfold npClipInt; omega
  · intro ha hb
    cases a <;> first | exact absurd rfl ha | exact absurd rfl hb | exact ⟨h1, h2⟩

example : OnLadder {} { Sample.car 0 .mdp 10 0 20 with targetSpeed := 25, speedIndex := 1 } := by
  refine ⟨by norm_num, by norm_num, ?_⟩
  unfold level; norm_num

end HighwayEnv.Props
