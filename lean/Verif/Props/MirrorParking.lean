import Verif.Props.MirrorEpisode
import Verif.Props.Moved
import Verif.Props.Parking
import Verif.Model.Envs.Summon
import Verif.Model.Envs.Roundabout

/-!
# C123 — the parking in a mirror
-/

noncomputable section
open Classical
namespace HighwayEnv
namespace Props
open Spec

private theorem gap_m (fs : List String) : ∀ (a d w : List ℝ), a.length = fs.length → d.length = fs.length →
    List.zipWith (fun x y => |x| * y) (List.zipWith (· - ·) (mirrorRow fs a) (mirrorRow fs d)) w =
      List.zipWith (fun x y => |x| * y) (List.zipWith (· - ·) a d) w := by
  unfold mirrorRow
  induction fs with
  | nil =>
    intro a d w ha hd
    rw [List.length_eq_zero_iff.1 ha, List.length_eq_zero_iff.1 hd]
    rfl
  | cons f fs ih =>
    intro a d w ha hd
    cases a with
    | nil => cases ha
    | cons x a =>
      cases d with
      | nil => cases hd
      | cons y d =>
        cases w with
        | nil => rfl
        | cons z w =>
          simp only [List.zipWith_cons_cons, ih a d w (by simpa using ha) (by simpa using hd)]
          congr 2
          unfold mirrorFeature
          by_cases hs : sideways f = true
          · rw [if_pos hs, if_pos hs, show -x - -y = -(x - y) by ring, abs_neg]
          · rw [if_neg hs, if_neg hs]

private theorem goalObservation_m (g : Graph) (fs : List String) (sc : List ℝ) (v : Vehicle) (o : RoadObject) :
    Alike SameScore (goalObservation g.mirror fs sc v.mirror o.mirror) (goalObservation g fs sc v o) := by
  rw [mirrored_goal]
  cases h : goalObservation g fs sc v o with
  | error x => exact .inl ⟨x, rfl, rfl⟩
  | ok p =>
    refine .inr ⟨_, _, rfl, rfl, ?_⟩
    have hl : p.2.1.length = fs.length ∧ p.2.2.length = fs.length := by
      unfold goalObservation at h
      obtain ⟨d, _, h⟩ := bind_ok h
      obtain ⟨obs, h1, h⟩ := bind_ok h
      obtain ⟨target, h2, h⟩ := bind_ok h
      by_cases hs : obs.length ≠ sc.length
      · rw [if_pos hs] at h; cases h
      · rw [if_neg hs] at h
        cases h
        have l1 := selectFeatures_length h1
        have l2 := selectFeatures_length h2
        push Not at hs
        simp only [List.length_map, List.length_zip]
        omega
    unfold SameScore Parking.computeReward Parking.weightedGap
    have hm : ∀ r : List ℝ, r.length = fs.length → (mirrorRow fs r).length = r.length := by
      intro r hr
      unfold mirrorRow
      rw [List.length_zipWith, hr, min_self]
    simp only [gap_m fs _ _ _ hl.1 hl.2, hm _ hl.1, hm _ hl.2]

private theorem goal_m (e : Env) : Parking.goal e.mirror = (Parking.goal e).map RoadObject.mirror := by
  unfold Parking.goal
  have h : (e.mirror.road.objects.find? fun o => decide (o.uid = e.mirror.goal)) =
      (e.road.objects.find? fun o => decide (o.uid = e.goal)).map RoadObject.mirror := by
    rw [Env.road_m, Road.objects_m, List.find?_map]
    rfl
  rw [h]
  cases e.road.objects.find? fun o => decide (o.uid = e.goal) <;> rfl

private theorem observeOne_m (cfg : ParkingConfig) (e : Env) (uid : ℕ) :
    Alike SameScore (Parking.observeOne cfg e.mirror uid) (Parking.observeOne cfg e uid) := by
  unfold Parking.observeOne
  rw [Env.road_m, Road.vehicle?_m, goal_m]
  cases e.road.vehicle? uid with
  | none => exact .inl ⟨_, rfl, rfl⟩
  | some v =>
    cases Parking.goal e with
    | error x => exact .inl ⟨_, rfl, rfl⟩
    | ok o => exact goalObservation_m e.road.network cfg.features cfg.scales v o

private theorem observations_m (cfg : ParkingConfig) (e : Env) :
    Alike (List.Forall₂ SameScore) (Parking.observations cfg e.mirror) (Parking.observations cfg e) := by
  unfold Parking.observations
  rw [Env.controlled_m]
  by_cases h : cfg.severalObservers = true
  · rw [if_pos h, if_pos h]
    exact mapM_alike _ _ _ _ (observeOne_m cfg e)
  · rw [if_neg h, if_neg h]
    cases e.controlled with
    | nil => exact .inr ⟨_, _, rfl, rfl, .cons rfl .nil⟩
    | cons uid us =>
      rcases observeOne_m cfg e uid with ⟨x, h1, h2⟩ | ⟨b, c, h1, h2, hr⟩
      · simp only [h1, h2]; exact .inl ⟨_, rfl, rfl⟩
      · simp only [h1, h2]; exact .inr ⟨_, _, rfl, rfl, .cons hr .nil⟩

private theorem egos_m (e : Env) : Parking.egos e.mirror = (Parking.egos e).map (List.map Vehicle.mirror) := by
  unfold Parking.egos
  rw [Env.controlled_m]
  induction e.controlled with
  | nil => rfl
  | cons uid us ih =>
    rw [List.mapM_cons, List.mapM_cons, ih, Env.road_m, Road.vehicle?_m]
    cases e.road.vehicle? uid with
    | none => rfl
    | some v =>
      simp only [Option.map_some, bind, Except.bind]
      generalize (List.mapM (m := Py) _ us) = x
      cases x <;> rfl

/-- **C123.** The parking environment does not tell left from right: only the sizes of the differences between the goal and the observed state count. -/
theorem parking_sideFree (ty : ActionType) (cfg : ParkingConfig) : SideFree ty (Parking.cls cfg) where
  terminal e _ := by
    show Parking.terminalWith _ cfg _ = Parking.terminalWith _ cfg e
    unfold Parking.terminalWith
    rw [egos_m]
    cases Parking.egos e with
    | error x => rfl
    | ok vs =>
      simp only [Except.map, bind, Except.bind]
      rcases observations_m cfg e with ⟨x, h1, h2⟩ | ⟨b, c, h1, h2, hr⟩
      · rw [h1, h2]
      · rw [h1, h2]
        have hsucc : Parking.allSuccessWith (fun a d => Parking.computeReward a d) b = Parking.allSuccessWith (fun a d => Parking.computeReward a d) c := by
          clear h1 h2
          induction hr with
          | nil => rfl
          | cons hr _ ih =>
            unfold Parking.allSuccessWith Parking.isSuccessWith
            unfold SameScore at hr
            simp only [hr, ih]
        dsimp only
        rw [hsucc, List.any_map]
        rfl
  reward e a _ := by
    show Parking.rewardWith (fun a d => Parking.computeReward a d) cfg _ = Parking.rewardWith (fun a d => Parking.computeReward a d) cfg e
    unfold Parking.rewardWith
    rcases observations_m cfg e with ⟨x, h1, h2⟩ | ⟨b, c, h1, h2, hr⟩
    · rw [h1, h2]
    · rw [h1, h2]
      have hm : (b.mapM fun o => Parking.computeReward o.2.1 o.2.2) = c.mapM fun o => Parking.computeReward o.2.1 o.2.2 := by
        clear h1 h2
        induction hr with
        | nil => rfl
        | cons hr _ ih =>
          unfold SameScore at hr
          simp only [List.mapM_cons, hr, ih]
      simp only [bind, Except.bind, hm]
  cost e _ := rfl
  after e := rfl

/-- A road of lines and plain vehicles. -/
private def Plainly (r : Road) : Prop :=
  (∀ l, LaneOf r l → ∃ a b : Vec2, a ≠ b ∧ (l.shape = .straight a b ∨ ∃ amp w ph, l.shape = .sine a b amp w ph)) ∧ AllPlain r

private theorem plainly_image {r : Road} (h : Plainly r) {l : Lane} (hl : LaneOf r l) (p : Vec2) : HasImage l p := by
  obtain ⟨a, b, hab, hs | ⟨amp, w, ph, hs⟩⟩ := h.1 l hl <;> (unfold HasImage; rw [hs]; exact hab)

private theorem plainly_frame {G : Globals} {dt : ℝ} {r r' : Road} {cmds : List (ℕ × VAction)} (h : Plainly r) (hf : frame G dt r cmds = .ok r') :
    Plainly r' := by
  obtain ⟨f1, f2⟩ := frame_keeps hf
  have hg : r.network.LanesIn {l | LaneOf r l} := fun nd hnd ml hml l hl => .inl ⟨nd, hnd, ml, hml, hl⟩
  refine ⟨?_, fun w hw => ?_⟩
  · rintro l (⟨nd, hnd, ml, hml, hl⟩ | ⟨w, hw, rfl⟩)
    · exact h.1 l (.inl ⟨nd, by rw [← f1]; exact hnd, ml, hml, hl⟩)
    · obtain ⟨-, i, hi⟩ := f2 w hw
      exact h.1 _ (Graph.getLane_in hg hi)
  · obtain ⟨⟨v, hv, e⟩, -⟩ := f2 w hw
    rw [e]
    exact h.2 v hv

/-- **C123.** One decision in the mirror, on a road whose lanes are straight or sinusoidal, in any directions, and whose vehicles are plain vehicles,
driven by commands only: with frames of any length. -/
theorem mirrored_decision_plain (G : Globals) (c : SimConfig) (cls : EnvClass) (hc : SideFree c.action cls) (hs : EvenSteering c.action.each)
    (e e' : Env) (a : Option AgentAction) (res : StepResult) (hk : AllPlain e.road)
    (hl : ∀ l, LaneOf e.road l → ∃ a b : Vec2, a ≠ b ∧ (l.shape = .straight a b ∨ ∃ amp w ph, l.shape = .sine a b amp w ph))
    (h : e.step G c cls a = .ok (e', res)) : e.mirror.step G c cls (a.map c.action.mirrorAct) = .ok (e'.mirror, res) ∧ AllPlain e'.road ∧
      ∀ l, LaneOf e'.road l → ∃ a b : Vec2, a ≠ b ∧ (l.shape = .straight a b ∨ ∃ amp w ph, l.shape = .sine a b amp w ph) := by
  obtain ⟨h1, h2, h3⟩ := mirrored_core G c cls hc hs Plainly (fun e hw l p hl _ => plainly_image hw hl p) (L := {l | ∀ p, HasImage l p}) (fun l hl => hl)
    (fun r hw => ⟨fun nd hnd ml hml l hl => plainly_image hw (.inl ⟨nd, hnd, ml, hml, hl⟩), fun v hv => ⟨trivial, plainly_image hw (.inr ⟨v, hv, rfl⟩),
      fun hc => (by rw [hw.2 v hv] at hc; cases hc), fun hc => (by rw [hw.2 v hv] at hc; cases hc)⟩, fun _ _ => trivial⟩)
    (fun _ _ _ hw hf => plainly_frame hw hf) e e' a res ⟨hl, hk⟩ h
  exact ⟨h1, h3, h2⟩

/-- **C123, parking.** Any episode of the parking environment, after any reset, with vehicles that are not dynamic bicycles and agents that steer as much
to either side: in the mirrored parking, with the goal on the other side, the mirrored actions give the same results. -/
theorem mirrored_parking_episode (G : Globals) (cfg : ParkingConfig) (hc : ParkingOk cfg) (hn : 0 < cfg.controlledVehicles)
    (hk : cfg.sim.action.agent.vehicleClass = .plain) (hs : EvenSteering cfg.sim.action.each) (rng : Rng) (e e' : Env) (as : List AgentAction)
    (rs : List StepResult) (hr : Parking.reset G cfg rng = .ok e) (h : Episode G cfg.sim (Parking.cls cfg) e as rs e') :
    Episode G cfg.sim (Parking.cls cfg) e.mirror (as.map cfg.sim.action.mirrorAct) rs e'.mirror := by
  obtain ⟨e1, o, k, up, q1, q2, q3, _, _, _, _, _, q4, _⟩ := parking_reset G cfg hc hn rng
  rw [q1] at hr
  cases hr
  have hw : AllPlain e.road ∧
      ∀ l, LaneOf e.road l → ∃ a b : Vec2, a ≠ b ∧ (l.shape = .straight a b ∨ ∃ amp w ph, l.shape = .sine a b amp w ph) := by
    refine ⟨fun v hv => ?_, fun l hl => ?_⟩
    · obtain ⟨i, hi⟩ := List.getElem?_of_mem hv
      rw [(q4 i v hi).kind, hk]
    · obtain ⟨a, b, n, hl⟩ := mirror_lane_of q2.healthy hl
      rw [q3.network] at hl
      obtain ⟨ls, ⟨d, e1, e3⟩, e2⟩ := hl
      obtain ⟨j, _, up, rfl⟩ := parking_lanesList (l := l) (by
        unfold Graph.lanesList
        exact List.mem_flatMap.2 ⟨_, e1, List.mem_flatMap.2 ⟨_, e3, List.mem_of_getElem? e2⟩⟩)
      cases up
      · exact ⟨_, _, fun he => by have := congrArg Vec2.y he; norm_num at this, .inl rfl⟩
      · exact ⟨_, _, fun he => by have := congrArg Vec2.y he; norm_num at this, .inl rfl⟩
  have key : Episode G cfg.sim (Parking.cls cfg) e.mirror (as.map cfg.sim.action.mirrorAct) rs e'.mirror ∧ AllPlain e'.road ∧
      ∀ l, LaneOf e'.road l → ∃ a b : Vec2, a ≠ b ∧ (l.shape = .straight a b ∨ ∃ amp w ph, l.shape = .sine a b amp w ph) := by
    clear q1 q2 q3 q4
    induction h with
    | start => exact ⟨.start, hw⟩
    | step _ hs' ih =>
      obtain ⟨i1, i2, i3⟩ := ih
      obtain ⟨h1, h2⟩ := mirrored_decision_plain G cfg.sim _ (parking_sideFree _ cfg) hs _ _ _ _ i2 i3 hs'
      rw [List.map_append]
      exact ⟨.step i1 h1, h2⟩
  exact key.1

private theorem summon_score {b c : List ℝ × List ℝ × List ℝ} (h : SameScore b c) (e : Env) :
    Summon.computeReward e.mirror b.2.1 b.2.2 = Summon.computeReward e c.2.1 c.2.2 := by
  unfold SameScore at h
  unfold Summon.computeReward
  rw [h, Env.vehicle_m]
  cases Parking.computeReward c.2.1 c.2.2 with
  | error x => rfl
  | ok x => cases e.vehicle <;> rfl

/-- **C123.** Nor the summon environment. -/
theorem summon_sideFree (ty : ActionType) (cfg : SummonConfig) : SideFree ty (Summon.cls cfg) where
  terminal e _ := by
    show Parking.terminalWith (fun a d => Summon.computeReward e.mirror a d) cfg.base e.mirror =
      Parking.terminalWith (fun a d => Summon.computeReward e a d) cfg.base e
    unfold Parking.terminalWith
    rw [egos_m]
    cases Parking.egos e with
    | error x => rfl
    | ok vs =>
      simp only [Except.map, bind, Except.bind]
      rcases observations_m cfg.base e with ⟨x, h1, h2⟩ | ⟨b, c, h1, h2, hr⟩
      · rw [h1, h2]
      · rw [h1, h2]
        have hsucc : Parking.allSuccessWith (fun a d => Summon.computeReward e.mirror a d) b =
            Parking.allSuccessWith (fun a d => Summon.computeReward e a d) c := by
          clear h1 h2
          induction hr with
          | nil => rfl
          | cons hr _ ih =>
            unfold Parking.allSuccessWith Parking.isSuccessWith
            simp only [summon_score hr, ih]
        dsimp only
        rw [hsucc, List.any_map]
        rfl
  reward e a _ := by
    show Parking.rewardWith (fun a d => Summon.computeReward e.mirror a d) cfg.base e.mirror =
      Parking.rewardWith (fun a d => Summon.computeReward e a d) cfg.base e
    unfold Parking.rewardWith
    rcases observations_m cfg.base e with ⟨x, h1, h2⟩ | ⟨b, c, h1, h2, hr⟩
    · rw [h1, h2]; rfl
    · rw [h1, h2]
      have hm : (b.mapM fun o => Summon.computeReward e.mirror o.2.1 o.2.2) = c.mapM fun o => Summon.computeReward e o.2.1 o.2.2 := by
        clear h1 h2
        induction hr with
        | nil => rfl
        | cons hr _ ih => simp only [List.mapM_cons, summon_score hr, ih]
      simp only [bind, Except.bind, hm]
  cost e _ := rfl
  after e := rfl

/-- **C123.** Nor does the roundabout environment, with meta actions. (It compares the action with 0 and 2: a vector with the single number 2 would count as
a lane change, and -2 would not.) -/
theorem roundabout_sideFree (G : Globals) (ty : ActionType) (hd : ∃ lo la, ty.each = .discrete lo la) (cfg : RoundaboutConfig) : SideFree ty (Roundabout.cls G cfg) where
  terminal e _ := by
    show Roundabout.terminal cfg _ = Roundabout.terminal cfg e
    unfold Roundabout.terminal
    rw [Env.vehicle_m]
    cases e.vehicle <;> rfl
  reward e a _ := by
    have ha : Roundabout.laneChange (a.map ty.mirrorAct) = Roundabout.laneChange a := by
      obtain ⟨lo, la, hd⟩ := hd
      cases a with
      | none => rfl
      | some a =>
        cases ty with
        | single t =>
          have hd : t = .discrete lo la := hd
          subst hd
          cases a <;> rfl
        | multi t => cases a <;> rfl
    show Roundabout.reward G _ _ = Roundabout.reward G e a
    unfold Roundabout.reward
    rw [Env.vehicle_m, ha]
    cases Roundabout.laneChange a with
    | error x => rfl
    | ok b => cases e.vehicle <;> rfl
  cost e _ := rfl
  after e := rfl

/-- **C123.** The condition on the steering is necessary: for every agent with two clipped axes whose steering range is not centred on 0, some action is not
mirrored. -/
theorem uneven_steering (c : ContinuousConfig) (h1 : c.longitudinal = true) (h2 : c.lateral = true) (hu : ¬ EvenSteering (.continuous c)) :
    (AgentType.continuous c).command ((AgentType.continuous c).mirrorAct (.vector [0, 1])) ≠
      ((AgentType.continuous c).command (.vector [0, 1])).map VAction.mirror := by
  intro h
  apply hu
  have c1 : npClip (1 : ℝ) (-1) 1 = 1 := by unfold npClip; norm_num
  have c2 : npClip (-1 : ℝ) (-1) 1 = -1 := by unfold npClip; norm_num
  have k1 : ∀ y : ℝ, npClip y (-1) 1 = y → (AgentType.continuous c).command (.vector [0, y]) =
      .ok (.control (lmap y (-1, 1) c.steeringRange) (lmap 0 (-1, 1) c.accelerationRange)) := by
    intro y hy
    have c0 : npClip (0 : ℝ) (-1) 1 = 0 := by unfold npClip; norm_num
    have hv : AgentType.clipVector c [0, y] = [0, y] := by
      unfold AgentType.clipVector
      by_cases hc : c.clip = true
      · rw [if_pos hc]; simp only [List.map_cons, List.map_nil, c0, hy]
      · rw [if_neg hc]
    unfold AgentType.command AgentType.continuousCommand
    simp only [hv, h1, h2, Bool.and_self, if_true]
    rfl
  have hm : (AgentType.continuous c).mirrorAct (.vector [0, 1]) = .vector [0, -1] := by
    unfold AgentType.mirrorAct
    simp only [h1, h2, if_true]
    rfl
  rw [hm, k1 (-1) c2, k1 1 c1] at h
  have h := Except.ok.inj h
  unfold VAction.mirror at h
  have h := (VAction.control.inj h).1
  unfold lmap at h
  show c.steeringRange.1 = -c.steeringRange.2
  ring_nf at h
  linarith

/-- Non-vacuity of `uneven_steering`: an agent that steers to one side only. -/
example : ¬ EvenSteering (.continuous { steeringRange := (0, 1) }) := by
  show ¬ ((0 : ℝ) = -1)
  norm_num

/-- Non-vacuity: a two-decision episode of the default parking, and the same results in the mirror, steering to the other side. -/
example (rng : Rng) : ∃ e rs e', Parking.reset {} {} rng = .ok e ∧ rs.length = 2 ∧
    Episode {} ({} : ParkingConfig).sim (Parking.cls {}) e [.vector [1, 1 / 2], .vector [1 / 3, -1]] rs e' ∧
    Episode {} ({} : ParkingConfig).sim (Parking.cls {}) e.mirror [.vector [1, -(1 / 2)], .vector [1 / 3, 1]] rs e'.mirror := by
  obtain ⟨e, _, rs, e', h1, h2, h3, _⟩ := parking_single {} {} parking_default_ok.1 rfl (by norm_num) rng [.vector [1, 1 / 2], .vector [1 / 3, -1]] (by
    intro a ha
    simp only [List.mem_cons, List.not_mem_nil, or_false] at ha
    rcases ha with rfl | rfl <;> rfl)
  have hm := mirrored_parking_episode {} {} parking_default_ok.1 (by norm_num) rfl
    (by show -Real.pi / 4 = -(Real.pi / 4); ring) rng _ _ _ _ h1 h2
  refine ⟨e, rs, e', h1, h3, h2, ?_⟩
  have hv : [AgentAction.vector [1, 1 / 2], AgentAction.vector [1 / 3, -1]].map ({} : ParkingConfig).sim.action.mirrorAct =
      [.vector [1, -(1 / 2)], .vector [1 / 3, 1]] := by
    simp [ActionType.mirrorAct, AgentType.mirrorAct]
  rw [hv] at hm
  exact hm

end Props
end HighwayEnv
