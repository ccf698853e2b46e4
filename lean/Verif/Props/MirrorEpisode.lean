import Verif.Spec.MirrorEnv
import Verif.Props.MirrorSight
import Verif.Props.Turned

/-!
# C123 — episodes in a mirror
-/

noncomputable section
open Classical
namespace HighwayEnv
open Spec

namespace AgentType

theorem mirror_steer {b : ℝ} (x : ℝ) : lmap (-x) (-1, 1) (-b, b) = -lmap x (-1, 1) (-b, b) := by
  unfold lmap
  ring

theorem clipVector_modify (c : ContinuousConfig) (xs : List ℝ) (i : ℕ) :
    clipVector c (xs.modify i fun x => -x) = (clipVector c xs).modify i fun x => -x := by
  unfold clipVector
  by_cases h : c.clip = true
  · rw [if_pos h, if_pos h]
    induction xs generalizing i with
    | nil => cases i <;> rfl
    | cons x xs ih =>
      cases i with
      | zero => simp only [List.modify_zero_cons, List.map_cons, Vehicle.npClip_odd x zero_le_one]
      | succ i => simp only [List.modify_succ_cons, List.map_cons, ih]
  · rw [if_neg h, if_neg h]

theorem pyIndex_modify (xs : List ℝ) : pyIndex (xs.modify 1 fun x => -x) 0 = pyIndex xs 0 ∧
    pyIndex (xs.modify 1 fun x => -x) 1 = (pyIndex xs 1).map (fun x => -x) ∧ pyIndex (xs.modify 0 fun x => -x) 0 = (pyIndex xs 0).map (fun x => -x) := by
  cases xs with
  | nil => refine ⟨rfl, ?_, ?_⟩ <;> simp [pyIndex, Except.map]
  | cons x xs =>
    cases xs with
    | nil => refine ⟨?_, ?_, ?_⟩ <;> simp [pyIndex, Except.map]
    | cons y xs => refine ⟨?_, ?_, ?_⟩ <;> simp [pyIndex, Except.map]

theorem command_m {ty : AgentType} (hs : EvenSteering ty) (a : AgentAction) : ty.command (ty.mirrorAct a) = (ty.command a).map VAction.mirror := by
  cases ty with
  | discrete lo la =>
    show (AgentType.discrete lo la).command a = _
    cases a with
    | index i =>
      unfold command actions
      cases lo <;> cases la <;> simp only [Dict.getItem, Dict.get?, Bool.and_self, Bool.and_false, Bool.false_and, Bool.false_eq_true, if_true, if_false,
        Option.getD_some, Option.getD_none, Bool.and_true] <;> (try split_ifs) <;> rfl
    | vector xs => rfl
    | tuple as => rfl
  | continuous c =>
    cases a with
    | index i => rfl
    | tuple as => rfl
    | vector xs =>
      have hs : c.steeringRange = (-c.steeringRange.2, c.steeringRange.2) := Prod.ext hs rfl
      unfold mirrorAct command continuousCommand
      dsimp only
      generalize c.steeringRange.2 = b at hs
      obtain ⟨p1, p2, p3⟩ := pyIndex_modify (clipVector c xs)
      by_cases h1 : c.longitudinal = true
      · by_cases h2 : c.lateral = true
        · simp only [h1, h2, if_true, Bool.and_self, clipVector_modify, p1, p2]
          cases pyIndex (clipVector c xs) 0 with
          | error x => rfl
          | ok x =>
            cases pyIndex (clipVector c xs) 1 with
            | error x => rfl
            | ok y =>
              simp only [Except.map, bind, Except.bind, pure, Except.pure, hs, mirror_steer]
              rfl
        · simp only [h1, h2, if_true, Bool.and_false, Bool.false_eq_true, if_false]
          cases pyIndex (clipVector c xs) 0 with
          | error x => rfl
          | ok x =>
            simp only [Except.map, bind, Except.bind, pure, Except.pure, VAction.mirror, neg_zero]
      · simp only [h1, Bool.false_and, Bool.false_eq_true, if_false, clipVector_modify, p3]
        cases pyIndex (clipVector c xs) 0 with
        | error x => rfl
        | ok x =>
          simp only [Except.map, bind, Except.bind, pure, Except.pure, hs, mirror_steer]
          rfl

end AgentType

namespace Road

theorem vehicle?_m (r : Road) (uid : ℕ) : r.mirror.vehicle? uid = (r.vehicle? uid).map Vehicle.mirror := by
  unfold vehicle?
  rw [vehicles_m, List.find?_map]
  rfl

theorem indexOf_m (r : Road) (uid : ℕ) : r.mirror.indexOf uid = r.indexOf uid := by
  unfold indexOf
  rw [vehicles_m, List.findIdx?_map]
  rfl

variable {P : Set Vec2} {L : Set Lane} (hPL : ∀ l ∈ L, ∀ p ∈ P, HasImage l p)

include hPL in
theorem agentAct_m (G : Globals) {ty : AgentType} (hs : EvenSteering ty) {r : Road} (hr : RM P L r) (uid : ℕ) (a : AgentAction) :
    r.mirror.agentAct G ty uid (ty.mirrorAct a) = (r.agentAct G ty uid a).map Road.mirror := by
  unfold agentAct
  rw [indexOf_m, AgentType.command_m hs]
  cases ty.command a with
  | error e => rfl
  | ok c =>
    simp only [Except.map, bind, Except.bind]
    cases r.indexOf uid with
    | none => rfl
    | some i => exact actAt_m hPL G c hr i

/-- An action of the agents is a list of commands. -/
theorem agentAct_cmds {G : Globals} {ty : AgentType} {r r' : Road} {uid : ℕ} {a : AgentAction} (h : r.agentAct G ty uid a = .ok r') :
    ∃ cmds : List (ℕ × VAction), cmds.foldlM (fun (r : Road) (c : ℕ × VAction) => r.actAt G c.2 c.1) r = .ok r' := by
  unfold agentAct at h
  obtain ⟨c, -, h⟩ := bind_ok h
  cases hi : r.indexOf uid with
  | none => rw [hi] at h; exact ⟨[], h⟩
  | some i =>
    rw [hi] at h
    have h : r.actAt G c i = .ok r' := h
    refine ⟨[(i, c)], ?_⟩
    rw [List.foldlM_cons]
    show (r.actAt G c i).bind _ = _
    rw [h]
    rfl

theorem envAct_cmds {G : Globals} {ty : ActionType} {us : List ℕ} {r r' : Road} {a : AgentAction} (h : r.envAct G ty us a = .ok r') :
    ∃ cmds : List (ℕ × VAction), cmds.foldlM (fun (r : Road) (c : ℕ × VAction) => r.actAt G c.2 c.1) r = .ok r' := by
  unfold envAct at h
  cases ty with
  | single ty =>
    cases us with
    | nil => cases h
    | cons uid us => exact agentAct_cmds h
  | multi ty =>
    cases a with
    | index i => cases h
    | vector xs => cases h
    | tuple as =>
      have key : ∀ (l : List (AgentAction × ℕ)) (s : Road),
          l.foldlM (fun (r : Road) (au : AgentAction × ℕ) => r.agentAct G ty au.2 au.1) s = .ok r' →
          ∃ cmds : List (ℕ × VAction), cmds.foldlM (fun (r : Road) (c : ℕ × VAction) => r.actAt G c.2 c.1) s = .ok r' := by
        intro l
        induction l with
        | nil => intro s h; exact ⟨[], h⟩
        | cons au l ih =>
          intro s h
          rw [List.foldlM_cons] at h
          obtain ⟨s', h1, h⟩ := bind_ok h
          obtain ⟨c1, e1⟩ := agentAct_cmds h1
          obtain ⟨c2, e2⟩ := ih s' h
          refine ⟨c1 ++ c2, ?_⟩
          rw [List.foldlM_append, e1]
          exact e2
      exact key _ _ h

include hPL in
theorem envAct_m (G : Globals) {ty : ActionType} (hs : EvenSteering ty.each) (us : List ℕ) {r : Road} (hr : RM P L r) (a : AgentAction) :
    r.mirror.envAct G ty us (ty.mirrorAct a) = (r.envAct G ty us a).map Road.mirror := by
  unfold envAct
  cases ty with
  | single ty =>
    cases us with
    | nil => rfl
    | cons uid us => exact agentAct_m hPL G hs hr uid a
  | multi ty =>
    cases a with
    | index i => rfl
    | vector xs => rfl
    | tuple as =>
      show ((as.map ty.mirrorAct).zip us).foldlM (fun (r : Road) (au : AgentAction × ℕ) => r.agentAct G ty au.2 au.1) r.mirror = _
      rw [List.zip_map_left, List.foldlM_map]
      exact foldlM_equiv_inv (RM P L) Road.mirror _ _ (fun s (au : AgentAction × ℕ) hr => agentAct_m hPL G hs hr au.2 au.1)
        (fun s au s' hr h => by obtain ⟨cmds, hc⟩ := agentAct_cmds h; exact commands_mem hr hc) _ r hr

end Road

namespace Env

@[simp] theorem road_m (e : Env) : e.mirror.road = e.road.mirror := rfl
@[simp] theorem controlled_m (e : Env) : e.mirror.controlled = e.controlled := rfl
@[simp] theorem time_m (e : Env) : e.mirror.time = e.time := rfl
@[simp] theorem steps_m (e : Env) : e.mirror.steps = e.steps := rfl
@[simp] theorem done_m (e : Env) : e.mirror.done = e.done := rfl

theorem vehicle_m (e : Env) : e.mirror.vehicle = e.vehicle.map Vehicle.mirror := by
  unfold vehicle
  rw [controlled_m]
  cases e.controlled with
  | nil => rfl
  | cons uid us =>
    simp only [road_m, Road.vehicle?_m]
    cases e.road.vehicle? uid <;> rfl

section
variable {L : Set Lane} (hL : ∀ l ∈ L, ∀ p, HasImage l p)

/-- A frame of an environment is a frame of its road. -/
theorem frame_cmds {G : Globals} {c : SimConfig} {k : Int} {a : Option AgentAction} {e e' : Env} (h : e.frame G c k a = .ok e') :
    ∃ cmds, Spec.frame G (1 / c.simulationFrequency) e.road cmds = .ok e'.road := by
  unfold frame at h
  obtain ⟨e1, h1, h⟩ := bind_ok h
  obtain ⟨r, h2, h⟩ := bind_ok h
  obtain ⟨r', h3, h⟩ := bind_ok h
  cases h
  have hf : ∃ cmds : List (ℕ × VAction), cmds.foldlM (fun (r : Road) (c : ℕ × VAction) => r.actAt G c.2 c.1) e.road = .ok e1.road := by
    unfold forward at h1
    cases a with
    | none => cases h1; exact ⟨[], rfl⟩
    | some a =>
      dsimp only at h1
      by_cases hc : c.manualControl = false ∧ (e.time : Int) % k = 0
      · rw [if_pos hc] at h1
        obtain ⟨r, h4, h1⟩ := bind_ok h1
        cases h1
        exact Road.envAct_cmds h4
      · rw [if_neg hc] at h1; cases h1; exact ⟨[], rfl⟩
  obtain ⟨cmds, hf⟩ := hf
  refine ⟨cmds, ?_⟩
  unfold Spec.frame
  rw [hf]
  simp only [bind, Except.bind, h2]
  exact h3

include hL in
theorem frame_m {G : Globals} {c : SimConfig} {k : Int} {a : Option AgentAction} {e e' : Env} (hs : EvenSteering c.action.each) (he : RM Set.univ L e.road)
    (h : e.frame G c k a = .ok e') : e.mirror.frame G c k (a.map c.action.mirrorAct) = .ok e'.mirror := by
  have hPL : ∀ l ∈ L, ∀ p ∈ (Set.univ : Set Vec2), HasImage l p := fun l hl p _ => hL l hl p
  have i1 : ∀ e1, e.forward G c k a = .ok e1 → RM Set.univ L e1.road := by
    intro e1 h1
    unfold forward at h1
    cases a with
    | none => cases h1; exact he
    | some a =>
      dsimp only at h1
      by_cases hc : c.manualControl = false ∧ (e.time : Int) % k = 0
      · rw [if_pos hc] at h1
        obtain ⟨r, h4, h1⟩ := bind_ok h1
        cases h1
        obtain ⟨cmds, h5⟩ := Road.envAct_cmds h4
        exact Road.commands_mem he h5
      · rw [if_neg hc] at h1; cases h1; exact he
  have f1 : e.mirror.forward G c k (a.map c.action.mirrorAct) = (e.forward G c k a).map Env.mirror := by
    unfold forward
    cases a with
    | none => rfl
    | some a =>
      simp only [Option.map_some, time_m, road_m, controlled_m, Road.envAct_m hPL G hs e.controlled he]
      by_cases h : c.manualControl = false ∧ (e.time : Int) % k = 0
      · rw [if_pos h, if_pos h]
        cases e.road.envAct G c.action e.controlled a <;> rfl
      · rw [if_neg h, if_neg h]; rfl
  unfold frame at h ⊢
  obtain ⟨e1, h1, h⟩ := bind_ok h
  obtain ⟨r, h2, h⟩ := bind_ok h
  obtain ⟨r', h3, h⟩ := bind_ok h
  cases h
  have i2 := Road.act_mem (i1 e1 h1) h2
  rw [f1, h1]
  simp only [Except.map, bind, Except.bind, road_m, Road.act_m hPL G (i1 e1 h1), h2]
  rw [Road.step_m hPL i2 h3 (fun _ _ => trivial)]
  rfl

end
end Env

namespace Props

/-- Everything on a one-way road has an image along its lanes, and no vehicle faces backwards. -/
private theorem oneWay_rm {H e : ℝ} (he : e < Real.pi / 4) {r : Road} (h : OneWay H e r) :
    RM Set.univ {l | (∀ p, HasImage l p) ∧ ∀ s, |l.headingAt s - H| ≤ e} r := by
  have hl : ∀ l, LaneOf r l → (∀ p, HasImage l p) ∧ ∀ s, |l.headingAt s - H| ≤ e := by
    intro l hl
    refine ⟨fun p => ?_, (h.lanes l hl).2⟩
    obtain ⟨a, b, hab, hs | ⟨amp, w, ph, hs⟩⟩ := (h.lanes l hl).1 <;> (unfold HasImage; rw [hs]; exact hab)
  exact ⟨fun nd hnd ml hml l hl' => hl l (.inl ⟨nd, hnd, ml, hml, hl'⟩),
    fun v hv => ⟨trivial, hl _ (.inr ⟨v, hv, rfl⟩),
      looksAlong_decided he (fun l hl => hl.2) (h.kinds v hv).1 (h.kinds v hv).2 fun hc _ => h.headings v hv hc⟩,
    fun _ _ => trivial⟩

private theorem oneWay_image {H e : ℝ} {r : Road} (h : OneWay H e r) (l : Lane) (p : Vec2) (hl : LaneOf r l) : HasImage l p := by
  obtain ⟨a, b, hab, hs | ⟨amp, w, ph, hs⟩⟩ := (h.lanes l hl).1 <;> (unfold HasImage; rw [hs]; exact hab)

private theorem oneWay_frame {G : Globals} {dt H e : ℝ} (h0 : 0 ≤ dt) (h1 : dt ≤ 1 / 5) (he : e < Real.pi / 4) {r r' : Road} {cmds : List (ℕ × VAction)}
    (h : OneWay H e r) (hf : frame G dt r cmds = .ok r') : OneWay H e r' := by
  obtain ⟨f1, f2⟩ := frame_keeps hf
  have hg : r.network.LanesIn {l | LaneOf r l} := fun nd hnd ml hml l hl => .inl ⟨nd, hnd, ml, hml, hl⟩
  refine ⟨by rw [f1]; exact h.keys, ?_, ?_, ?_⟩
  · rintro l (⟨nd, hnd, ml, hml, hl⟩ | ⟨w, hw, rfl⟩)
    · exact h.lanes l (.inl ⟨nd, by rw [← f1]; exact hnd, ml, hml, hl⟩)
    · obtain ⟨-, i, hi⟩ := f2 w hw
      exact h.lanes _ (Graph.getLane_in hg hi)
  · intro w hw
    obtain ⟨⟨v, hv, e⟩, -⟩ := f2 w hw
    rw [e]
    exact h.kinds v hv
  · intro w hw hc
    obtain ⟨⟨v, hv, ek⟩, -⟩ := f2 w hw
    refine heading_stays G dt H e h0 h1 he r r' h.keys ?_ [cmds] ?_ (fun u hu hc _ => h.headings u hu hc) w hw hc (by rw [ek]; exact (h.kinds v hv).2)
    · rintro a b k l ⟨ls, ⟨d, e1, e3⟩, e2⟩ x
      exact (h.lanes l (.inl ⟨_, e1, _, e3, List.mem_of_getElem? e2⟩)).2 x
    · simp only [frames, List.foldlM_cons, List.foldlM_nil, hf, bind, Except.bind, pure, Except.pure]

/-- One decision in the mirror, given a condition on roads that frames keep and under which everything has an image. -/
theorem mirrored_core (G : Globals) (c : SimConfig) (cls : EnvClass) (hc : SideFree c.action cls) (hs : EvenSteering c.action.each) (W : Road → Prop)
    (image : ∀ e : Env, W e.road → ∀ l p, LaneOf e.road l → Occupied e.road p → HasImage l p) {L : Set Lane} (hL : ∀ l ∈ L, ∀ p, HasImage l p)
    (hW : ∀ r, W r → RM Set.univ L r) (keep : ∀ r r' cmds, W r → frame G (1 / c.simulationFrequency) r cmds = .ok r' → W r')
    (e e' : Env) (a : Option AgentAction) (res : StepResult) (hw : W e.road)
    (h : e.step G c cls a = .ok (e', res)) : e.mirror.step G c cls (a.map c.action.mirrorAct) = .ok (e'.mirror, res) ∧ W e'.road := by
  have fr : ∀ (k : Int) (e e' : Env), W e.road → e.frame G c k a = .ok e' →
      e.mirror.frame G c k (a.map c.action.mirrorAct) = .ok e'.mirror ∧ W e'.road := by
    intro k e e' hw h
    refine ⟨Env.frame_m hL hs (hW _ hw) h, ?_⟩
    obtain ⟨cmds, hcm⟩ := Env.frame_cmds h
    exact keep _ _ _ hw hcm
  have loop : ∀ (k : Int) (n : ℕ) (e e' : Env), W e.road → Env.simulateLoop G c cls k a n e = .ok e' →
      Env.simulateLoop G c cls k (a.map c.action.mirrorAct) n e.mirror = .ok e'.mirror ∧ W e'.road := by
    intro k n
    induction n with
    | zero => intro e e' hw h; cases h; exact ⟨rfl, hw⟩
    | succ n ih =>
      intro e e' hw h
      unfold Env.simulateLoop at h ⊢
      obtain ⟨e1, h1, h⟩ := bind_ok h
      obtain ⟨b, h2, h⟩ := bind_ok h
      obtain ⟨f1, w1⟩ := fr k e e1 hw h1
      have hst : e1.mirror.stops cls = .ok b := by
        rw [← h2]
        unfold Env.stops
        rw [Env.done_m, hc.terminal e1 (image e1 w1)]
      rw [f1]
      simp only [bind, Except.bind, hst]
      cases b
      · exact ih e1 e' w1 h
      · cases h; exact ⟨rfl, w1⟩
  unfold Env.step at h ⊢
  rw [Env.controlled_m]
  by_cases hne : e.controlled = []
  · rw [if_pos hne] at h; cases h
  rw [if_neg hne] at h ⊢
  obtain ⟨e1, h1, h⟩ := bind_ok h
  obtain ⟨r, h2, h⟩ := bind_ok h
  obtain ⟨b, h3, h⟩ := bind_ok h
  obtain ⟨v, h4, h⟩ := bind_ok h
  obtain ⟨co, h5, h⟩ := bind_ok h
  obtain ⟨e2, h6, h⟩ := bind_ok h
  unfold Env.simulate at h1
  obtain ⟨k, hk, h1⟩ := bind_ok h1
  obtain ⟨s1, w1⟩ := loop k k.toNat { e with steps := e.steps + 1 } e1 hw h1
  have hsim : Env.simulate G c cls (a.map c.action.mirrorAct) (Env.mk e.mirror.road e.controlled e.mirror.time (e.mirror.steps + 1) e.mirror.done
      e.mirror.goal e.mirror.nextUid) = .ok e1.mirror := by
    unfold Env.simulate
    rw [hk]
    exact s1
  have h5' : e1.mirror.tryCost cls = .ok co := by
    rw [← h5]
    unfold Env.tryCost
    rw [hc.cost e1 (image e1 w1)]
  rw [hc.after] at h6
  cases h6
  rw [hsim]
  simp only [bind, Except.bind, hc.reward e1 a (image e1 w1), h2, hc.terminal e1 (image e1 w1), h3, Env.vehicle_m, h4, Except.map, h5', hc.after]
  cases h
  exact ⟨rfl, w1⟩

/-- **C123.** One decision in the mirror, on a one-way road without circles, for a class that does not tell left from right and agents that steer as much
to either side, with frames of at most 1/5 s: the mirrored action gives the same reward, termination, speed, crash flag and cost, and the mirrored state;
the road stays one-way. -/
theorem mirrored_decision (G : Globals) (c : SimConfig) (cls : EnvClass) (hc : SideFree c.action cls) (hs : EvenSteering c.action.each) (H ε : ℝ)
    (hε : ε < Real.pi / 4) (hf : 5 ≤ c.simulationFrequency) (e e' : Env) (a : Option AgentAction) (res : StepResult) (hw : OneWay H ε e.road)
    (h : e.step G c cls a = .ok (e', res)) : e.mirror.step G c cls (a.map c.action.mirrorAct) = .ok (e'.mirror, res) ∧ OneWay H ε e'.road := by
  have h0 : 0 ≤ 1 / c.simulationFrequency := by positivity
  have h1 : 1 / c.simulationFrequency ≤ 1 / 5 := one_div_le_one_div_of_le (by norm_num) hf
  exact mirrored_core G c cls hc hs (OneWay H ε) (fun e hw l p hl _ => oneWay_image hw l p hl) (fun l hl => hl.1) (fun _ hw => oneWay_rm hε hw)
    (fun _ _ _ hw hf => oneWay_frame h0 h1 hε hw hf) e e' a res hw h

/-- **C123.** A whole episode in the mirror: the mirrored actions give the same list of results. -/
theorem mirrored_episode (G : Globals) (c : SimConfig) (cls : EnvClass) (hc : SideFree c.action cls) (hs : EvenSteering c.action.each) (H ε : ℝ)
    (hε : ε < Real.pi / 4) (hf : 5 ≤ c.simulationFrequency) (e e' : Env) (as : List AgentAction) (rs : List StepResult) (hw : OneWay H ε e.road)
    (h : Episode G c cls e as rs e') : Episode G c cls e.mirror (as.map c.action.mirrorAct) rs e'.mirror := by
  have key : Episode G c cls e.mirror (as.map c.action.mirrorAct) rs e'.mirror ∧ OneWay H ε e'.road := by
    induction h with
    | start => exact ⟨.start, hw⟩
    | step _ hs' ih =>
      obtain ⟨h1, h2⟩ := mirrored_decision G c cls hc hs H ε hε hf _ _ _ _ ih.2 hs'
      rw [List.map_append]
      exact ⟨.step ih.1 h1, h2⟩
  exact key.1

private theorem onRoad_mirror {e : Env} {v : Vehicle} (hw : ∀ l p, LaneOf e.road l → Occupied e.road p → HasImage l p) (hv : e.vehicle = .ok v) :
    v.mirror.onRoad = v.onRoad := by
  have hi := hw _ _ (.inr ⟨v, Env.vehicle_mem hv, rfl⟩) (.inl ⟨v, Env.vehicle_mem hv, rfl⟩)
  show v.lane.mirror.onLane v.pos.mirror none none 0 = v.lane.onLane v.pos none none 0
  unfold Lane.onLane
  rw [Lane.localCoordinates_m hi, Lane.length_m]
  simp only [Lane.optTruthy, Bool.not_false, Bool.or_self, if_true, abs_neg]
  rfl

/-- **C123.** The highway environment does not tell left from right (its right lane is the lane with the greatest number). -/
theorem highway_sideFree (ty : ActionType) (cfg : HighwayConfig) : SideFree ty (Highway.cls cfg) where
  terminal e hw := by
    show Highway.terminal cfg _ = Highway.terminal cfg e
    unfold Highway.terminal
    rw [Env.vehicle_m]
    cases hv : e.vehicle with
    | error x => rfl
    | ok v => simp only [Except.map, bind, Except.bind, onRoad_mirror hw hv]; rfl
  reward e a hw := by
    show Highway.reward cfg _ = Highway.reward cfg e
    unfold Highway.reward
    rw [Env.vehicle_m]
    cases hv : e.vehicle with
    | error x => rfl
    | ok v => simp only [Except.map, bind, Except.bind, onRoad_mirror hw hv, Env.road_m, Road.network_m, Road.allSideLanes_m]; rfl
  cost e _ := by
    show Highway.cost _ = Highway.cost e
    unfold Highway.cost
    rw [Env.vehicle_m]
    cases e.vehicle <;> rfl
  after e := rfl

/-- **C123.** Neither does the two-way environment. -/
theorem twoway_sideFree (G : Globals) (ty : ActionType) : SideFree ty (TwoWay.cls G) where
  terminal e _ := by
    show TwoWay.terminal _ = TwoWay.terminal e
    unfold TwoWay.terminal
    rw [Env.vehicle_m]
    cases e.vehicle <;> rfl
  reward e a _ := by
    show TwoWay.reward G _ = TwoWay.reward G e
    unfold TwoWay.reward
    rw [Env.vehicle_m]
    cases e.vehicle with
    | error x => rfl
    | ok v => simp only [Except.map, bind, Except.bind, Env.road_m, Road.network_m, Road.allSideLanes_m]; rfl
  cost e _ := by
    show TwoWay.cost _ = TwoWay.cost e
    unfold TwoWay.cost
    rw [Env.vehicle_m]
    cases e.vehicle <;> rfl
  after e := rfl

/-- **C123.** Nor the merge environment: it looks at abscissas only. -/
theorem merge_sideFree (G : Globals) (ty : ActionType) : SideFree ty (Merge.cls G) where
  terminal e _ := by
    show Merge.terminal _ = Merge.terminal e
    unfold Merge.terminal
    rw [Env.vehicle_m]
    cases e.vehicle <;> rfl
  reward e a _ := by
    have ha : Merge.actionReward (a.map ty.mirrorAct) = Merge.actionReward a := by
      cases a with
      | none => rfl
      | some a =>
        cases ty with
        | single t => cases t <;> cases a <;> rfl
        | multi t => cases a <;> rfl
    show Merge.reward G _ _ = Merge.reward G e a
    unfold Merge.reward
    rw [Env.vehicle_m, ha]
    cases e.vehicle with
    | error x => rfl
    | ok v =>
      simp only [Except.map, bind, Except.bind, Env.road_m, Road.vehicles_m, List.foldlM_map]
      rfl
  cost e _ := rfl
  after e := rfl

/-- **C123, highway.** Any episode of the highway environment with frames of at most 1/5 s, after any reset, with vehicles that are neither dynamic
bicycles nor linear-model vehicles and agents that steer as much to either side: in the mirrored world the mirrored actions give the same results. -/
theorem mirrored_highway_episode (G : Globals) (cfg : HighwayConfig) (hc : HighwayOk cfg)
    (hk : ∀ k, k = cfg.sim.action.agent.vehicleClass ∨ k = cfg.otherVehiclesType → k ≠ .bicycle ∧ k.isLinear = false)
    (hs : EvenSteering cfg.sim.action.each) (hf : 5 ≤ cfg.sim.simulationFrequency) (rng : Rng) (e e' : Env) (as : List AgentAction) (rs : List StepResult)
    (hr : Highway.reset G cfg rng = .ok e) (h : Episode G cfg.sim (Highway.cls cfg) e as rs e') :
    Episode G cfg.sim (Highway.cls cfg) e.mirror (as.map cfg.sim.action.mirrorAct) rs e'.mirror := by
  obtain ⟨e1, q1, q2, q3, _, _, _, _, _, _, q4, _⟩ := highway_reset G cfg hc rng
  rw [q1] at hr
  cases hr
  have hp := Real.pi_gt_three
  have hlt : (0 : ℝ) < 10000 := by norm_num
  refine mirrored_episode G _ _ (highway_sideFree _ cfg) hs 0 0 (by linarith) hf _ _ _ _ ⟨q2.healthy.wf.toIsPyGraph, ?_, ?_, ?_⟩ h
  · intro l hl
    obtain ⟨a, b, k, hk⟩ := mirror_lane_of q2.healthy hl
    rw [q3] at hk
    refine ⟨?_, highway_aligned _ _ hlt a b k l hk⟩
    obtain ⟨_, _, _, rfl⟩ := straightNet_hasLane.1 hk
    exact ⟨_, _, fun he => by have := congrArg Vec2.x he; norm_num at this, .inl rfl⟩
  · intro v hv
    obtain ⟨i, hi⟩ := List.getElem?_of_mem hv
    obtain ⟨_, _, _, c1, c2⟩ := q4 i v hi
    rcases lt_or_ge i cfg.controlledVehicles with hlt | hge
    · rw [(c1 hlt).1]; exact hk _ (.inl rfl)
    · rw [(c2 hge).1]; exact hk _ (.inr rfl)
  · intro v hv _
    obtain ⟨i, hi⟩ := List.getElem?_of_mem hv
    rw [(q4 i v hi).2.1.heading, sub_zero, abs_zero]
    linarith

/-- **C123, merge.** Any episode of the merge environment with frames of at most 1/5 s, after any reset: with the access on the other side, the mirrored
actions give the same results. -/
theorem mirrored_merge_episode (G : Globals) (cfg : MergeConfig) (hc : MergeOk G cfg) (hb : cfg.otherVehiclesType ≠ .bicycle)
    (hs : EvenSteering cfg.sim.action.each) (hf : 5 ≤ cfg.sim.simulationFrequency) (rng : Rng) (e e' : Env) (as : List AgentAction) (rs : List StepResult)
    (hr : Merge.reset G cfg rng = .ok e) (h : Episode G cfg.sim (Merge.cls G) e as rs e') :
    Episode G cfg.sim (Merge.cls G) e.mirror (as.map cfg.sim.action.mirrorAct) rs e'.mirror := by
  obtain ⟨e1, q1, q2, q3, _, _, _, _, _, q4, q5, _⟩ := merge_reset G cfg hc rng
  rw [q1] at hr
  cases hr
  have hp := Real.pi_gt_three
  refine mirrored_episode G _ _ (merge_sideFree G _) hs 0 (1 / 5) (by linarith) hf _ _ _ _ ⟨by rw [q3.network]; exact mergeNet_wf.toIsPyGraph, ?_, ?_, ?_⟩ h
  · intro l hl
    obtain ⟨a, b, k, hk⟩ := mirror_lane_of q2.healthy hl
    rw [q3.network] at hk
    exact ⟨merge_lines a b k l hk, merge_aligned a b k l hk⟩
  · intro v hv
    have hu : (v.kind, v.pos, v.speed, v.laneIndex) ∈ mergeTraffic .mdp cfg.otherVehiclesType := by
      rw [← q4]; exact List.mem_map.2 ⟨v, hv, rfl⟩
    have hother : cfg.otherVehiclesType ≠ .bicycle ∧ cfg.otherVehiclesType.isLinear = false :=
      ⟨hb, by rcases hc.traffic with h | h | h <;> rw [h] <;> rfl⟩
    simp only [mergeTraffic, List.mem_cons, Prod.mk.injEq, List.not_mem_nil, or_false] at hu
    rcases hu with h | h | h | h | h <;> rw [h.1] <;> first | exact hother | exact ⟨(by decide : VKind.mdp ≠ VKind.bicycle), rfl⟩
  · intro u hu _
    rw [(q5 u hu).1, sub_zero, abs_zero]
    linarith

/-- Non-vacuity of C123: a three-decision episode of the default highway environment, and the same results in the mirror. -/
example : ∃ e rs e', Highway.reset {} {} ⟨fun _ => 0, fun _ => 0, 0, 0⟩ = .ok e ∧ rs.length = 3 ∧
    Episode {} {} (Highway.cls {}) e [.index 3, .index 0, .index 1] rs e' ∧
    Episode {} {} (Highway.cls {}) e.mirror [.index 3, .index 0, .index 1] rs e'.mirror := by
  obtain ⟨e, rs, e', h1, h2, h3, _⟩ := highway_episode {} {} highway_default_ok.1 (by norm_num) (by norm_num) ⟨fun _ => 0, fun _ => 0, 0, 0⟩
    [.index 3, .index 0, .index 1] (by
      intro a ha
      simp only [List.mem_cons, List.not_mem_nil, or_false] at ha
      rcases ha with rfl | rfl | rfl <;> (show _ ∧ _; decide))
  refine ⟨e, rs, e', h1, h3, h2, mirrored_highway_episode {} {} highway_default_ok.1 ?_ trivial (by norm_num) _ _ _ _ _ h1 h2⟩
  rintro k (rfl | rfl) <;> exact ⟨by decide, rfl⟩

/-- Non-vacuity of the condition on steering, and what mirroring does to an action: the default continuous agent steers as much to either side; the
acceleration is kept and the steering reversed. -/
example : EvenSteering (.continuous {}) ∧ (AgentType.continuous {}).mirrorAct (.vector [1 / 2, 1 / 3]) = .vector [1 / 2, -(1 / 3)] ∧
    (AgentType.continuous { longitudinal := false }).mirrorAct (.vector [1 / 3]) = .vector [-(1 / 3)] := by
  refine ⟨?_, ?_, ?_⟩
  · show -Real.pi / 4 = -(Real.pi / 4)
    ring
  · simp [AgentType.mirrorAct]
  · simp [AgentType.mirrorAct]

end Props
end HighwayEnv
