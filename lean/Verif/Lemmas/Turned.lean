import Verif.Spec.Turned
import Verif.Lemmas.Quarter
import Verif.Lemmas.Connected
import Verif.Model.FiniteMdp

/-! Environments commute with a quarter turn of the whole world. -/

noncomputable section
open Classical
namespace HighwayEnv
open Spec

/-- The lanes along which every point has a place. -/
def Open : Set Lane := {l | ∀ p, HasPlace l p}

theorem open_place : ∀ l ∈ Open, ∀ p ∈ (Set.univ : Set Vec2), HasPlace l p := fun _ hl p _ => hl p

theorem open_iff (l : Lane) : l ∈ Open ↔ ∃ a b : Vec2, a ≠ b ∧ (l.shape = .straight a b ∨ ∃ amp w ph, l.shape = .sine a b amp w ph) := by
  constructor
  · intro h
    have h : ∀ p, HasPlace l p := h
    unfold HasPlace at h
    cases hs : l.shape with
    | straight a b => rw [hs] at h; exact ⟨a, b, h 0, .inl rfl⟩
    | sine a b amp w ph => rw [hs] at h; exact ⟨a, b, h 0, .inr ⟨amp, w, ph, rfl⟩⟩
    | circular c _ _ _ _ => rw [hs] at h; exact absurd rfl (h c)
  · rintro ⟨a, b, hab, e | ⟨amp, w, ph, e⟩⟩ p <;> (unfold HasPlace; rw [e]; exact hab)

theorem withoutCircles_iff (r : Road) : WithoutCircles r ↔ RIn Set.univ Open r := by
  constructor
  · exact fun h => ⟨fun nd hnd ml hml l hl => (open_iff l).2 (h l (.inl ⟨nd, hnd, ml, hml, hl⟩)),
      fun v hv => ⟨trivial, (open_iff _).2 (h _ (.inr ⟨v, hv, rfl⟩))⟩, fun _ _ => trivial⟩
  · rintro ⟨h1, h2, -⟩ l (⟨nd, hnd, ml, hml, hl⟩ | ⟨v, hv, rfl⟩)
    · exact (open_iff l).1 (h1 nd hnd ml hml l hl)
    · exact (open_iff _).1 (h2 v hv).2

theorem placeable_of_in {P : Set Vec2} {L : Set Lane} (hPL : ∀ l ∈ L, ∀ p ∈ P, HasPlace l p) {r : Road} (hr : RIn P L r) : Placeable r := by
  intro l p hl hp
  refine hPL l ?_ p ?_
  · rcases hl with ⟨nd, hnd, ml, hml, hl⟩ | ⟨v, hv, rfl⟩
    · exact hr.lanes nd hnd ml hml l hl
    · exact (hr.vehicles v hv).2
  · rcases hp with ⟨v, hv, rfl⟩ | ⟨o, ho, rfl⟩
    · exact (hr.vehicles v hv).1
    · exact hr.objects o ho

theorem placeable_of_withoutCircles {r : Road} (h : WithoutCircles r) : Placeable r := placeable_of_in open_place ((withoutCircles_iff r).1 h)

namespace Road

theorem step_in {P : Set Vec2} {L : Set Lane} {r r' : Road} {dt : ℝ} (hr : RIn P L r) (h : r.step dt = .ok r')
    (hn : ∀ v ∈ r'.vehicles, v.pos ∈ P) : RIn P L r' := by
  obtain ⟨h1, h2, -, -, -, h3⟩ := Road.step_frame h
  refine ⟨by rw [h2]; exact hr.lanes, fun w hw => ⟨hn w hw, ?_⟩, fun o ho => ?_⟩
  · obtain ⟨i, hi⟩ := List.getElem?_of_mem hw
    have hlt : i < r.vehicles.length := by
      rw [← h1.1]; exact (List.getElem?_eq_some_iff.1 hi).1
    obtain ⟨w', hw', u, -, x, hx, b, c, rfl, -⟩ := h1.2 i _ (List.getElem?_eq_getElem hlt)
    rw [hi] at hw'
    cases hw'
    obtain ⟨j, l, hist, -, hl, rfl⟩ := Vehicle.step_ok hx
    exact Graph.getLane_in hr.lanes hl
  · have key : ∀ os os' : List RoadObject, List.Forall₂ Road.Marked os os' → ∀ o ∈ os', ∃ o0 ∈ os, o0.pos = o.pos := by
      intro os os' hf
      induction hf with
      | nil => exact fun o ho => by cases ho
      | cons hm _ ih =>
        intro o ho
        rcases List.mem_cons.1 ho with rfl | ho
        · obtain ⟨b, rfl, -⟩ := hm
          exact ⟨_, .head _, rfl⟩
        · obtain ⟨o0, h0, e⟩ := ih o ho
          exact ⟨o0, .tail _ h0, e⟩
    obtain ⟨o0, h0, e⟩ := key _ _ h3 o ho
    rw [← e]
    exact hr.objects o0 h0

theorem vehicle?_q (r : Road) (uid : ℕ) : r.quarter.vehicle? uid = (r.vehicle? uid).map Vehicle.quarter := by
  unfold vehicle?
  rw [vehicles_q, List.find?_map]
  rfl

theorem indexOf_q (r : Road) (uid : ℕ) : r.quarter.indexOf uid = r.indexOf uid := by
  unfold indexOf
  rw [vehicles_q, List.findIdx?_map]
  rfl

variable {P : Set Vec2} {L : Set Lane} (hPL : ∀ l ∈ L, ∀ p ∈ P, HasPlace l p)

include hPL in
theorem agentAct_q (G : Globals) (ty : AgentType) {r : Road} (hr : RIn P L r) (uid : ℕ) (a : AgentAction) :
    r.quarter.agentAct G ty uid a = (r.agentAct G ty uid a).map Road.quarter := by
  unfold agentAct
  rw [indexOf_q]
  cases ty.command a with
  | error e => rfl
  | ok c =>
    simp only [bind, Except.bind]
    cases r.indexOf uid with
    | none => rfl
    | some i => exact actAt_q hPL G c hr i

theorem agentAct_in {G : Globals} {ty : AgentType} {r r' : Road} (hr : RIn P L r) {uid : ℕ} {a : AgentAction}
    (h : r.agentAct G ty uid a = .ok r') : RIn P L r' := by
  unfold agentAct at h
  obtain ⟨c, -, h⟩ := bind_ok h
  cases hi : r.indexOf uid with
  | none => rw [hi] at h; cases h; exact hr
  | some i => rw [hi] at h; exact actAt_in hr h

include hPL in
theorem envAct_q (G : Globals) (ty : ActionType) (us : List ℕ) {r : Road} (hr : RIn P L r) (a : AgentAction) :
    r.quarter.envAct G ty us a = (r.envAct G ty us a).map Road.quarter := by
  unfold envAct
  cases ty with
  | single ty =>
    cases us with
    | nil => rfl
    | cons uid us => exact agentAct_q hPL G ty hr uid a
  | multi ty =>
    cases a with
    | index i => rfl
    | vector xs => rfl
    | tuple as =>
      exact foldlM_equiv_inv (RIn P L) Road.quarter _ _ (fun s (au : AgentAction × ℕ) hs => agentAct_q hPL G ty hs au.2 au.1)
        (fun s au s' hs h => agentAct_in hs h) _ r hr

theorem envAct_in {G : Globals} {ty : ActionType} {us : List ℕ} {r r' : Road} (hr : RIn P L r) {a : AgentAction}
    (h : r.envAct G ty us a = .ok r') : RIn P L r' := by
  unfold envAct at h
  cases ty with
  | single ty =>
    cases us with
    | nil => cases h
    | cons uid us => exact agentAct_in hr h
  | multi ty =>
    cases a with
    | index i => cases h
    | vector xs => cases h
    | tuple as =>
      have key : ∀ (l : List (AgentAction × ℕ)) (s : Road), RIn P L s →
          l.foldlM (fun (r : Road) (au : AgentAction × ℕ) => r.agentAct G ty au.2 au.1) s = .ok r' → RIn P L r' := by
        intro l
        induction l with
        | nil => intro s hs h; cases h; exact hs
        | cons au l ih =>
          intro s hs h
          rw [List.foldlM_cons] at h
          obtain ⟨s', h1, h⟩ := bind_ok h
          exact ih s' (agentAct_in hs h1) h
      exact key _ _ hr h

end Road

namespace Env

@[simp] theorem road_q (e : Env) : e.quarter.road = e.road.quarter := rfl
@[simp] theorem controlled_q (e : Env) : e.quarter.controlled = e.controlled := rfl
@[simp] theorem time_q (e : Env) : e.quarter.time = e.time := rfl
@[simp] theorem steps_q (e : Env) : e.quarter.steps = e.steps := rfl
@[simp] theorem done_q (e : Env) : e.quarter.done = e.done := rfl

theorem vehicle_q (e : Env) : e.quarter.vehicle = e.vehicle.map Vehicle.quarter := by
  unfold vehicle
  rw [controlled_q]
  cases e.controlled with
  | nil => rfl
  | cons uid us =>
    simp only [road_q, Road.vehicle?_q]
    cases e.road.vehicle? uid <;> rfl

theorem vehicle_mem {e : Env} {v : Vehicle} (h : e.vehicle = .ok v) : v ∈ e.road.vehicles := by
  unfold vehicle at h
  cases hc : e.controlled with
  | nil => rw [hc] at h; cases h
  | cons uid us =>
    rw [hc] at h
    dsimp only at h
    cases hv : e.road.vehicle? uid with
    | none => rw [hv] at h; cases h
    | some w => rw [hv] at h; cases h; exact List.mem_of_find?_eq_some hv

section
variable {P : Set Vec2} {L : Set Lane} (hPL : ∀ l ∈ L, ∀ p ∈ P, HasPlace l p)

include hPL in
theorem forward_q (G : Globals) (c : SimConfig) (k : Int) {e : Env} (he : RIn P L e.road) (a : Option AgentAction) :
    e.quarter.forward G c k a = (e.forward G c k a).map Env.quarter := by
  unfold forward
  cases a with
  | none => rfl
  | some a =>
    simp only [time_q, road_q, controlled_q, Road.envAct_q hPL G c.action e.controlled he]
    by_cases h : c.manualControl = false ∧ (e.time : Int) % k = 0
    · rw [if_pos h, if_pos h]
      cases e.road.envAct G c.action e.controlled a <;> rfl
    · rw [if_neg h, if_neg h]; rfl

theorem forward_in {G : Globals} {c : SimConfig} {k : Int} {e e' : Env} (he : RIn P L e.road) {a : Option AgentAction}
    (h : e.forward G c k a = .ok e') : RIn P L e'.road := by
  unfold forward at h
  cases a with
  | none => cases h; exact he
  | some a =>
    dsimp only at h
    by_cases hc : c.manualControl = false ∧ (e.time : Int) % k = 0
    · rw [if_pos hc] at h
      obtain ⟨r, h1, h⟩ := bind_ok h
      cases h
      exact Road.envAct_in he h1
    · rw [if_neg hc] at h; cases h; exact he

include hPL in
theorem frame_q {G : Globals} {c : SimConfig} {k : Int} {a : Option AgentAction} {e e' : Env} (he : RIn P L e.road)
    (h : e.frame G c k a = .ok e') (hn : ∀ v ∈ e'.road.vehicles, v.pos ∈ P) : e.quarter.frame G c k a = .ok e'.quarter ∧ RIn P L e'.road := by
  unfold frame at h ⊢
  obtain ⟨e1, h1, h⟩ := bind_ok h
  obtain ⟨r, h2, h⟩ := bind_ok h
  obtain ⟨r', h3, h⟩ := bind_ok h
  cases h
  have i1 := forward_in he h1
  have i2 := Road.act_in i1 h2
  rw [forward_q hPL G c k he, h1]
  simp only [Except.map, bind, Except.bind, road_q, Road.act_q hPL G i1, h2]
  rw [Road.step_q hPL i2 h3 hn]
  exact ⟨rfl, Road.step_in i2 h3 hn⟩

variable {cls : EnvClass} (hc : DirectionFree cls)
include hPL hc

theorem stops_q {e : Env} (he : RIn P L e.road) : e.quarter.stops cls = e.stops cls := by
  unfold stops
  rw [done_q, hc.terminal e (placeable_of_in hPL he)]

theorem simulateLoop_q {G : Globals} {c : SimConfig} {k : Int} {a : Option AgentAction} {n : ℕ} {e e' : Env} (he : RIn P L e.road)
    (hn : ∀ m ≤ n, ∀ s, simulateLoop G c cls k a m e = .ok s → ∀ v ∈ s.road.vehicles, v.pos ∈ P)
    (h : simulateLoop G c cls k a n e = .ok e') : simulateLoop G c cls k a n e.quarter = .ok e'.quarter ∧ RIn P L e'.road := by
  induction n generalizing e with
  | zero => cases h; exact ⟨rfl, he⟩
  | succ n ih =>
    unfold simulateLoop at h ⊢
    obtain ⟨e1, h1, h⟩ := bind_ok h
    obtain ⟨b, h2, h⟩ := bind_ok h
    have hn1 : ∀ v ∈ e1.road.vehicles, v.pos ∈ P := by
      refine hn 1 (by omega) e1 ?_
      unfold simulateLoop
      rw [h1]
      simp only [bind, Except.bind, h2]
      cases b <;> rfl
    obtain ⟨f1, i1⟩ := frame_q hPL he h1 hn1
    rw [f1]
    simp only [bind, Except.bind, stops_q hPL hc i1, h2]
    cases b
    · refine ih i1 (fun m hm s hs => hn (m + 1) (by omega) s ?_) h
      unfold simulateLoop
      rw [h1]
      simp only [bind, Except.bind, h2]
      exact hs
    · cases h; exact ⟨rfl, i1⟩

theorem step_q {G : Globals} {c : SimConfig} {e e' : Env} {a : Option AgentAction} {res : StepResult} (he : RIn P L e.road)
    (hn : ∀ k, framesPerStep c = .ok k → ∀ n ≤ k.toNat, ∀ s, simulateLoop G c cls k a n { e with steps := e.steps + 1 } = .ok s →
      ∀ v ∈ s.road.vehicles, v.pos ∈ P)
    (h : step G c cls e a = .ok (e', res)) : step G c cls e.quarter a = .ok (e'.quarter, res) ∧ ∃ e1, RIn P L e1.road ∧ cls.after e1 = .ok e' := by
  unfold step at h ⊢
  rw [controlled_q]
  by_cases hne : e.controlled = []
  · rw [if_pos hne] at h; cases h
  rw [if_neg hne] at h ⊢
  obtain ⟨e1, h1, h⟩ := bind_ok h
  obtain ⟨r, h2, h⟩ := bind_ok h
  obtain ⟨b, h3, h⟩ := bind_ok h
  obtain ⟨v, h4, h⟩ := bind_ok h
  obtain ⟨co, h5, h⟩ := bind_ok h
  obtain ⟨e2, h6, h⟩ := bind_ok h
  unfold simulate at h1
  obtain ⟨k, hk, h1⟩ := bind_ok h1
  obtain ⟨s1, i1⟩ := simulateLoop_q hPL hc (e := { e with steps := e.steps + 1 }) he (hn k hk) h1
  have w1 := placeable_of_in hPL i1
  have h0 : simulate G c cls a (Env.mk e.quarter.road e.controlled e.quarter.time (e.quarter.steps + 1) e.quarter.done
      e.quarter.goal e.quarter.nextUid) = .ok e1.quarter := by
    unfold simulate
    rw [hk]
    exact s1
  have h5' : e1.quarter.tryCost cls = .ok co := by
    rw [← h5]
    unfold tryCost
    rw [hc.cost e1 w1]
  rw [h0]
  simp only [bind, Except.bind, hc.reward e1 a w1, h2, hc.terminal e1 w1, h3, vehicle_q, h4, Except.map, h5', hc.after e1 w1, h6]
  cases h
  exact ⟨rfl, e1, i1, h6⟩

end
end Env

namespace Graph

theorem allSideLanes_q (g : Graph) (i : LaneIndex) : g.quarter.allSideLanes i = g.allSideLanes i := by
  unfold allSideLanes
  rw [lanesOf_q]
  cases g.lanesOf i.src i.dst with
  | error e => rfl
  | ok ls => simp [Except.map, bind, Except.bind]

theorem isConnectedRoad_q (g : Graph) (a b : RouteStep) (route : Option (List RouteStep)) (sameLane : Bool) (depth : ℕ) :
    g.quarter.isConnectedRoad a b route sameLane depth = g.isConnectedRoad a b route sameLane depth := by
  have hs : ∀ n, g.quarter.succs n = g.succs n := by
    intro n
    unfold Graph.succs
    rw [Graph.get?_q]
    cases Dict.get? g n with
    | none => rfl
    | some d => exact Dict.keys_map _ d
  exact Graph.isConnectedRoad_congr g _ hs a b route sameLane depth

end Graph

namespace Vehicle

theorem onRoad_q {v : Vehicle} (h : HasPlace v.lane v.pos) : v.quarter.onRoad = v.onRoad := by
  unfold onRoad
  exact Lane.onLane_q h _ _ _

theorem direction_q' (v : Vehicle) : v.quarter.direction = v.direction.quarter := Vec2.dir_quarter _

theorem speedIndex_q (v : Vehicle) : v.quarter.speedIndex = v.speedIndex := rfl

theorem destination_q (g : Graph) (v : Vehicle) : v.quarter.destination g.quarter = (v.destination g).map Vec2.quarter := by
  unfold destination
  by_cases h : v.kind.isControlled = true
  · rw [if_pos h, if_pos (show v.quarter.kind.isControlled = true from h)]
    show (match v.route with | some (s :: rest) => _ | _ => _) = _
    cases v.route with
    | none => rfl
    | some l =>
      cases l with
      | nil => rfl
      | cons s rest =>
        simp only [Graph.getLaneStep_q]
        cases g.getLaneStep ((s :: rest).getLast (by simp)) with
        | error e => rfl
        | ok l => simp [Except.map, bind, Except.bind, pure, Except.pure, Lane.position_q]
  · rw [if_neg h, if_neg (show ¬ v.quarter.kind.isControlled = true from h)]; rfl

theorem destinationDirection_q (g : Graph) (v : Vehicle) :
    v.quarter.destinationDirection g.quarter = (v.destinationDirection g).map Vec2.quarter := by
  unfold destinationDirection
  rw [destination_q]
  cases v.destination g with
  | error e => rfl
  | ok d =>
    simp only [Except.map, bind, Except.bind]
    have hp : v.quarter.pos = v.pos.quarter := rfl
    rw [hp]
    by_cases h : d = v.pos
    · rw [if_neg (by simp [h]), if_neg (by simp [h])]
      simp [pure, Except.pure, Vec2.quarter]
    · rw [if_pos (by rw [ne_eq, Vec2.quarter_inj]; exact h), if_pos h]
      simp only [← Vec2.quarter_sub, Vec2.norm_quarter, pure, Except.pure]
      congr 1
      ext
      · simp only [Vec2.quarter]; ring
      · simp only [Vec2.quarter]

theorem absDict_q (g : Graph) (v : Vehicle) (b : Bool) : v.quarter.absDict g.quarter b = (v.absDict g b).map turnFeatures := by
  unfold absDict
  rw [destinationDirection_q]
  cases v.destinationDirection g with
  | error e => rfl
  | ok d =>
    simp only [Except.map, bind, Except.bind, pure, Except.pure, velocity_q, direction_q']
    unfold turnFeatures
    cases b <;> simp [Dict.get?, Vec2.quarter, quarter]

theorem toDict_q (g : Graph) (v : Vehicle) (o : Option Vehicle) (b : Bool) :
    v.quarter.toDict g.quarter (o.map Vehicle.quarter) b = (v.toDict g o b).map turnFeatures := by
  unfold toDict
  rw [absDict_q]
  cases o with
  | none => cases v.absDict g b <;> rfl
  | some w =>
    simp only [Option.map_some, absDict_q]
    unfold absDict
    cases v.destinationDirection g with
    | error e => rfl
    | ok d =>
      cases w.destinationDirection g with
      | error e => rfl
      | ok d' =>
        simp only [Except.map, bind, Except.bind, pure, Except.pure]
        congr 1
        unfold turnFeatures
        simp [relativeTo, Dict.setItem, Dict.get?]
        try constructor <;> ring

end Vehicle

namespace Road
variable {P : Set Vec2} {L : Set Lane} (hPL : ∀ l ∈ L, ∀ p ∈ P, HasPlace l p)
include hPL

theorem closeVehiclesTo_q {r : Road} (hr : RIn P L r) {v : Vehicle} (hv : VIn P L v) (d : ℝ) (c : Option Int) (b : Bool) :
    r.quarter.closeVehiclesTo v.quarter d c b = (r.closeVehiclesTo v d c b).map Vehicle.quarter := by
  have hd : ∀ w ∈ r.vehicles, v.quarter.laneDistanceTo w.quarter.pos = v.laneDistanceTo w.pos := fun w hw =>
    Vehicle.laneDistanceTo_q (hPL _ hv.2 _ (hr.vehicles w hw).1) (hPL _ hv.2 _ hv.1)
  unfold closeVehiclesTo
  have h : (r.quarter.vehicles.filter fun w =>
      decide ((w.pos - v.quarter.pos).norm < d) && decide (w.uid ≠ v.quarter.uid) &&
      (b || decide (-2 * Vehicle.LENGTH < v.quarter.laneDistanceTo w.pos))) =
      (r.vehicles.filter fun w => decide ((w.pos - v.pos).norm < d) && decide (w.uid ≠ v.uid) &&
      (b || decide (-2 * Vehicle.LENGTH < v.laneDistanceTo w.pos))).map Vehicle.quarter := by
    rw [vehicles_q, List.filter_map]
    congr 1
    apply List.filter_congr
    intro w hw
    simp only [Function.comp, hd w hw]
    have : (w.quarter.pos - v.quarter.pos).norm = (w.pos - v.pos).norm := by
      show (w.pos.quarter - v.pos.quarter).norm = _
      rw [← Vec2.quarter_sub, Vec2.norm_quarter]
    rw [this]
    rfl
  simp only [h]
  have h2 : ∀ l : List Vehicle, (∀ w ∈ l, w ∈ r.vehicles) → (l.map Vehicle.quarter).mergeSort
      (fun a b => decide (|v.quarter.laneDistanceTo a.pos| ≤ |v.quarter.laneDistanceTo b.pos|)) =
      (l.mergeSort (fun a b => decide (|v.laneDistanceTo a.pos| ≤ |v.laneDistanceTo b.pos|))).map Vehicle.quarter := by
    intro l hl
    symm
    apply List.map_mergeSort
    intro a ha b hb
    simp only [hd a (hl a ha), hd b (hl b hb)]
  simp only [h2 _ fun w hw => (List.mem_filter.1 hw).1]
  cases c with
  | none => rfl
  | some n =>
    cases n with
    | ofNat k =>
      cases k with
      | zero => rfl
      | succ k =>
        simp only [Int.ofNat_eq_natCast, List.length_map, List.map_take, apply_ite (List.map Vehicle.quarter)]
    | negSucc k => simp only [List.length_map, List.map_take, apply_ite (List.map Vehicle.quarter)]

theorem timeToCollision_q {v w : Vehicle} (hv : VIn P L v) (hw : VIn P L w) (s m : ℝ) :
    timeToCollision v.quarter w.quarter s m = timeToCollision v w s m := by
  unfold timeToCollision
  have h : v.quarter.laneDistanceTo w.quarter.pos = v.laneDistanceTo w.pos :=
    Vehicle.laneDistanceTo_q (hPL _ hv.2 _ hw.1) (hPL _ hv.2 _ hv.1)
  rw [h, Vehicle.direction_q', Vehicle.direction_q', Vec2.dot_quarter]
  rfl

theorem ttcOther_q (g : Graph) {v w : Vehicle} (hv : VIn P L v) (hw : VIn P L w) (q : ℝ) (h : ℕ) (s : ℝ) (grid : Grid3) :
    ttcOther g.quarter v.quarter q h s grid w.quarter = ttcOther g v q h s grid w := by
  have hp : ttcPoint g.quarter v.quarter w.quarter q h s = ttcPoint g v w q h s := by
    funext grid mc
    unfold ttcPoint expectedLanes
    simp only [timeToCollision_q hPL hv hw, Graph.isConnectedRoad_q, Graph.allSideLanes_q]
    rfl
  unfold ttcOther
  rw [hp]
  by_cases hu : w.uid = v.uid ∨ s = w.speed
  · rw [if_pos hu]; exact if_pos hu
  · rw [if_neg hu]; exact if_neg hu

theorem computeTtcGrid_q (G : Globals) {r : Road} (hr : RIn P L r) (i : LaneIndex) {v : Vehicle} (hv : VIn P L v) (q horizon : ℝ) :
    computeTtcGrid G r.quarter i v.quarter q horizon = computeTtcGrid G r i v q horizon := by
  have hl : ∀ (h : ℕ) (s : ℝ) (l : List Vehicle), (∀ w ∈ l, w ∈ r.vehicles) → ∀ (grid : Grid3),
      (l.map Vehicle.quarter).foldlM (ttcOther r.network.quarter v.quarter q h s) grid = l.foldlM (ttcOther r.network v q h s) grid := by
    intro h s l
    induction l with
    | nil => intro _ _; rfl
    | cons w l ih =>
      intro hm grid
      simp only [List.map_cons, List.foldlM_cons, ttcOther_q hPL r.network hv (hr.vehicles w (hm w (.head _)))]
      exact congrArg _ (funext fun g => ih (fun x hx => hm x (.tail _ hx)) g)
  unfold computeTtcGrid
  simp only [Road.network_q, Road.vehicles_q, Graph.allSideLanes_q, hl _ _ r.vehicles fun _ h => h]
  rfl

end Road
end HighwayEnv
