import Verif.Spec.Moved
import Verif.Lemmas.Translate
import Verif.Model.Occupancy

/-! Environments and observations commute with moving the whole world. -/

noncomputable section
open Classical
namespace HighwayEnv

namespace Road
variable (t : Vec2)

theorem vehicle?_tr (r : Road) (uid : ℕ) : (r.translate t).vehicle? uid = (r.vehicle? uid).map (Vehicle.translate t) := by
  unfold vehicle?
  rw [vehicles_tr, List.find?_map]
  rfl

theorem indexOf_tr (r : Road) (uid : ℕ) : (r.translate t).indexOf uid = r.indexOf uid := by
  unfold indexOf
  rw [vehicles_tr, List.findIdx?_map]
  rfl

theorem agentAct_tr (G : Globals) (ty : AgentType) (r : Road) (uid : ℕ) (a : AgentAction) :
    (r.translate t).agentAct G ty uid a = (r.agentAct G ty uid a).map (Road.translate t) := by
  unfold agentAct
  rw [indexOf_tr]
  cases ty.command a with
  | error e => rfl
  | ok c =>
    simp only [bind, Except.bind]
    cases r.indexOf uid with
    | none => rfl
    | some i => exact actAt_tr t G c r i

theorem envAct_tr (G : Globals) (ty : ActionType) (us : List ℕ) (r : Road) (a : AgentAction) :
    (r.translate t).envAct G ty us a = (r.envAct G ty us a).map (Road.translate t) := by
  unfold envAct
  cases ty with
  | single ty =>
    cases us with
    | nil => rfl
    | cons uid us => exact agentAct_tr t G ty r uid a
  | multi ty =>
    cases a with
    | index i => rfl
    | vector xs => rfl
    | tuple as =>
      exact foldlM_equiv (Road.translate t) _ _ (fun s (au : AgentAction × ℕ) => agentAct_tr t G ty s au.2 au.1) _ r

theorem closeVehiclesTo_tr (r : Road) (v : Vehicle) (d : ℝ) (c : Option Int) (b : Bool) :
    (r.translate t).closeVehiclesTo (v.translate t) d c b = (r.closeVehiclesTo v d c b).map (Vehicle.translate t) := by
  unfold closeVehiclesTo
  have h : ((r.translate t).vehicles.filter fun w =>
      decide ((w.pos - (v.translate t).pos).norm < d) && decide (w.uid ≠ (v.translate t).uid) &&
      (b || decide (-2 * Vehicle.LENGTH < (v.translate t).laneDistanceTo w.pos))) =
      (r.vehicles.filter fun w => decide ((w.pos - v.pos).norm < d) && decide (w.uid ≠ v.uid) &&
      (b || decide (-2 * Vehicle.LENGTH < v.laneDistanceTo w.pos))).map (Vehicle.translate t) := by
    rw [vehicles_tr, List.filter_map]
    congr 1
    apply List.filter_congr
    intro w _
    simp only [Function.comp, Vehicle.pos_tr, Vehicle.uid_tr, Vehicle.laneDistanceTo_tr, Vec2.add_sub_add]
    congr!
  simp only [h]
  have h2 : ∀ l : List Vehicle, (l.map (Vehicle.translate t)).mergeSort
      (fun a b => decide (|(v.translate t).laneDistanceTo a.pos| ≤ |(v.translate t).laneDistanceTo b.pos|)) =
      (l.mergeSort (fun a b => decide (|v.laneDistanceTo a.pos| ≤ |v.laneDistanceTo b.pos|))).map (Vehicle.translate t) := by
    intro l
    symm
    apply List.map_mergeSort
    intro a _ b _
    simp only [Vehicle.pos_tr, Vehicle.laneDistanceTo_tr]
  simp only [h2]
  cases c with
  | none => rfl
  | some n =>
    cases n with
    | ofNat k =>
      cases k with
      | zero => rfl
      | succ k =>
        simp only [Int.ofNat_eq_natCast, List.length_map, List.map_take, apply_ite (List.map (Vehicle.translate t))]
    | negSucc k => simp only [List.length_map, List.map_take, apply_ite (List.map (Vehicle.translate t))]

end Road

namespace Env
variable (t : Vec2)

@[simp] theorem road_tr (e : Env) : (e.translate t).road = e.road.translate t := rfl
@[simp] theorem controlled_tr (e : Env) : (e.translate t).controlled = e.controlled := rfl
@[simp] theorem time_tr (e : Env) : (e.translate t).time = e.time := rfl
@[simp] theorem steps_tr (e : Env) : (e.translate t).steps = e.steps := rfl
@[simp] theorem done_tr (e : Env) : (e.translate t).done = e.done := rfl

theorem vehicle_tr (e : Env) : (e.translate t).vehicle = e.vehicle.map (Vehicle.translate t) := by
  unfold vehicle
  rw [controlled_tr]
  cases e.controlled with
  | nil => rfl
  | cons uid us =>
    simp only [road_tr, Road.vehicle?_tr]
    cases e.road.vehicle? uid <;> rfl

theorem forward_tr (G : Globals) (c : SimConfig) (k : Int) (e : Env) (a : Option AgentAction) :
    (e.translate t).forward G c k a = (e.forward G c k a).map (Env.translate t) := by
  unfold forward
  cases a with
  | none => rfl
  | some a =>
    simp only [time_tr, road_tr, controlled_tr, Road.envAct_tr]
    by_cases h : c.manualControl = false ∧ (e.time : Int) % k = 0
    · rw [if_pos h, if_pos h]
      cases e.road.envAct G c.action e.controlled a <;> rfl
    · rw [if_neg h, if_neg h]; rfl

theorem frame_tr (G : Globals) (c : SimConfig) (k : Int) (a : Option AgentAction) (e : Env) :
    (e.translate t).frame G c k a = (e.frame G c k a).map (Env.translate t) := by
  unfold frame
  rw [forward_tr]
  cases e.forward G c k a with
  | error x => rfl
  | ok e1 =>
    simp only [Except.map, bind, Except.bind, road_tr, Road.act_tr]
    cases e1.road.act G with
    | error x => rfl
    | ok r =>
      simp only [Road.step_tr]
      cases r.step (1 / c.simulationFrequency) <;> rfl

variable {cls : EnvClass} (hc : Spec.PositionFreeAt t cls)
include hc

theorem stops_tr (e : Env) : (e.translate t).stops cls = e.stops cls := by
  unfold stops
  rw [done_tr, hc.terminal]

theorem simulateLoop_tr (G : Globals) (c : SimConfig) (k : Int) (a : Option AgentAction) (n : ℕ) (e : Env) :
    simulateLoop G c cls k a n (e.translate t) = (simulateLoop G c cls k a n e).map (Env.translate t) := by
  induction n generalizing e with
  | zero => rfl
  | succ n ih =>
    unfold simulateLoop
    rw [frame_tr]
    cases e.frame G c k a with
    | error x => rfl
    | ok e1 =>
      simp only [Except.map, bind, Except.bind, stops_tr t hc]
      cases e1.stops cls with
      | error x => rfl
      | ok b =>
        cases b
        · exact ih e1
        · rfl

theorem simulate_tr (G : Globals) (c : SimConfig) (a : Option AgentAction) (e : Env) :
    simulate G c cls a (e.translate t) = (simulate G c cls a e).map (Env.translate t) := by
  unfold simulate
  cases framesPerStep c with
  | error x => rfl
  | ok k => exact simulateLoop_tr t hc G c k a _ e

theorem tryCost_tr (e : Env) : (e.translate t).tryCost cls = e.tryCost cls := by
  unfold tryCost
  rw [hc.cost]

theorem step_tr (G : Globals) (c : SimConfig) (e : Env) (a : Option AgentAction) :
    step G c cls (e.translate t) a = (step G c cls e a).map fun p => (p.1.translate t, p.2) := by
  unfold step
  rw [controlled_tr]
  by_cases h : e.controlled = []
  · rw [if_pos h, if_pos h]; rfl
  rw [if_neg h, if_neg h]
  have h0 : simulate G c cls a (Env.mk (translate t e).road e.controlled (translate t e).time ((translate t e).steps + 1) (translate t e).done
      (translate t e).goal (translate t e).nextUid) =
      (simulate G c cls a { e with steps := e.steps + 1 }).map (Env.translate t) :=
    simulate_tr t hc G c a { e with steps := e.steps + 1 }
  rw [h0]
  cases simulate G c cls a { e with steps := e.steps + 1 } with
  | error x => rfl
  | ok e1 =>
    simp only [Except.map, bind, Except.bind, hc.reward, hc.terminal, vehicle_tr, tryCost_tr t hc, hc.after]
    cases cls.reward e1 a with
    | error x => rfl
    | ok rw1 =>
      cases cls.terminal e1 with
      | error x => rfl
      | ok b =>
        cases e1.vehicle with
        | error x => rfl
        | ok v =>
          cases e1.tryCost cls with
          | error x => rfl
          | ok co => 
            cases cls.after e1 with
            | error x => rfl
            | ok e2 => rfl

end Env

namespace Graph
variable (t : Vec2)

theorem allSideLanes_tr (g : Graph) (i : LaneIndex) : (g.translate t).allSideLanes i = g.allSideLanes i := by
  unfold allSideLanes
  rw [lanesOf_tr]
  cases g.lanesOf i.src i.dst with
  | error e => rfl
  | ok ls => simp [Except.map, bind, Except.bind]

end Graph

namespace Vehicle
variable (t : Vec2)

theorem onRoad_tr (v : Vehicle) : (v.translate t).onRoad = v.onRoad := by
  unfold onRoad; simp

theorem speedIndex_tr (v : Vehicle) : (v.translate t).speedIndex = v.speedIndex := rfl

theorem destination_tr (g : Graph) (v : Vehicle) : (v.translate t).destination (g.translate t) = (v.destination g).map (· + t) := by
  unfold destination
  by_cases h : v.kind.isControlled = true
  · rw [if_pos h, if_pos (show (v.translate t).kind.isControlled = true from h)]
    simp only [route_tr, pos_tr]
    cases v.route with
    | none => rfl
    | some l =>
      cases l with
      | nil => rfl
      | cons s rest =>
        simp only [Graph.getLaneStep_tr]
        cases g.getLaneStep ((s :: rest).getLast (by simp)) with
        | error e => rfl
        | ok l => simp [Except.map, bind, Except.bind, pure, Except.pure]
  · rw [if_neg h, if_neg (show ¬ (v.translate t).kind.isControlled = true from h)]; rfl

theorem destinationDirection_tr (g : Graph) (v : Vehicle) :
    (v.translate t).destinationDirection (g.translate t) = v.destinationDirection g := by
  unfold destinationDirection
  rw [destination_tr]
  cases v.destination g with
  | error e => rfl
  | ok d =>
    simp only [Except.map, bind, Except.bind, pos_tr, ne_eq, Vec2.add_cancel, Vec2.add_sub_add]
    by_cases h : d = v.pos
    · rw [if_neg (by simpa using h), if_neg (by simpa using h)]
    · rw [if_pos h, if_pos h]
      simp

theorem absDict_tr (g : Graph) (v : Vehicle) (b : Bool) (f : String) :
    ((v.translate t).absDict (g.translate t) b).bind (fun d => Dict.getItem d f) =
      ((v.absDict g b).bind fun d => Dict.getItem d f).map (Spec.shiftFeature t f) := by
  unfold absDict
  rw [destinationDirection_tr]
  cases v.destinationDirection g with
  | error e => rfl
  | ok d =>
    simp only [bind, Except.bind, pure, Except.pure, Dict.getItem, Dict.get?, pos_tr, velocity_tr, heading_tr, direction_tr]
    by_cases h0 : "presence" = f
    · subst h0; rw [if_pos rfl, if_pos rfl]; simp [Except.map, Spec.shiftFeature]
    rw [if_neg h0, if_neg h0]
    by_cases h1 : "x" = f
    · subst h1; rw [if_pos rfl, if_pos rfl]; simp [Except.map, Spec.shiftFeature]
    rw [if_neg h1, if_neg h1]
    by_cases h2 : "y" = f
    · subst h2; rw [if_pos rfl, if_pos rfl]; simp [Except.map, Spec.shiftFeature]
    rw [if_neg h2, if_neg h2]
    have hs : Spec.shiftFeature t f = id := by
      funext x; unfold Spec.shiftFeature; rw [if_neg (Ne.symm h1), if_neg (Ne.symm h2)]; rfl
    rw [hs]
    generalize (if "vx" = f then _ else _ : Option ℝ) = o
    cases o <;> rfl

theorem toDict_rel_tr (g : Graph) (v w : Vehicle) (b : Bool) :
    (v.translate t).toDict (g.translate t) (some (w.translate t)) b = v.toDict g (some w) b := by
  unfold toDict absDict
  dsimp only
  rw [destinationDirection_tr, destinationDirection_tr]
  cases v.destinationDirection g with
  | error e => rfl
  | ok d =>
    cases w.destinationDirection g with
    | error e => rfl
    | ok d' =>
      simp only [bind, Except.bind, pure, Except.pure, pos_tr, velocity_tr, heading_tr, direction_tr]
      simp [relativeTo, Dict.setItem, Dict.get?]

end Vehicle
end HighwayEnv
