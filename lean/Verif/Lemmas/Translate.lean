import Verif.Spec.Translate
import Verif.Lemmas.Vec2

/-! Every function of the simulation commutes with moving the whole world. -/

noncomputable section
open Classical
namespace HighwayEnv

theorem Vec2.add_sub_add (p q t : Vec2) : (p + t) - (q + t) = p - q := by ext <;> simp
theorem Vec2.add_right_comm (p q t : Vec2) : p + t + q = p + q + t := by ext <;> simp <;> ring
theorem Vec2.add_cancel (p q t : Vec2) : p + t = q + t ↔ p = q := by
  constructor
  · intro h
    have hx := congrArg Vec2.x h
    have hy := congrArg Vec2.y h
    ext
    · simpa using hx
    · simpa using hy
  · rintro rfl; rfl

namespace Lane
variable (t : Vec2)

theorem straightDir_tr (a b : Vec2) : straightDir (a + t) (b + t) = straightDir a b := by
  unfold straightDir
  rw [Vec2.add_sub_add]
  simp

theorem straightLocal_tr (a b p : Vec2) : straightLocal (a + t) (b + t) (p + t) = straightLocal a b p := by
  unfold straightLocal
  rw [straightDir_tr, Vec2.add_sub_add]

theorem straightHeading_tr (a b : Vec2) : straightHeading (a + t) (b + t) = straightHeading a b := by
  unfold straightHeading; simp

theorem straightPosition_tr (a b : Vec2) (s r : ℝ) : straightPosition (a + t) (b + t) s r = straightPosition a b s r + t := by
  unfold straightPosition
  rw [straightDir_tr]
  ext <;> simp <;> ring

@[simp] theorem length_tr (l : Lane) : (l.translate t).length = l.length := by
  cases l with | mk shape => cases shape <;> simp [Lane.translate, LaneShape.translate, length, Vec2.add_sub_add]

@[simp] theorem headingAt_tr (l : Lane) (s : ℝ) : (l.translate t).headingAt s = l.headingAt s := by
  cases l with | mk shape => cases shape <;> simp [Lane.translate, LaneShape.translate, headingAt, straightHeading_tr]

@[simp] theorem localCoordinates_tr (l : Lane) (p : Vec2) : (l.translate t).localCoordinates (p + t) = l.localCoordinates p := by
  cases l with | mk shape => cases shape <;> simp [Lane.translate, LaneShape.translate, localCoordinates, straightLocal_tr, Vec2.add_sub_add]

@[simp] theorem position_tr (l : Lane) (s r : ℝ) : (l.translate t).position s r = l.position s r + t := by
  cases l with | mk shape =>
    cases shape <;> simp [Lane.translate, LaneShape.translate, position, straightPosition_tr, Vec2.add_right_comm]

@[simp] theorem width_tr (l : Lane) : (l.translate t).width = l.width := rfl
@[simp] theorem widthAt_tr (l : Lane) (s : ℝ) : (l.translate t).widthAt s = l.widthAt s := rfl
@[simp] theorem forbidden_tr (l : Lane) : (l.translate t).forbidden = l.forbidden := rfl
@[simp] theorem speedLimit_tr (l : Lane) : (l.translate t).speedLimit = l.speedLimit := rfl
@[simp] theorem priority_tr (l : Lane) : (l.translate t).priority = l.priority := rfl

@[simp] theorem onLane_tr (l : Lane) (p : Vec2) (a b : Option ℝ) (m : ℝ) : (l.translate t).onLane (p + t) a b m = l.onLane p a b m := by
  unfold onLane; simp

@[simp] theorem isReachableFrom_tr (l : Lane) (p : Vec2) : (l.translate t).isReachableFrom (p + t) = l.isReachableFrom p := by
  unfold isReachableFrom; simp

@[simp] theorem afterEnd_tr (l : Lane) (p : Vec2) (a : Option ℝ) : (l.translate t).afterEnd (p + t) a = l.afterEnd p a := by
  unfold afterEnd; simp

@[simp] theorem distance_tr (l : Lane) (p : Vec2) : (l.translate t).distance (p + t) = l.distance p := by
  unfold distance; simp

@[simp] theorem distanceWithHeading_tr (l : Lane) (p : Vec2) (h : Option ℝ) (w : ℝ) :
    (l.translate t).distanceWithHeading (p + t) h w = l.distanceWithHeading p h w := by
  unfold distanceWithHeading; cases h <;> simp

end Lane

/-- Renaming the values of a dictionary. -/
theorem Dict.get?_map {α β γ : Type*} [DecidableEq α] (f : β → γ) (d : Dict α β) (k : α) :
    Dict.get? (d.map fun ab => (ab.1, f ab.2)) k = (Dict.get? d k).map f := by
  induction d with
  | nil => rfl
  | cons ab d ih =>
    obtain ⟨a, b⟩ := ab
    simp only [List.map_cons, Dict.get?]
    by_cases h : a = k
    · rw [if_pos h, if_pos h]; rfl
    · rw [if_neg h, if_neg h]; exact ih

theorem Dict.getItem_map {α β γ : Type*} [DecidableEq α] (f : β → γ) (d : Dict α β) (k : α) :
    Dict.getItem (d.map fun ab => (ab.1, f ab.2)) k = (Dict.getItem d k).map f := by
  unfold Dict.getItem
  rw [Dict.get?_map]
  cases Dict.get? d k <;> rfl

theorem Dict.keys_map {α β γ : Type*} (f : β → γ) (d : Dict α β) : Dict.keys (d.map fun ab => (ab.1, f ab.2)) = Dict.keys d := by
  unfold Dict.keys; simp

theorem pyIndex_map {α β : Type*} (f : α → β) (l : List α) (i : Int) : pyIndex (l.map f) i = (pyIndex l i).map f := by
  unfold pyIndex
  simp only [List.length_map, List.getElem?_map]
  generalize (if i < 0 then i + (l.length : Int) else i) = j
  by_cases h : j < 0
  · rw [if_pos h, if_pos h]; rfl
  · rw [if_neg h, if_neg h]
    cases l[j.toNat]? <;> rfl

namespace Graph
variable (t : Vec2)

theorem get?_tr (g : Graph) (n : String) :
    Dict.get? (g.translate t) n = (Dict.get? g n).map fun d => d.map fun ml => (ml.1, ml.2.map (Lane.translate t)) := by
  unfold Graph.translate
  exact Dict.get?_map _ g n

theorem lanesOf_tr (g : Graph) (a b : String) : (g.translate t).lanesOf a b = (g.lanesOf a b).map (List.map (Lane.translate t)) := by
  unfold lanesOf
  have h1 : Dict.getItem (g.translate t) a = (Dict.getItem g a).map fun d => d.map fun ml => (ml.1, ml.2.map (Lane.translate t)) :=
    Dict.getItem_map _ g a
  rw [h1]
  cases Dict.getItem g a with
  | error e => rfl
  | ok d => exact Dict.getItem_map _ d b

theorem getLaneStep_tr (g : Graph) (i : RouteStep) : (g.translate t).getLaneStep i = (g.getLaneStep i).map (Lane.translate t) := by
  unfold getLaneStep
  rw [lanesOf_tr]
  cases g.lanesOf i.src i.dst with
  | error e => rfl
  | ok ls =>
    simp only [Except.map, bind, Except.bind]
    cases i.id with
    | some k => exact pyIndex_map _ _ _
    | none =>
      simp only [List.length_map]
      by_cases h : ls.length = 1
      · rw [if_pos h, if_pos h]; exact pyIndex_map _ _ _
      · rw [if_neg h, if_neg h]

theorem getLane_tr (g : Graph) (i : LaneIndex) : (g.translate t).getLane i = (g.getLane i).map (Lane.translate t) := getLaneStep_tr t g _

theorem indexedLanes_tr (g : Graph) : (g.translate t).indexedLanes = g.indexedLanes.map fun il => (il.1, il.2.translate t) := by
  unfold indexedLanes Graph.translate
  simp only [List.flatMap_map, List.map_flatMap, List.zipIdx_map, List.map_map]
  rfl

theorem firstMin_map {α β : Type*} (f : β → ℝ) (h : α → β) (l : List α) : firstMin f (l.map h) = (firstMin (fun a => f (h a)) l).map h := by
  induction l with
  | nil => rfl
  | cons a l ih =>
    simp only [List.map_cons, firstMin, ih]
    cases firstMin (fun a => f (h a)) l with
    | none => rfl
    | some b =>
      simp only [Option.map_some]
      by_cases hc : f (h a) ≤ f (h b)
      · rw [if_pos hc, if_pos hc]; rfl
      · rw [if_neg hc, if_neg hc]; rfl

theorem getClosestLaneIndex_tr (g : Graph) (p : Vec2) (h : Option ℝ) :
    (g.translate t).getClosestLaneIndex (p + t) h = g.getClosestLaneIndex p h := by
  unfold getClosestLaneIndex
  rw [indexedLanes_tr, firstMin_map]
  simp only [Lane.distanceWithHeading_tr]
  cases firstMin (fun il : LaneIndex × Lane => il.2.distanceWithHeading p h) g.indexedLanes <;> rfl

theorem nextLaneOn_tr (g : Graph) (cur : LaneIndex) (n : String) (p : Vec2) :
    (g.translate t).nextLaneOn cur n (p + t) = g.nextLaneOn cur n p := by
  unfold nextLaneOn
  rw [lanesOf_tr, lanesOf_tr]
  cases g.lanesOf cur.src cur.dst with
  | error e => rfl
  | ok here =>
    cases g.lanesOf cur.dst n with
    | error e => rfl
    | ok there =>
      simp only [Except.map, bind, Except.bind, List.length_map]
      by_cases h : here.length = there.length
      · rw [if_pos h, if_pos h]
      · rw [if_neg h, if_neg h, List.zipIdx_map, firstMin_map]
        simp only [Prod.map_fst, Lane.distance_tr]
        cases firstMin (fun lk : Lane × ℕ => lk.1.distance p) there.zipIdx <;> rfl

theorem nextLane_tr (g : Graph) (cur : LaneIndex) (route : Option (List RouteStep)) (p : Vec2) (rng : Rng) :
    (g.translate t).nextLane cur route (p + t) rng = g.nextLane cur route p rng := by
  unfold nextLane
  simp only [nextLaneOn_tr, get?_tr]
  cases Dict.get? g cur.dst with
  | none => rfl
  | some d =>
    simp only [Option.map_some, List.length_map]
    have : Dict.keys (d.map fun ml : String × List Lane => (ml.1, ml.2.map (Lane.translate t))) = Dict.keys d := Dict.keys_map _ d
    simp only [this]

theorem sideLanes_tr (g : Graph) (i : LaneIndex) : (g.translate t).sideLanes i = g.sideLanes i := by
  unfold sideLanes
  rw [lanesOf_tr]
  cases g.lanesOf i.src i.dst with
  | error e => rfl
  | ok ls => simp [Except.map, bind, Except.bind]

theorem positionHeadingAlongRoute_tr (g : Graph) (route : List RouteStep) (lon lat : ℝ) :
    (g.translate t).positionHeadingAlongRoute route lon lat = (g.positionHeadingAlongRoute route lon lat).map fun ph => (ph.1 + t, ph.2) := by
  induction route generalizing lon with
  | nil => rfl
  | cons s rest ih =>
    cases rest with
    | nil =>
      unfold positionHeadingAlongRoute
      rw [getLaneStep_tr]
      cases g.getLaneStep s with
      | error e => rfl
      | ok l => simp [Except.map, bind, Except.bind, pure, Except.pure]
    | cons s' rest =>
      unfold positionHeadingAlongRoute
      rw [getLaneStep_tr]
      cases g.getLaneStep s with
      | error e => rfl
      | ok l =>
        simp only [Except.map, bind, Except.bind, Lane.length_tr]
        by_cases h : lon > l.length
        · rw [if_pos h, if_pos h]; exact ih _
        · rw [if_neg h, if_neg h]; simp [pure, Except.pure]

end Graph

/-! Vehicles -/

namespace Vehicle
variable (t : Vec2)

@[simp] theorem uid_tr (v : Vehicle) : (v.translate t).uid = v.uid := rfl
@[simp] theorem kind_tr (v : Vehicle) : (v.translate t).kind = v.kind := rfl
@[simp] theorem pos_tr (v : Vehicle) : (v.translate t).pos = v.pos + t := rfl
@[simp] theorem heading_tr (v : Vehicle) : (v.translate t).heading = v.heading := rfl
@[simp] theorem speed_tr (v : Vehicle) : (v.translate t).speed = v.speed := rfl
@[simp] theorem laneIndex_tr (v : Vehicle) : (v.translate t).laneIndex = v.laneIndex := rfl
@[simp] theorem lane_tr (v : Vehicle) : (v.translate t).lane = v.lane.translate t := rfl
@[simp] theorem steering_tr (v : Vehicle) : (v.translate t).steering = v.steering := rfl
@[simp] theorem acceleration_tr (v : Vehicle) : (v.translate t).acceleration = v.acceleration := rfl
@[simp] theorem crashed_tr (v : Vehicle) : (v.translate t).crashed = v.crashed := rfl
@[simp] theorem collisionsEnabled_tr (v : Vehicle) : (v.translate t).collisionsEnabled = v.collisionsEnabled := rfl
@[simp] theorem targetLane_tr (v : Vehicle) : (v.translate t).targetLane = v.targetLane := rfl
@[simp] theorem targetSpeed_tr (v : Vehicle) : (v.translate t).targetSpeed = v.targetSpeed := rfl
@[simp] theorem route_tr (v : Vehicle) : (v.translate t).route = v.route := rfl
@[simp] theorem timer_tr (v : Vehicle) : (v.translate t).timer = v.timer := rfl
@[simp] theorem enableLaneChange_tr (v : Vehicle) : (v.translate t).enableLaneChange = v.enableLaneChange := rfl
@[simp] theorem maxBraking_tr (v : Vehicle) : (v.translate t).maxBraking = v.maxBraking := rfl
@[simp] theorem accParams_tr (v : Vehicle) : (v.translate t).accParams = v.accParams := rfl
@[simp] theorem steerParams_tr (v : Vehicle) : (v.translate t).steerParams = v.steerParams := rfl
@[simp] theorem isYielding_tr (v : Vehicle) : (v.translate t).isYielding = v.isYielding := rfl
@[simp] theorem yieldTimer_tr (v : Vehicle) : (v.translate t).yieldTimer = v.yieldTimer := rfl
@[simp] theorem hasColor_tr (v : Vehicle) : (v.translate t).hasColor = v.hasColor := rfl
@[simp] theorem lateralSpeed_tr (v : Vehicle) : (v.translate t).lateralSpeed = v.lateralSpeed := rfl
@[simp] theorem yawRate_tr (v : Vehicle) : (v.translate t).yawRate = v.yawRate := rfl
@[simp] theorem direction_tr (v : Vehicle) : (v.translate t).direction = v.direction := rfl
@[simp] theorem velocity_tr (v : Vehicle) : (v.translate t).velocity = v.velocity := rfl

theorem clipActionsBase_tr (v : Vehicle) : (v.translate t).clipActionsBase = v.clipActionsBase.translate t := by
  have key : ∀ w : Vehicle, (if (w.translate t).speed > (w.translate t).kind.maxSpeed then
        { (w.translate t) with acceleration := min (w.translate t).acceleration ((w.translate t).kind.maxSpeed - (w.translate t).speed) }
      else if (w.translate t).speed < -(w.translate t).kind.maxSpeed then
        { (w.translate t) with acceleration := max (w.translate t).acceleration ((w.translate t).kind.maxSpeed - (w.translate t).speed) }
      else w.translate t) =
      Vehicle.translate t (if w.speed > w.kind.maxSpeed then { w with acceleration := min w.acceleration (w.kind.maxSpeed - w.speed) }
      else if w.speed < -w.kind.maxSpeed then { w with acceleration := max w.acceleration (w.kind.maxSpeed - w.speed) }
      else w) := by
    intro w
    rw [apply_ite (Vehicle.translate t), apply_ite (Vehicle.translate t)]
    rfl
  have h : (if (v.translate t).crashed = true then { (v.translate t) with steering := 0, acceleration := -1 * (v.translate t).speed }
        else v.translate t) =
      Vehicle.translate t (if v.crashed = true then { v with steering := 0, acceleration := -1 * v.speed } else v) := by
    rw [apply_ite (Vehicle.translate t)]
    rfl
  exact (congrArg (fun w : Vehicle => if w.speed > w.kind.maxSpeed then { w with acceleration := min w.acceleration (w.kind.maxSpeed - w.speed) }
      else if w.speed < -w.kind.maxSpeed then { w with acceleration := max w.acceleration (w.kind.maxSpeed - w.speed) }
      else w) h).trans (key _)

theorem clipActions_tr (v : Vehicle) : (v.translate t).clipActions = v.clipActions.translate t := by
  have key : ∀ w : Vehicle, (if (w.translate t).kind = .bicycle then
        { (w.translate t) with
          steering := npClip (w.translate t).steering (-Real.pi / 2) (Real.pi / 2),
          yawRate := npClip (w.translate t).yawRate (-(2 * Real.pi)) (2 * Real.pi) } else w.translate t) =
      Vehicle.translate t (if w.kind = .bicycle then
        { w with steering := npClip w.steering (-Real.pi / 2) (Real.pi / 2), yawRate := npClip w.yawRate (-(2 * Real.pi)) (2 * Real.pi) }
        else w) := by
    intro w
    rw [apply_ite (Vehicle.translate t)]
    rfl
  exact (congrArg (fun w : Vehicle => if w.kind = .bicycle then
        { w with steering := npClip w.steering (-Real.pi / 2) (Real.pi / 2), yawRate := npClip w.yawRate (-(2 * Real.pi)) (2 * Real.pi) }
        else w) (clipActionsBase_tr t v)).trans (key _)

theorem integrate_tr (v : Vehicle) (dt : ℝ) : (v.translate t).integrate dt = (v.integrate dt).translate t := by
  unfold integrate Vehicle.translate
  simp only [Vec2.add_right_comm]

theorem integrateBicycle_tr (v : Vehicle) (dt : ℝ) : (v.translate t).integrateBicycle dt = (v.integrateBicycle dt).translate t := by
  unfold integrateBicycle Vehicle.translate
  simp only [Vec2.add_right_comm]
  rfl

theorem move_tr (v : Vehicle) (dt : ℝ) : (v.translate t).move dt = (v.move dt).translate t := by
  have h : (if (v.translate t).kind.isIDM = true then { (v.translate t) with timer := (v.translate t).timer + dt } else v.translate t) =
      Vehicle.translate t (if v.kind.isIDM = true then { v with timer := v.timer + dt } else v) := by
    rw [apply_ite (Vehicle.translate t)]
    rfl
  have key : ∀ w : Vehicle, (if (w.translate t).kind = .bicycle then (w.translate t).integrateBicycle dt else (w.translate t).integrate dt) =
      Vehicle.translate t (if w.kind = .bicycle then w.integrateBicycle dt else w.integrate dt) := by
    intro w
    rw [apply_ite (Vehicle.translate t), integrateBicycle_tr, integrate_tr]
    rfl
  have h2 := (congrArg Vehicle.clipActions h).trans (clipActions_tr t _)
  exact (congrArg (fun w : Vehicle => if w.kind = .bicycle then w.integrateBicycle dt else w.integrate dt) h2).trans (key _)

theorem onStateUpdate_tr (g : Graph) (rec : Bool) (v : Vehicle) :
    (v.translate t).onStateUpdate (g.translate t) rec = (v.onStateUpdate g rec).map (Vehicle.translate t) := by
  unfold onStateUpdate
  simp only [pos_tr, heading_tr, Graph.getClosestLaneIndex_tr]
  cases g.getClosestLaneIndex v.pos (some v.heading) with
  | error e => rfl
  | ok i =>
    simp only [bind, Except.bind, Graph.getLane_tr]
    cases g.getLane i with
    | error e => rfl
    | ok l =>
      simp only [Except.map, pure, Except.pure]
      unfold Vehicle.translate
      congr 2
      cases rec
      · rfl
      · simp [Snapshot.translate, List.map_take]

theorem step_tr (g : Graph) (rec : Bool) (dt : ℝ) (v : Vehicle) :
    (v.translate t).step (g.translate t) rec dt = (v.step g rec dt).map (Vehicle.translate t) := by
  unfold step
  rw [move_tr, onStateUpdate_tr]

@[simp] theorem laneDistanceTo_tr (v : Vehicle) (p : Vec2) : (v.translate t).laneDistanceTo (p + t) = v.laneDistanceTo p := by
  unfold laneDistanceTo; simp

/-! Collisions -/

theorem pointIn_tr (p c : Vec2) (l w a : ℝ) : pointInRotatedRectangle (p + t) (c + t) l w a = pointInRotatedRectangle p c l w a := by
  unfold pointInRotatedRectangle; rw [Vec2.add_sub_add]

theorem pointIn_tr' (c c' p : Vec2) (l w a : ℝ) :
    pointInRotatedRectangle (c + t + p) (c' + t) l w a = pointInRotatedRectangle (c + p) c' l w a := by
  rw [Vec2.add_right_comm c p t, pointIn_tr]

theorem intersect_tr (r1 r2 : Rect) :
    rotatedRectanglesIntersect { r1 with center := r1.center + t } { r2 with center := r2.center + t } = rotatedRectanglesIntersect r1 r2 := by
  unfold rotatedRectanglesIntersect hasCornerInside
  simp only [pointIn_tr']

theorem isColliding_tr (v : Vehicle) (o : Rect) : (v.translate t).isColliding { o with center := o.center + t } = v.isColliding o := by
  unfold isColliding
  simp only [pos_tr, Vec2.add_sub_add]
  have := intersect_tr t v.rect o
  unfold rect at *
  simp only [pos_tr, heading_tr]
  rw [this]

theorem checkCollisionV_tr (v w : Vehicle) :
    (v.translate t).checkCollisionV (w.translate t) = ((v.checkCollisionV w).1.translate t, (v.checkCollisionV w).2.translate t) := by
  unfold checkCollisionV
  have h : (v.translate t).isColliding (w.translate t).rect = v.isColliding w.rect := isColliding_tr t v w.rect
  simp only [crashed_tr, collisionsEnabled_tr, h, speed_tr]
  split_ifs <;> rfl

theorem checkCollisionO_tr (v : Vehicle) (o : RoadObject) :
    (v.translate t).checkCollisionO (o.translate t) = ((v.checkCollisionO o).1.translate t, (v.checkCollisionO o).2.translate t) := by
  unfold checkCollisionO
  have h : (v.translate t).isColliding (o.translate t).rect = v.isColliding o.rect := isColliding_tr t v o.rect
  have hk : (o.translate t).kind = o.kind := rfl
  simp only [crashed_tr, collisionsEnabled_tr, h, speed_tr, hk]
  cases o.kind <;> simp only <;> split_ifs <;> rfl

/-! Controllers -/

theorem followRoad_tr (g : Graph) (rng : Rng) (v : Vehicle) :
    (v.translate t).followRoad (g.translate t) rng = (v.followRoad g rng).map fun p => (p.1.translate t, p.2) := by
  unfold followRoad
  simp only [targetLane_tr, pos_tr, route_tr, Graph.getLane_tr, Graph.nextLane_tr]
  cases g.getLane v.targetLane with
  | error e => rfl
  | ok l =>
    simp only [Except.map, bind, Except.bind, Lane.afterEnd_tr]
    split_ifs
    · cases g.nextLane v.targetLane v.route v.pos rng <;> rfl
    · rfl

theorem steeringToLane_tr (v : Vehicle) (l : Lane) : (v.translate t).steeringToLane (l.translate t) = v.steeringToLane l := by
  unfold steeringToLane; simp

theorem steeringFeatures_tr (v : Vehicle) (l : Lane) : (v.translate t).steeringFeatures (l.translate t) = v.steeringFeatures l := by
  unfold steeringFeatures; simp

theorem steeringControl_tr (g : Graph) (v : Vehicle) (i : LaneIndex) :
    (v.translate t).steeringControl (g.translate t) i = v.steeringControl g i := by
  unfold steeringControl
  rw [Graph.getLane_tr]
  cases g.getLane i with
  | error e => rfl
  | ok l => simp only [Except.map, bind, Except.bind, kind_tr, steerParams_tr, steeringFeatures_tr, steeringToLane_tr]

theorem changeLane_tr (g : Graph) (v : Vehicle) (d : Int) :
    (v.translate t).changeLane (g.translate t) d = (v.changeLane g d).map (Vehicle.translate t) := by
  unfold changeLane
  simp only [targetLane_tr, Graph.lanesOf_tr, Graph.getLane_tr]
  cases g.lanesOf v.targetLane.src v.targetLane.dst with
  | error e => rfl
  | ok ls =>
    simp only [Except.map, bind, Except.bind, List.length_map]
    generalize ({ v.targetLane with id := npClipInt (v.targetLane.id + d) 0 ((ls.length : Int) - 1) } : LaneIndex) = i
    cases g.getLane i with
    | error e => rfl
    | ok l =>
      simp only [pos_tr, Lane.isReachableFrom_tr]
      split_ifs <;> rfl

theorem applyMeta_tr (g : Graph) (v : Vehicle) (a : VAction) :
    (v.translate t).applyMeta (g.translate t) a = (v.applyMeta g a).map (Vehicle.translate t) := by
  unfold applyMeta
  cases a <;> first | exact changeLane_tr t g v _ | rfl

theorem controlledAct_tr (g : Graph) (rng : Rng) (v : Vehicle) (a : VAction) :
    (v.translate t).controlledAct (g.translate t) rng a = (v.controlledAct g rng a).map fun p => (p.1.translate t, p.2) := by
  unfold controlledAct
  rw [followRoad_tr]
  cases v.followRoad g rng with
  | error e => rfl
  | ok p =>
    simp only [Except.map, bind, Except.bind, applyMeta_tr]
    cases p.1.applyMeta g a with
    | error e => rfl
    | ok w =>
      simp only [targetLane_tr, steeringControl_tr]
      cases w.steeringControl g w.targetLane <;> rfl

theorem mdpAct_tr (G : Globals) (g : Graph) (rng : Rng) (v : Vehicle) (a : VAction) :
    (v.translate t).mdpAct G (g.translate t) rng a = (v.mdpAct G g rng a).map fun p => (p.1.translate t, p.2) := by
  unfold mdpAct
  cases a <;> first | exact controlledAct_tr t g rng v _ |
    exact controlledAct_tr t g rng (v.setSpeedIndex G _) .none

theorem mapM_map {α β : Type*} (f f' : α → Py β) (h : β → β) (hf : ∀ a, f' a = (f a).map h) (l : List α) :
    l.mapM f' = (l.mapM f).map (List.map h) := by
  induction l with
  | nil => rfl
  | cons a l ih =>
    simp only [List.mapM_cons, ih, hf]
    cases f a with
    | error e => rfl
    | ok q => cases List.mapM f l <;> rfl

theorem predictConstantSpeed_tr (g : Graph) (v : Vehicle) (times : List ℝ) :
    (v.translate t).predictConstantSpeed (g.translate t) times =
      (v.predictConstantSpeed g times).map (List.map fun ph => (ph.1 + t, ph.2)) := by
  unfold predictConstantSpeed
  simp only [kind_tr, lane_tr, pos_tr, Lane.localCoordinates_tr, route_tr, laneIndex_tr, speed_tr]
  by_cases h : v.kind.isControlled = true
  · rw [if_pos h, if_pos h]
    exact mapM_map _ _ _ (fun a => Graph.positionHeadingAlongRoute_tr t g _ _ _) times
  · rw [if_neg h, if_neg h]; rfl

end Vehicle

/-- Something on the road displaced by `t`. -/
def Entity.translate (t : Vec2) : Entity → Entity
  | .veh v => .veh (v.translate t)
  | .obj o => .obj (o.translate t)

namespace Entity
variable (t : Vec2)
@[simp] theorem pos_tr (e : Entity) : (e.translate t).pos = e.pos + t := by cases e <;> rfl
@[simp] theorem speed_tr (e : Entity) : (e.translate t).speed = e.speed := by cases e <;> rfl
@[simp] theorem velocity_tr (e : Entity) : (e.translate t).velocity = e.velocity := by cases e <;> rfl
@[simp] theorem uid_tr (e : Entity) : (e.translate t).uid = e.uid := by cases e <;> rfl
@[simp] theorem isLandmark_tr (e : Entity) : (e.translate t).isLandmark = e.isLandmark := by cases e <;> rfl
end Entity

namespace Road
variable (t : Vec2)

theorem entities_tr (r : Road) : (r.translate t).entities = r.entities.map (Entity.translate t) := by
  unfold entities Road.translate
  simp only [List.map_append, List.map_map]
  rfl

/-- The candidates of a neighbour search, displaced. -/
def NbState.translate (t : Vec2) (st : NbState) : NbState :=
  ⟨st.front.map fun p => (p.1, p.2.translate t), st.rear.map fun p => (p.1, p.2.translate t)⟩

theorem nbStep_tr (l : Lane) (s : ℝ) (self : ℕ) (st : NbState) (e : Entity) :
    nbStep (l.translate t) s self (st.translate t) (e.translate t) = (nbStep l s self st e).translate t := by
  unfold nbStep
  simp only [Entity.uid_tr, Entity.isLandmark_tr, Entity.pos_tr, Lane.localCoordinates_tr, Lane.onLane_tr]
  by_cases h1 : e.uid ≠ self ∧ e.isLandmark = false
  · rw [if_pos h1, if_pos h1]
    by_cases h2 : l.onLane e.pos (some (l.localCoordinates e.pos).1) (some (l.localCoordinates e.pos).2) 1 = false
    · rw [if_pos h2, if_pos h2]
    · rw [if_neg h2, if_neg h2]
      have hf : (∀ f ∈ (st.translate t).front, (l.localCoordinates e.pos).1 ≤ f.1) ↔ ∀ f ∈ st.front, (l.localCoordinates e.pos).1 ≤ f.1 := by
        unfold NbState.translate; cases st.front <;> simp
      have hr : ∀ q : NbState, (∀ f ∈ (q.translate t).rear, f.1 < (l.localCoordinates e.pos).1) ↔ ∀ f ∈ q.rear, f.1 < (l.localCoordinates e.pos).1 := by
        intro q; unfold NbState.translate; cases q.rear <;> simp
      have h3 : (if s ≤ (l.localCoordinates e.pos).1 ∧ (∀ f ∈ (st.translate t).front, (l.localCoordinates e.pos).1 ≤ f.1)
            then { (st.translate t) with front := some ((l.localCoordinates e.pos).1, e.translate t) } else st.translate t) =
          NbState.translate t (if s ≤ (l.localCoordinates e.pos).1 ∧ (∀ f ∈ st.front, (l.localCoordinates e.pos).1 ≤ f.1)
            then { st with front := some ((l.localCoordinates e.pos).1, e) } else st) := by
        by_cases hc : s ≤ (l.localCoordinates e.pos).1 ∧ (∀ f ∈ st.front, (l.localCoordinates e.pos).1 ≤ f.1)
        · rw [if_pos hc, if_pos (by rwa [hf])]; rfl
        · rw [if_neg hc, if_neg (by rwa [hf])]
      rw [h3]
      generalize (if s ≤ (l.localCoordinates e.pos).1 ∧ (∀ f ∈ st.front, (l.localCoordinates e.pos).1 ≤ f.1)
            then { st with front := some ((l.localCoordinates e.pos).1, e) } else st) = q
      by_cases hc : (l.localCoordinates e.pos).1 < s ∧ (∀ f ∈ q.rear, f.1 < (l.localCoordinates e.pos).1)
      · rw [if_pos hc, if_pos (by rwa [hr])]; rfl
      · rw [if_neg hc, if_neg (by rwa [hr])]
  · rw [if_neg h1, if_neg h1]

theorem nbFold_tr (l : Lane) (s : ℝ) (self : ℕ) (es : List Entity) (st : NbState) :
    (es.map (Entity.translate t)).foldl (nbStep (l.translate t) s self) (st.translate t) = (es.foldl (nbStep l s self) st).translate t := by
  induction es generalizing st with
  | nil => rfl
  | cons e es ih => simp only [List.map_cons, List.foldl_cons, nbStep_tr]; exact ih _

theorem neighbourVehicles_tr (r : Road) (v : Vehicle) (i : Option LaneIndex) :
    (r.translate t).neighbourVehicles (v.translate t) i =
      (r.neighbourVehicles v i).map fun p => (p.1.map (Entity.translate t), p.2.map (Entity.translate t)) := by
  unfold neighbourVehicles
  have hn : (r.translate t).network = r.network.translate t := rfl
  simp only [hn, Vehicle.laneIndex_tr, Graph.getLane_tr, entities_tr]
  cases r.network.getLane (i.getD v.laneIndex) with
  | error e => rfl
  | ok l =>
    simp only [Except.map, bind, Except.bind, pure, Except.pure, Vehicle.pos_tr, Lane.localCoordinates_tr, Vehicle.uid_tr]
    have h := nbFold_tr t l (l.localCoordinates v.pos).1 v.uid r.entities {}
    have h0 : ({} : NbState).translate t = {} := rfl
    rw [h0] at h
    rw [h]
    unfold NbState.translate
    simp only [Option.map_map]
    rfl

end Road
/-- A loop that commutes with a change of state at each iteration commutes with it. -/
theorem foldlM_equiv {σ α : Type*} (h : σ → σ) (f f' : σ → α → Py σ) (hf : ∀ s a, f' (h s) a = (f s a).map h) (l : List α) (s : σ) :
    l.foldlM f' (h s) = (l.foldlM f s).map h := by
  induction l generalizing s with
  | nil => rfl
  | cons a l ih =>
    simp only [List.foldlM_cons, hf]
    cases f s a with
    | error e => rfl
    | ok s' => exact ih s'

theorem foldl_equiv {σ α : Type*} (h : σ → σ) (f f' : σ → α → σ) (hf : ∀ s a, f' (h s) a = h (f s a)) (l : List α) (s : σ) :
    l.foldl f' (h s) = h (l.foldl f s) := by
  induction l generalizing s with
  | nil => rfl
  | cons a l ih => simp only [List.foldl_cons, hf]; exact ih _

theorem mapM_equiv {α : Type*} (h : α → α) (f f' : α → Py α) (hf : ∀ a, f' (h a) = (f a).map h) (l : List α) :
    (l.map h).mapM f' = (l.mapM f).map (List.map h) := by
  induction l with
  | nil => rfl
  | cons a l ih =>
    simp only [List.map_cons, List.mapM_cons, ih, hf]
    cases f a with
    | error e => rfl
    | ok q => cases List.mapM f l <;> rfl

namespace Vehicle
variable (t : Vec2)

theorem desiredGap_tr (G : Globals) (k : VKind) (e : Vehicle) (f : Entity) :
    desiredGap G k (e.translate t) (f.translate t) = desiredGap G k e f := by
  unfold desiredGap; simp

theorem idmAcceleration_tr (G : Globals) (k : VKind) (e : Vehicle) (f : Option Entity) :
    idmAcceleration G k (e.translate t) (f.map (Entity.translate t)) = idmAcceleration G k e f := by
  unfold idmAcceleration
  cases f with
  | none => rfl
  | some f =>
    simp only [Option.map_some, desiredGap_tr, Entity.pos_tr, laneDistanceTo_tr]
    rfl

theorem accelerationFeatures_tr (G : Globals) (k : VKind) (e : Vehicle) (f : Option Entity) :
    accelerationFeatures G k (e.translate t) (f.map (Entity.translate t)) = accelerationFeatures G k e f := by
  unfold accelerationFeatures
  cases f <;> simp

theorem accelerationOf_tr (G : Globals) (v : Vehicle) (e f : Option Entity) :
    accelerationOf G (v.translate t) (e.map (Entity.translate t)) (f.map (Entity.translate t)) = accelerationOf G v e f := by
  unfold accelerationOf
  cases e with
  | none => rfl
  | some e =>
    cases e with
    | obj o => rfl
    | veh e =>
      simp only [Option.map_some, Entity.translate, accelerationFeatures_tr, idmAcceleration_tr, kind_tr, accParams_tr]

theorem mobil_tr (G : Globals) (r : Road) (v : Vehicle) (i : LaneIndex) : (v.translate t).mobil G (r.translate t) i = v.mobil G r i := by
  unfold mobil
  rw [Road.neighbourVehicles_tr, Road.neighbourVehicles_tr]
  cases r.neighbourVehicles v (some i) with
  | error e => rfl
  | ok p =>
    have hv : ∀ f, accelerationOf G (v.translate t) (some (.veh (v.translate t))) (f.map (Entity.translate t)) =
        accelerationOf G v (some (.veh v)) f := fun f => accelerationOf_tr t G v (some (.veh v)) f
    have hv' : ∀ f, accelerationOf G (v.translate t) (f.map (Entity.translate t)) (some (.veh (v.translate t))) =
        accelerationOf G v f (some (.veh v)) := fun f => accelerationOf_tr t G v f (some (.veh v))
    cases r.neighbourVehicles v with
    | error e =>
      simp only [Except.map, bind, Except.bind, accelerationOf_tr, hv']
      rfl
    | ok q =>
      simp only [Except.map, bind, Except.bind, accelerationOf_tr, hv, hv']
      rfl

theorem abortedBy_tr (G : Globals) (v w : Vehicle) : abortedBy G (v.translate t) (w.translate t) = abortedBy G v w := by
  unfold abortedBy
  have h : desiredGap G v.kind (v.translate t) (.veh (w.translate t)) = desiredGap G v.kind v (.veh w) := desiredGap_tr t G v.kind v (.veh w)
  simp only [pos_tr, laneDistanceTo_tr]
  show (_ && decide (0 < v.laneDistanceTo w.pos ∧ v.laneDistanceTo w.pos < desiredGap G v.kind (v.translate t) (.veh (w.translate t)))) = _
  rw [h]
  rfl

theorem considerLane_tr (G : Globals) (r : Road) (v : Vehicle) (i : LaneIndex) :
    considerLane G (r.translate t) (v.translate t) i = (considerLane G r v i).map (Vehicle.translate t) := by
  unfold considerLane
  have hn : (r.translate t).network = r.network.translate t := rfl
  rw [hn, Graph.getLane_tr]
  cases r.network.getLane i with
  | error e => rfl
  | ok l =>
    simp only [Except.map, bind, Except.bind, pos_tr, Lane.isReachableFrom_tr, mobil_tr]
    by_cases h : l.isReachableFrom v.pos = true
    · rw [if_pos h, if_pos h]
      cases v.mobil G r i with
      | error e => rfl
      | ok b => cases b <;> rfl
    · rw [if_neg h, if_neg h]; rfl

theorem changeLanePolicy_tr (G : Globals) (r : Road) (v : Vehicle) :
    (v.translate t).changeLanePolicy G (r.translate t) = (v.changeLanePolicy G r).map (Vehicle.translate t) := by
  have ha : (r.translate t).vehicles.any (abortedBy G (v.translate t)) = r.vehicles.any (abortedBy G v) := by
    show (r.vehicles.map (Vehicle.translate t)).any _ = _
    rw [List.any_map]
    congr 1
    funext w
    exact abortedBy_tr t G v w
  have hs : (r.translate t).network.sideLanes v.laneIndex = r.network.sideLanes v.laneIndex := Graph.sideLanes_tr t r.network v.laneIndex
  have e : (v.translate t).changeLanePolicy G (r.translate t) =
      if v.laneIndex ≠ v.targetLane then
        if v.laneIndex.src = v.targetLane.src ∧ v.laneIndex.dst = v.targetLane.dst then
          if (r.translate t).vehicles.any (abortedBy G (v.translate t)) then .ok { (v.translate t) with targetLane := v.laneIndex }
          else .ok (v.translate t)
        else .ok (v.translate t)
      else if doEvery LANE_CHANGE_DELAY v.timer then do
        let sides ← (r.translate t).network.sideLanes v.laneIndex
        sides.foldlM (considerLane G (r.translate t)) (Vehicle.translate t { v with timer := 0 })
      else .ok (v.translate t) := rfl
  rw [e, ha, hs]
  unfold changeLanePolicy
  by_cases h1 : v.laneIndex ≠ v.targetLane
  · rw [if_pos h1, if_pos h1]
    by_cases h2 : v.laneIndex.src = v.targetLane.src ∧ v.laneIndex.dst = v.targetLane.dst
    · rw [if_pos h2, if_pos h2]
      by_cases h3 : r.vehicles.any (abortedBy G v) = true
      · rw [if_pos h3, if_pos h3]; rfl
      · rw [if_neg h3, if_neg h3]; rfl
    · rw [if_neg h2, if_neg h2]; rfl
  · rw [if_neg h1, if_neg h1]
    by_cases h2 : doEvery LANE_CHANGE_DELAY v.timer = true
    · rw [if_pos h2, if_pos h2]
      dsimp only
      cases r.network.sideLanes v.laneIndex with
      | error e => rfl
      | ok sides => exact foldlM_equiv (Vehicle.translate t) _ _ (considerLane_tr t G r) sides { v with timer := 0 }
    · rw [if_neg h2, if_neg h2]; rfl

theorem maybeChangeLane_tr (G : Globals) (r : Road) (v : Vehicle) :
    (v.translate t).maybeChangeLane G (r.translate t) = (v.maybeChangeLane G r).map (Vehicle.translate t) := by
  unfold maybeChangeLane
  rw [changeLanePolicy_tr, enableLaneChange_tr]
  by_cases h : v.enableLaneChange = true
  · rw [if_pos h, if_pos h]
  · rw [if_neg h, if_neg h]; rfl

theorem idmAct_tr (G : Globals) (r : Road) (v : Vehicle) :
    (v.translate t).idmAct G (r.translate t) = (v.idmAct G r).map fun p => (p.1.translate t, p.2) := by
  unfold idmAct
  have hn : (r.translate t).network = r.network.translate t := rfl
  have hr : (r.translate t).rng = r.rng := rfl
  rw [Road.neighbourVehicles_tr, hn, hr, followRoad_tr, crashed_tr]
  by_cases hc : v.crashed = true
  · rw [if_pos hc, if_pos hc]; rfl
  rw [if_neg hc, if_neg hc]
  cases r.neighbourVehicles v with
  | error e => rfl
  | ok p =>
    cases v.followRoad r.network r.rng with
    | error e => rfl
    | ok q =>
      simp only [Except.map, bind, Except.bind, maybeChangeLane_tr]
      cases q.1.maybeChangeLane G r with
      | error e => rfl
      | ok w =>
        simp only [Except.map, targetLane_tr, steeringControl_tr]
        cases w.steeringControl r.network w.targetLane with
        | error e => rfl
        | ok st =>
          have hv : accelerationOf G (w.translate t) (some (.veh (w.translate t))) (p.1.map (Entity.translate t)) =
              accelerationOf G w (some (.veh w)) p.1 := accelerationOf_tr t G w (some (.veh w)) p.1
          simp only [hv]
          cases accelerationOf G w (some (.veh w)) p.1 <;> rfl

theorem act_tr (G : Globals) (r : Road) (v : Vehicle) (a : VAction) :
    (v.translate t).act G (r.translate t) a = (v.act G r a).map fun p => (p.1.translate t, p.2) := by
  unfold act
  rw [kind_tr]
  cases hk : v.kind <;> first
    | exact controlledAct_tr t r.network r.rng v a
    | exact mdpAct_tr t G r.network r.rng v a
    | exact idmAct_tr t G r v
    | (cases a <;> rfl)

end Vehicle

namespace Road
variable (t : Vec2)

@[simp] theorem vehicles_tr (r : Road) : (r.translate t).vehicles = r.vehicles.map (Vehicle.translate t) := rfl
@[simp] theorem network_tr (r : Road) : (r.translate t).network = r.network.translate t := rfl
@[simp] theorem objects_tr (r : Road) : (r.translate t).objects = r.objects.map (RoadObject.translate t) := rfl
@[simp] theorem rng_tr (r : Road) : (r.translate t).rng = r.rng := rfl
@[simp] theorem steps_tr (r : Road) : (r.translate t).steps = r.steps := rfl

theorem actAt_tr (G : Globals) (a : VAction) (r : Road) (i : ℕ) :
    (r.translate t).actAt G a i = (r.actAt G a i).map (Road.translate t) := by
  unfold actAt
  simp only [vehicles_tr, List.getElem?_map]
  cases r.vehicles[i]? with
  | none => rfl
  | some v =>
    simp only [Option.map_some, Vehicle.act_tr]
    cases v.act G r a with
    | error e => rfl
    | ok p =>
      simp only [Except.map, bind, Except.bind, pure, Except.pure]
      unfold Road.translate
      rw [List.map_set]

theorem act_tr (G : Globals) (r : Road) : (r.translate t).act G = (r.act G).map (Road.translate t) := by
  unfold act
  rw [vehicles_tr, List.length_map]
  exact foldlM_equiv (Road.translate t) _ _ (fun s i => actAt_tr t G .none s i) _ r

theorem moveAll_tr (r : Road) (dt : ℝ) : (r.translate t).moveAll dt = (r.moveAll dt).map (Road.translate t) := by
  unfold moveAll
  have h : (r.translate t).vehicles.mapM (Vehicle.step (r.translate t).network (r.translate t).recordHistory dt) =
      (r.vehicles.mapM (Vehicle.step r.network r.recordHistory dt)).map (List.map (Vehicle.translate t)) :=
    mapM_equiv (Vehicle.translate t) _ _ (fun v => Vehicle.step_tr t r.network r.recordHistory dt v) r.vehicles
  rw [h]
  cases List.mapM (Vehicle.step r.network r.recordHistory dt) r.vehicles <;> rfl

theorem collideVV_tr (i : ℕ) (vs : List Vehicle) (j : ℕ) :
    collideVV i (vs.map (Vehicle.translate t)) j = (collideVV i vs j).map (Vehicle.translate t) := by
  unfold collideVV
  by_cases h : i = j
  · rw [if_pos h, if_pos h]
  rw [if_neg h, if_neg h]
  simp only [List.getElem?_map]
  cases vs[i]? with
  | none => rfl
  | some v =>
    cases vs[j]? with
    | none => rfl
    | some w => simp only [Option.map_some, Vehicle.checkCollisionV_tr, List.map_set]

theorem collideVO_tr (v : Vehicle) (os : List RoadObject) :
    collideVO (v.translate t) (os.map (RoadObject.translate t)) =
      ((collideVO v os).1.translate t, (collideVO v os).2.map (RoadObject.translate t)) := by
  induction os generalizing v with
  | nil => rfl
  | cons o os ih => simp only [List.map_cons, collideVO, Vehicle.checkCollisionO_tr, ih]

/-- Both lists of a collision pass displaced. -/
def trBoth (t : Vec2) (st : List Vehicle × List RoadObject) : List Vehicle × List RoadObject :=
  (st.1.map (Vehicle.translate t), st.2.map (RoadObject.translate t))

theorem collideOne_tr (st : List Vehicle × List RoadObject) (i : ℕ) : collideOne (trBoth t st) i = trBoth t (collideOne st i) := by
  unfold collideOne
  have h : (List.range (trBoth t st).1.length).foldl (collideVV i) (trBoth t st).1 =
      ((List.range st.1.length).foldl (collideVV i) st.1).map (Vehicle.translate t) := by
    unfold trBoth
    rw [List.length_map]
    exact foldl_equiv (List.map (Vehicle.translate t)) _ _ (fun s a => collideVV_tr t i s a) _ _
  rw [h]
  simp only [List.getElem?_map]
  generalize (List.range st.1.length).foldl (collideVV i) st.1 = vs
  cases vs[i]? with
  | none => rfl
  | some v =>
    have := collideVO_tr t v st.2
    simp only [Option.map_some]
    unfold trBoth
    simp only [this, List.map_set]

theorem collidePass_tr (vs : List Vehicle) (os : List RoadObject) :
    collidePass (vs.map (Vehicle.translate t)) (os.map (RoadObject.translate t)) = trBoth t (collidePass vs os) := by
  unfold collidePass
  rw [List.length_map]
  exact foldl_equiv (trBoth t) _ _ (collideOne_tr t) _ (vs, os)

theorem stepBase_tr (r : Road) (dt : ℝ) : (r.translate t).stepBase dt = (r.stepBase dt).map (Road.translate t) := by
  unfold stepBase
  rw [moveAll_tr]
  cases r.moveAll dt with
  | error e => rfl
  | ok s =>
    simp only [Except.map, bind, Except.bind, pure, Except.pure, vehicles_tr, objects_tr, collidePass_tr]
    rfl

theorem release_tr (v : Vehicle) : release (v.translate t) = (release v).map (Vehicle.translate t) := by
  unfold release
  rw [apply_ite (Except.map (Vehicle.translate t)), apply_ite (Except.map (Vehicle.translate t)), apply_ite (Except.map (Vehicle.translate t))]
  rfl

theorem isConflictPossible_tr (g : Graph) (v w : Vehicle) :
    isConflictPossible (g.translate t) (v.translate t) (w.translate t) = isConflictPossible g v w := by
  unfold isConflictPossible
  rw [Vehicle.predictConstantSpeed_tr, Vehicle.predictConstantSpeed_tr]
  cases v.predictConstantSpeed g conflictTimes with
  | error e => rfl
  | ok p1 =>
    cases w.predictConstantSpeed g conflictTimes with
    | error e => rfl
    | ok p2 =>
      simp only [Except.map, bind, Except.bind, pure, Except.pure]
      congr 1
      rw [List.zip_map, List.any_map]
      congr 1
      funext ab
      have := Vehicle.intersect_tr t (conflictRect ab.1) (conflictRect ab.2)
      simp only [Function.comp, Prod.map_fst, Prod.map_snd, Vec2.add_sub_add]
      unfold conflictRect at *
      rw [this]

theorem firstYields_tr (v w : Vehicle) : firstYields (v.translate t) (w.translate t) = firstYields v w := by
  unfold firstYields Vehicle.frontDistanceTo
  simp only [Vehicle.lane_tr, Lane.priority_tr, Vehicle.pos_tr, Vehicle.direction_tr, Vec2.add_sub_add]

theorem markYield_tr (v : Vehicle) : markYield (v.translate t) = (markYield v).translate t := by
  unfold markYield
  rw [apply_ite (Vehicle.translate t)]
  rfl

theorem resolvePair_tr (g : Graph) (vs : List Vehicle) (ij : ℕ × ℕ) :
    resolvePair (g.translate t) (vs.map (Vehicle.translate t)) ij = (resolvePair g vs ij).map (List.map (Vehicle.translate t)) := by
  unfold resolvePair
  simp only [List.getElem?_map]
  cases vs[ij.1]? with
  | none => rfl
  | some v =>
    cases vs[ij.2]? with
    | none => rfl
    | some w =>
      simp only [Option.map_some, isConflictPossible_tr, firstYields_tr, markYield_tr]
      cases isConflictPossible g v w with
      | error e => rfl
      | ok c =>
        simp only [bind, Except.bind]
        cases c
        · rfl
        · cases firstYields v w <;> simp [Except.map, pure, Except.pure, List.map_set]

theorem enforceRoadRules_tr (r : Road) : (r.translate t).enforceRoadRules = r.enforceRoadRules.map (Road.translate t) := by
  unfold enforceRoadRules
  have h := mapM_equiv (Vehicle.translate t) release release (release_tr t) r.vehicles
  rw [vehicles_tr, h]
  cases List.mapM release r.vehicles with
  | error e => rfl
  | ok vs =>
    simp only [Except.map, bind, Except.bind, List.length_map, network_tr]
    have h2 := foldlM_equiv (List.map (Vehicle.translate t)) _ _ (fun s a => resolvePair_tr t r.network s a) (pairs vs.length) vs
    rw [h2]
    cases List.foldlM (resolvePair r.network) vs (pairs vs.length) <;> rfl

theorem maybeEnforce_tr (r : Road) (period : Int) : (r.translate t).maybeEnforce period = (r.maybeEnforce period).map (Road.translate t) := by
  unfold maybeEnforce
  rw [enforceRoadRules_tr, steps_tr]
  by_cases h : (r.steps : Int) % period = 0
  · rw [if_pos h, if_pos h]
  · rw [if_neg h, if_neg h]; rfl

theorem stepRegulated_tr (r : Road) (dt : ℝ) : (r.translate t).stepRegulated dt = (r.stepRegulated dt).map (Road.translate t) := by
  unfold stepRegulated
  have h : maybeEnforce { r.translate t with steps := (r.translate t).steps + 1 } (pyInt (1 / dt / REGULATION_FREQUENCY)) =
      (maybeEnforce { r with steps := r.steps + 1 } (pyInt (1 / dt / REGULATION_FREQUENCY))).map (Road.translate t) :=
    maybeEnforce_tr t { r with steps := r.steps + 1 } _
  simp only [h]
  by_cases hp : pyInt (1 / dt / REGULATION_FREQUENCY) = 0
  · rw [if_pos hp, if_pos hp]; rfl
  · rw [if_neg hp, if_neg hp]
    cases maybeEnforce { r with steps := r.steps + 1 } (pyInt (1 / dt / REGULATION_FREQUENCY)) with
    | error e => rfl
    | ok s => exact stepBase_tr t s dt

theorem step_tr (r : Road) (dt : ℝ) : (r.translate t).step dt = (r.step dt).map (Road.translate t) := by
  unfold step
  rw [stepRegulated_tr, stepBase_tr, apply_ite (Except.map (Road.translate t))]
  rfl

end Road
end HighwayEnv
