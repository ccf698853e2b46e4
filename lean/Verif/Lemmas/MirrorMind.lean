import Verif.Lemmas.Mirror

/-! Controllers, driver models and regulation commute with reflecting the whole world, as long as no controlled vehicle faces exactly backwards. -/

noncomputable section
open Classical
namespace HighwayEnv
open Spec

namespace Lane
variable {l : Lane} {p : Vec2}
theorem onLane_m (h : HasImage l p) (a b m : ℝ) : l.mirror.onLane p.mirror (some a) (some (-b)) m = l.onLane p (some a) (some b) m := by
  have e : optTruthy (some (-b)) = optTruthy (some b) := by simp [optTruthy, truthy]
  unfold onLane
  rw [localCoordinates_m h, e, length_m]
  dsimp only
  by_cases hc : (!optTruthy (some a) || !optTruthy (some b)) = true
  · rw [if_pos hc, if_pos hc]
    simp only [abs_neg]
    rfl
  · rw [if_neg hc, if_neg hc]
    simp only [Option.getD_some, abs_neg]
    rfl

theorem isReachableFrom_m (h : HasImage l p) : l.mirror.isReachableFrom p.mirror = l.isReachableFrom p := by
  unfold isReachableFrom; rw [localCoordinates_m h, length_m]; simp only [abs_neg]; rfl

theorem afterEnd_m (h : HasImage l p) (a : Option ℝ) : l.mirror.afterEnd p.mirror a = l.afterEnd p a := by
  unfold afterEnd; rw [localCoordinates_m h]; simp

theorem distance_m (h : HasImage l p) : l.mirror.distance p.mirror = l.distance p := by
  unfold distance; rw [localCoordinates_m h]; simp

end Lane

namespace Graph
variable {L : Set Lane} {P : Set Vec2} {g : Graph}
theorem get?_m (g : Graph) (n : String) :
    Dict.get? g.mirror n = (Dict.get? g n).map fun d => d.map fun ml => (ml.1, ml.2.map Lane.mirror) := by
  unfold Graph.mirror
  exact Dict.get?_map _ g n
theorem nextLaneOn_m (hg : LanesIn L g) {p : Vec2} (hp : ∀ l ∈ L, HasImage l p) (cur : LaneIndex) (n : String) :
    g.mirror.nextLaneOn cur n p.mirror = g.nextLaneOn cur n p := by
  unfold nextLaneOn
  rw [lanesOf_m, lanesOf_m]
  cases g.lanesOf cur.src cur.dst with
  | error e => rfl
  | ok here =>
    cases ht : g.lanesOf cur.dst n with
    | error e => rfl
    | ok there =>
      simp only [Except.map, bind, Except.bind, List.length_map]
      by_cases h : here.length = there.length
      · rw [if_pos h, if_pos h]
      · rw [if_neg h, if_neg h, List.zipIdx_map, firstMin_map]
        simp only [Prod.map_fst]
        have e : firstMin (fun a : Lane × ℕ => a.1.mirror.distance p.mirror) there.zipIdx = firstMin (fun lk => lk.1.distance p) there.zipIdx :=
          firstMin_congr fun lk hlk => Lane.distance_m (hp _ (lanesOf_in hg ht _ (List.fst_mem_of_mem_zipIdx hlk)))
        rw [e]
        cases firstMin (fun lk : Lane × ℕ => lk.1.distance p) there.zipIdx <;> rfl

theorem nextLane_m (hg : LanesIn L g) {p : Vec2} (hp : ∀ l ∈ L, HasImage l p) (cur : LaneIndex) (route : Option (List RouteStep)) (rng : Rng) :
    g.mirror.nextLane cur route p.mirror rng = g.nextLane cur route p rng := by
  unfold nextLane
  simp only [nextLaneOn_m hg hp, get?_m]
  cases Dict.get? g cur.dst with
  | none => rfl
  | some d =>
    simp only [Option.map_some, List.length_map]
    have : Dict.keys (d.map fun ml : String × List Lane => (ml.1, ml.2.map Lane.mirror)) = Dict.keys d := Dict.keys_map _ d
    simp only [this]

theorem sideLanes_m (g : Graph) (i : LaneIndex) : g.mirror.sideLanes i = g.sideLanes i := by
  unfold sideLanes
  rw [lanesOf_m]
  cases g.lanesOf i.src i.dst with
  | error e => rfl
  | ok ls => simp [Except.map, bind, Except.bind]

/-- A position and a heading in the two worlds; headings are only the same up to whole turns. -/
def PoseM (a b : Vec2 × ℝ) : Prop := b.1 = a.1.mirror ∧ ∃ k : ℤ, b.2 = -a.2 + 2 * Real.pi * k
theorem positionHeadingAlongRoute_m (hg : LanesIn L g) {p : Vec2} (hp : ∀ l ∈ L, HasImage l p) (route : List RouteStep) (lon lat : ℝ) :
    PyRel PoseM (g.positionHeadingAlongRoute route lon lat) (g.mirror.positionHeadingAlongRoute route lon (-lat)) := by
  induction route generalizing lon with
  | nil => exact .error _
  | cons s rest ih =>
    cases rest with
    | nil =>
      unfold positionHeadingAlongRoute
      rw [getLaneStep_m]
      cases hl : g.getLaneStep s with
      | error e => exact .error _
      | ok l =>
        exact .ok ⟨Lane.position_m _ _ _, Lane.headingAt_m (hp _ (getLaneStep_in hg hl)) _⟩
    | cons s' rest =>
      unfold positionHeadingAlongRoute
      rw [getLaneStep_m]
      cases hl : g.getLaneStep s with
      | error e => exact .error _
      | ok l =>
        simp only [Except.map, bind, Except.bind, Lane.length_m]
        by_cases h : lon > l.length
        · rw [if_pos h, if_pos h]; exact ih _
        · rw [if_neg h, if_neg h]
          exact .ok ⟨Lane.position_m _ _ _, Lane.headingAt_m (hp _ (getLaneStep_in hg hl)) _⟩

end Graph

namespace Vehicle
@[simp] theorem uid_m (v : Vehicle) : v.mirror.uid = v.uid := rfl
@[simp] theorem kind_m (v : Vehicle) : v.mirror.kind = v.kind := rfl
@[simp] theorem speed_m (v : Vehicle) : v.mirror.speed = v.speed := rfl
@[simp] theorem laneIndex_m (v : Vehicle) : v.mirror.laneIndex = v.laneIndex := rfl
@[simp] theorem steering_m (v : Vehicle) : v.mirror.steering = -v.steering := rfl
@[simp] theorem acceleration_m (v : Vehicle) : v.mirror.acceleration = v.acceleration := rfl
@[simp] theorem crashed_m (v : Vehicle) : v.mirror.crashed = v.crashed := rfl
@[simp] theorem collisionsEnabled_m (v : Vehicle) : v.mirror.collisionsEnabled = v.collisionsEnabled := rfl
@[simp] theorem targetLane_m (v : Vehicle) : v.mirror.targetLane = v.targetLane := rfl
@[simp] theorem targetSpeed_m (v : Vehicle) : v.mirror.targetSpeed = v.targetSpeed := rfl
@[simp] theorem route_m (v : Vehicle) : v.mirror.route = v.route := rfl
@[simp] theorem timer_m (v : Vehicle) : v.mirror.timer = v.timer := rfl
@[simp] theorem enableLaneChange_m (v : Vehicle) : v.mirror.enableLaneChange = v.enableLaneChange := rfl
@[simp] theorem maxBraking_m (v : Vehicle) : v.mirror.maxBraking = v.maxBraking := rfl
@[simp] theorem accParams_m (v : Vehicle) : v.mirror.accParams = v.accParams := rfl
@[simp] theorem steerParams_m (v : Vehicle) : v.mirror.steerParams = v.steerParams := rfl
@[simp] theorem isYielding_m (v : Vehicle) : v.mirror.isYielding = v.isYielding := rfl
@[simp] theorem yieldTimer_m (v : Vehicle) : v.mirror.yieldTimer = v.yieldTimer := rfl
@[simp] theorem hasColor_m (v : Vehicle) : v.mirror.hasColor = v.hasColor := rfl
@[simp] theorem lateralSpeed_m (v : Vehicle) : v.mirror.lateralSpeed = -v.lateralSpeed := rfl
@[simp] theorem yawRate_m (v : Vehicle) : v.mirror.yawRate = -v.yawRate := rfl
@[simp] theorem pos_m (v : Vehicle) : v.mirror.pos = v.pos.mirror := rfl
@[simp] theorem heading_m (v : Vehicle) : v.mirror.heading = -v.heading := rfl
@[simp] theorem lane_m (v : Vehicle) : v.mirror.lane = v.lane.mirror := rfl
@[simp] theorem direction_m (v : Vehicle) : v.mirror.direction = v.direction.mirror := Vec2.dir_mirror v.heading
@[simp] theorem velocity_m (v : Vehicle) : v.mirror.velocity = v.velocity.mirror := by
  unfold velocity; rw [direction_m, speed_m, Vec2.mirror_smul]


theorem move_m {v : Vehicle} (hk : v.kind ≠ .bicycle) (dt : ℝ) : v.mirror.move dt = (v.move dt).mirror := by
  have hk2 : ∀ w : Vehicle, w.kind = v.kind → w.clipActions.kind ≠ .bicycle := by
    intro w hw
    rw [← hw] at hk
    unfold clipActions clipActionsBase
    dsimp only
    split_ifs <;> assumption
  have h : (if v.mirror.kind.isIDM = true then { v.mirror with timer := v.mirror.timer + dt } else v.mirror) =
      Vehicle.mirror (if v.kind.isIDM = true then { v with timer := v.timer + dt } else v) := by
    rw [apply_ite Vehicle.mirror]
    rfl
  have hkk : (if v.kind.isIDM = true then { v with timer := v.timer + dt } else v).kind = v.kind := by split_ifs <;> rfl
  unfold move
  dsimp only
  rw [h]
  generalize (if v.kind.isIDM = true then { v with timer := v.timer + dt } else v) = u at hkk
  rw [clipActions_m (by rw [hkk]; exact hk)]
  have := hk2 u hkk
  rw [if_neg this, if_neg (show u.clipActions.mirror.kind ≠ _ from this), integrate_m]

theorem step_m {L : Set Lane} {g : Graph} (hg : g.LanesIn L) (rec : Bool) (dt : ℝ) {v : Vehicle} (hk : v.kind ≠ .bicycle)
    (hp : ∀ l ∈ L, HasImage l (v.move dt).pos) : v.mirror.step g.mirror rec dt = (v.step g rec dt).map Vehicle.mirror := by
  unfold step
  rw [move_m hk, onStateUpdate_m hg rec hp]


theorem laneDistanceTo_m {v : Vehicle} {p : Vec2} (h1 : HasImage v.lane p) (h2 : HasImage v.lane v.pos) : v.mirror.laneDistanceTo p.mirror = v.laneDistanceTo p := by
  unfold laneDistanceTo
  rw [lane_m, pos_m, Lane.localCoordinates_m h1, Lane.localCoordinates_m h2]

/-- The rectangle `r` reflected by 90°, its angle known up to whole turns. -/
def RectM (r s : Rect) : Prop := s.center = r.center.mirror ∧ s.length = r.length ∧ s.width = r.width ∧ ∃ k : ℤ, s.angle = -r.angle + 2 * Real.pi * k

theorem RectM.intersect {r1 r2 s1 s2 : Rect} (h1 : RectM r1 s1) (h2 : RectM r2 s2) : rotatedRectanglesIntersect s1 s2 = rotatedRectanglesIntersect r1 r2 := by
  rw [← intersect_m r1 r2]
  obtain ⟨a1, a2, a3, k1, a4⟩ := h1
  obtain ⟨b1, b2, b3, k2, b4⟩ := h2
  unfold rotatedRectanglesIntersect hasCornerInside pointInRotatedRectangle
  rw [a1, a2, a3, a4, b1, b2, b3, b4]
  have e : ∀ (a : ℝ) (k : ℤ) (p : Vec2), Vec2.rot (a + 2 * Real.pi * k) p = Vec2.rot a p := rot_turns
  simp only [e]
  rfl

/-! Controllers -/

section
variable {L : Set Lane} {g : Graph} (hg : g.LanesIn L) {v : Vehicle} (hp : ∀ l ∈ L, HasImage l v.pos)
include hg hp

theorem followRoad_m (rng : Rng) : v.mirror.followRoad g.mirror rng = (v.followRoad g rng).map fun p => (p.1.mirror, p.2) := by
  unfold followRoad
  simp only [targetLane_m, pos_m, route_m, Graph.getLane_m, Graph.nextLane_m hg hp]
  cases hl : g.getLane v.targetLane with
  | error e => rfl
  | ok l =>
    simp only [Except.map, bind, Except.bind, Lane.afterEnd_m (hp _ (Graph.getLane_in hg hl))]
    split_ifs
    · cases g.nextLane v.targetLane v.route v.pos rng <;> rfl
    · rfl

omit hg hp in
theorem wrap_decided {x : ℝ} (h : ¬ ∃ k : ℤ, x = Real.pi + 2 * Real.pi * k) (k : ℤ) : wrapToPi (-x + 2 * Real.pi * k) = -wrapToPi x := by
  rw [wrapToPi_add_int]
  refine wrap_opp fun e => h ⟨⌊(x + Real.pi) / (2 * Real.pi)⌋ - 1, ?_⟩
  have := wrapToPi_eq x
  rw [e] at this
  push_cast
  linarith

omit hg hp in
theorem npClip_odd (x : ℝ) {b : ℝ} (hb : 0 ≤ b) : npClip (-x) (-b) b = -npClip x (-b) b := by
  unfold npClip
  rcases le_total x b with h1 | h1 <;> rcases le_total (-b) x with h2 | h2 <;>
    simp only [max_def, min_def] <;> split_ifs <;> linarith

omit hg hp in
theorem steeringToLane_m {l : Lane} (h : HasImage l v.pos) (hlin : v.kind.isLinear = false) (hd : ¬ FacesBack v l) :
    v.mirror.steeringToLane l.mirror = -v.steeringToLane l := by
  have hpi := Real.pi_pos
  unfold FacesBack aim at hd
  rw [if_neg (by rw [hlin]; simp)] at hd
  unfold steeringToLane
  simp only [pos_m, Lane.localCoordinates_m h, speed_m, heading_m]
  obtain ⟨k, hk⟩ := Lane.headingAt_m h ((l.localCoordinates v.pos).1 + v.speed * PURSUIT_TAU)
  rw [hk]
  have e1 : -KP_LATERAL * -(l.localCoordinates v.pos).2 / notZero v.speed = -(-KP_LATERAL * (l.localCoordinates v.pos).2 / notZero v.speed) := by ring
  rw [e1, npClip_odd _ (by norm_num : (0 : ℝ) ≤ 1), Real.arcsin_neg]
  have e2 : -Real.pi / 4 = -(Real.pi / 4) := by ring
  rw [e2] at hd ⊢
  rw [npClip_odd _ (by positivity)]
  have hL : (KP_LATERAL : ℝ) = 5 / 3 := by unfold KP_LATERAL KP_HEADING; norm_num
  have hT : (PURSUIT_TAU : ℝ) = 1 / 10 := by unfold PURSUIT_TAU; norm_num
  rw [hL, hT]
  generalize npClip (Real.arcsin (npClip (-(5 / 3) * (l.localCoordinates v.pos).2 / notZero v.speed) (-1) 1)) (-(Real.pi / 4)) (Real.pi / 4) = c at hd ⊢
  generalize l.headingAt ((l.localCoordinates v.pos).1 + v.speed * (1 / 10)) = H at hd ⊢
  have e3 : -H + 2 * Real.pi * (k : ℝ) + -c - -v.heading = -(H + c - v.heading) + 2 * Real.pi * k := by ring
  rw [e3, wrap_decided hd]
  rw [show LENGTH / 2 / notZero v.speed * (KP_HEADING * -wrapToPi (H + c - v.heading)) = -(LENGTH / 2 / notZero v.speed * (KP_HEADING * wrapToPi (H + c - v.heading))) by ring,
    npClip_odd _ (by norm_num : (0 : ℝ) ≤ 1), Real.arcsin_neg, npClip_odd _ (by unfold MAX_STEERING_ANGLE; positivity)]

omit hg hp in
theorem steeringFeatures_m {l : Lane} (h : HasImage l v.pos) (hlin : v.kind.isLinear = true) (hd : ¬ FacesBack v l) :
    v.mirror.steeringFeatures l.mirror = (-(v.steeringFeatures l).1, -(v.steeringFeatures l).2) := by
  unfold FacesBack aim at hd
  rw [if_pos hlin, add_zero] at hd
  unfold steeringFeatures
  simp only [pos_m, Lane.localCoordinates_m h, speed_m, heading_m]
  obtain ⟨k, hk⟩ := Lane.headingAt_m h ((l.localCoordinates v.pos).1 + v.speed * PURSUIT_TAU)
  have hT : (PURSUIT_TAU : ℝ) = 1 / 10 := by unfold PURSUIT_TAU; norm_num
  rw [hk, hT]
  generalize l.headingAt ((l.localCoordinates v.pos).1 + v.speed * (1 / 10)) = H at hd ⊢
  have e3 : -H + 2 * Real.pi * (k : ℝ) - -v.heading = -(H - v.heading) + 2 * Real.pi * k := by ring
  rw [e3, wrap_decided hd]
  ext <;> simp only <;> ring

theorem steeringControl_m (hd : ∀ l ∈ L, ¬ FacesBack v l) (i : LaneIndex) :
    v.mirror.steeringControl g.mirror i = (v.steeringControl g i).map fun x => -x := by
  unfold steeringControl
  rw [Graph.getLane_m]
  cases hl : g.getLane i with
  | error e => rfl
  | ok l =>
    have hlL := Graph.getLane_in hg hl
    simp only [Except.map, bind, Except.bind, steerParams_m, pure, Except.pure]
    by_cases h : v.kind.isLinear = true
    · rw [if_pos (show v.mirror.kind.isLinear = true from h), if_pos h, steeringFeatures_m (hp _ hlL) h (hd _ hlL)]
      dsimp only
      congr 1
      ring
    · rw [if_neg (show ¬ v.mirror.kind.isLinear = true from h), if_neg h, steeringToLane_m (hp _ hlL) (by simpa using h) (hd _ hlL)]

omit hg hp in
theorem facesBack_body {v w : Vehicle} (hb : SameBody v w) (l : Lane) : FacesBack w l ↔ FacesBack v l := by
  unfold FacesBack aim
  rw [hb.pos, hb.speed, hb.heading, hb.kind]

theorem changeLane_m (d : Int) : v.mirror.changeLane g.mirror d = (v.changeLane g d).map Vehicle.mirror := by
  unfold changeLane
  simp only [targetLane_m, Graph.lanesOf_m, Graph.getLane_m]
  cases g.lanesOf v.targetLane.src v.targetLane.dst with
  | error e => rfl
  | ok ls =>
    simp only [Except.map, bind, Except.bind, List.length_map]
    generalize ({ v.targetLane with id := npClipInt (v.targetLane.id + d) 0 ((ls.length : Int) - 1) } : LaneIndex) = i
    cases hl : g.getLane i with
    | error e => rfl
    | ok l =>
      simp only [pos_m, Lane.isReachableFrom_m (hp _ (Graph.getLane_in hg hl))]
      split_ifs <;> rfl

theorem applyMeta_m (a : VAction) : v.mirror.applyMeta g.mirror a.mirror = (v.applyMeta g a).map Vehicle.mirror := by
  unfold applyMeta
  cases a <;> first | exact changeLane_m hg hp _ | rfl

theorem controlledAct_m (hd : ∀ l ∈ L, ¬ FacesBack v l) (rng : Rng) (a : VAction) :
    v.mirror.controlledAct g.mirror rng a.mirror = (v.controlledAct g rng a).map fun p => (p.1.mirror, p.2) := by
  unfold controlledAct
  rw [followRoad_m hg hp]
  cases h1 : v.followRoad g rng with
  | error e => rfl
  | ok p =>
    have b1 := followRoad_body (v' := p.1) (rng' := p.2) h1
    have hp1 : ∀ l ∈ L, HasImage l p.1.pos := by rw [b1.pos]; exact hp
    simp only [Except.map, bind, Except.bind, applyMeta_m hg hp1]
    cases h2 : p.1.applyMeta g a with
    | error e => rfl
    | ok w =>
      have b2 := applyMeta_body h2
      have hp2 : ∀ l ∈ L, HasImage l w.pos := by rw [b2.pos]; exact hp1
      have hd2 : ∀ l ∈ L, ¬ FacesBack w l := fun l hl => by rw [facesBack_body b2, facesBack_body b1]; exact hd l hl
      simp only [targetLane_m, steeringControl_m hg hp2 hd2]
      cases w.steeringControl g w.targetLane with
      | error e => rfl
      | ok st =>
        simp only [Except.map, npClip_odd st (show (0 : ℝ) ≤ MAX_STEERING_ANGLE by unfold MAX_STEERING_ANGLE; positivity)]
        rfl

theorem mdpAct_m (G : Globals) (hd : ∀ l ∈ L, ¬ FacesBack v l) (rng : Rng) (a : VAction) :
    v.mirror.mdpAct G g.mirror rng a.mirror = (v.mdpAct G g rng a).map fun p => (p.1.mirror, p.2) := by
  unfold mdpAct
  cases a <;> first | exact controlledAct_m hg hp hd rng _ |
    exact controlledAct_m (v := v.setSpeedIndex G _) hg hp hd rng .none

theorem predictConstantSpeed_m (h2 : HasImage v.lane v.pos) (times : List ℝ) :
    Graph.PyRel (List.Forall₂ Graph.PoseM) (v.predictConstantSpeed g times) (v.mirror.predictConstantSpeed g.mirror times) := by
  unfold predictConstantSpeed
  simp only [kind_m, lane_m, pos_m, Lane.localCoordinates_m h2, route_m, laneIndex_m, speed_m]
  by_cases h : v.kind.isControlled = true
  · rw [if_pos h, if_pos h]
    exact Graph.mapM_rel (fun a => by
      have := Graph.positionHeadingAlongRoute_m hg hp (match v.route with
        | some (s :: rest) => s :: rest
        | _ => [v.laneIndex.toStep]) ((v.lane.localCoordinates v.pos).1 + v.speed * a) 0
      rw [neg_zero] at this
      exact this) times
  · rw [if_neg h, if_neg h]; exact .error _

end

end Vehicle


/-- Something on the road reflected by 90°. -/
def Entity.mirror : Entity → Entity
  | .veh v => .veh v.mirror
  | .obj o => .obj o.mirror

namespace Entity
@[simp] theorem pos_m (e : Entity) : e.mirror.pos = e.pos.mirror := by cases e <;> rfl
@[simp] theorem speed_m (e : Entity) : e.mirror.speed = e.speed := by cases e <;> rfl
@[simp] theorem uid_m (e : Entity) : e.mirror.uid = e.uid := by cases e <;> rfl
@[simp] theorem isLandmark_m (e : Entity) : e.mirror.isLandmark = e.isLandmark := by cases e <;> rfl
@[simp] theorem velocity_m (e : Entity) : e.mirror.velocity = e.velocity.mirror := by
  cases e with
  | veh v => exact Vehicle.velocity_m v
  | obj o =>
    show o.speed • Vec2.dir (-o.heading) = (o.speed • Vec2.dir o.heading).mirror
    rw [Vec2.dir_mirror, Vec2.mirror_smul]
end Entity

/-- A vehicle at a point of `P`, recorded on a lane of `L`. -/
def VM (P : Set Vec2) (L : Set Lane) (v : Vehicle) : Prop := v.pos ∈ P ∧ v.lane ∈ L ∧ Decided L v

/-- The same for anything on the road. -/
def EM (P : Set Vec2) (L : Set Lane) : Entity → Prop
  | .veh v => VM P L v
  | .obj o => o.pos ∈ P

theorem EM.pos {P : Set Vec2} {L : Set Lane} {e : Entity} (h : EM P L e) : e.pos ∈ P := by
  cases e with
  | veh v => exact h.1
  | obj o => exact h

/-- A road whose lanes are in `L` and on which everything is at points of `P`. -/
structure RM (P : Set Vec2) (L : Set Lane) (r : Road) : Prop where
  lanes : r.network.LanesIn L
  vehicles : ∀ v ∈ r.vehicles, VM P L v
  objects : ∀ o ∈ r.objects, o.pos ∈ P

theorem RM.entities {P : Set Vec2} {L : Set Lane} {r : Road} (h : RM P L r) : ∀ e ∈ r.entities, EM P L e := by
  intro e he
  unfold Road.entities at he
  rcases List.mem_append.1 he with he | he
  · obtain ⟨v, hv, rfl⟩ := List.mem_map.1 he
    exact h.vehicles v hv
  · obtain ⟨o, ho, rfl⟩ := List.mem_map.1 he
    exact h.objects o ho

namespace Road

@[simp] theorem vehicles_m (r : Road) : r.mirror.vehicles = r.vehicles.map Vehicle.mirror := rfl
@[simp] theorem network_m (r : Road) : r.mirror.network = r.network.mirror := rfl
@[simp] theorem objects_m (r : Road) : r.mirror.objects = r.objects.map RoadObject.mirror := rfl
@[simp] theorem rng_m (r : Road) : r.mirror.rng = r.rng := rfl
@[simp] theorem steps_m (r : Road) : r.mirror.steps = r.steps := rfl

theorem entities_m (r : Road) : r.mirror.entities = r.entities.map Entity.mirror := by
  unfold entities Road.mirror
  simp only [List.map_append, List.map_map]
  rfl

/-- The candidates of a neighbour search, reflected. -/
def NbState.mirror (st : NbState) : NbState :=
  ⟨st.front.map fun p => (p.1, p.2.mirror), st.rear.map fun p => (p.1, p.2.mirror)⟩

theorem nbStep_m {l : Lane} (s : ℝ) (self : ℕ) (st : NbState) {e : Entity} (h : HasImage l e.pos) :
    nbStep l.mirror s self (NbState.mirror st) e.mirror = NbState.mirror (nbStep l s self st e) := by
  unfold nbStep
  simp only [Entity.uid_m, Entity.isLandmark_m, Entity.pos_m, Lane.localCoordinates_m h, Lane.onLane_m h]
  by_cases h1 : e.uid ≠ self ∧ e.isLandmark = false
  · rw [if_pos h1, if_pos h1]
    by_cases h2 : l.onLane e.pos (some (l.localCoordinates e.pos).1) (some (l.localCoordinates e.pos).2) 1 = false
    · rw [if_pos h2, if_pos h2]
    · rw [if_neg h2, if_neg h2]
      have hf : (∀ f ∈ (NbState.mirror st).front, (l.localCoordinates e.pos).1 ≤ f.1) ↔ ∀ f ∈ st.front, (l.localCoordinates e.pos).1 ≤ f.1 := by
        unfold NbState.mirror; cases st.front <;> simp
      have hr : ∀ q : NbState, (∀ f ∈ (NbState.mirror q).rear, f.1 < (l.localCoordinates e.pos).1) ↔ ∀ f ∈ q.rear, f.1 < (l.localCoordinates e.pos).1 := by
        intro q; unfold NbState.mirror; cases q.rear <;> simp
      have h3 : (if s ≤ (l.localCoordinates e.pos).1 ∧ (∀ f ∈ (NbState.mirror st).front, (l.localCoordinates e.pos).1 ≤ f.1)
            then { (NbState.mirror st) with front := some ((l.localCoordinates e.pos).1, e.mirror) } else NbState.mirror st) =
          NbState.mirror (if s ≤ (l.localCoordinates e.pos).1 ∧ (∀ f ∈ st.front, (l.localCoordinates e.pos).1 ≤ f.1)
            then { st with front := some ((l.localCoordinates e.pos).1, e) } else st) := by
        by_cases hc : s ≤ (l.localCoordinates e.pos).1 ∧ (∀ f ∈ st.front, (l.localCoordinates e.pos).1 ≤ f.1)
        · rw [if_pos hc, if_pos (by rwa [hf])]; rfl
        · rw [if_neg hc, if_neg (by rwa [hf])]
      rw [h3]
      generalize (if s ≤ (l.localCoordinates e.pos).1 ∧ (∀ f ∈ st.front, (l.localCoordinates e.pos).1 ≤ f.1)
            then { st with front := some ((l.localCoordinates e.pos).1, e) } else st) = q
      by_cases hc : (l.localCoordinates e.pos).1 < s ∧ (∀ f ∈ q.rear, f.1 < (l.localCoordinates e.pos).1)
      · rw [if_pos hc, if_pos (by rwa [hr])]; rfl
      · rw [if_neg hc, if_neg (by rwa [hr])]
  · rw [if_neg h1, if_neg h1]

theorem nbFold_m {l : Lane} (s : ℝ) (self : ℕ) (es : List Entity) (h : ∀ e ∈ es, HasImage l e.pos) (st : NbState) :
    (es.map Entity.mirror).foldl (nbStep l.mirror s self) (NbState.mirror st) = NbState.mirror (es.foldl (nbStep l s self) st) := by
  induction es generalizing st with
  | nil => rfl
  | cons e es ih =>
    simp only [List.map_cons, List.foldl_cons, nbStep_m s self st (h e (by simp))]
    exact ih (fun e' he => h e' (List.mem_cons_of_mem _ he)) _

/-- The candidates of a neighbour search are on the road. -/
def NbM (P : Set Vec2) (L : Set Lane) (st : NbState) : Prop := (∀ f ∈ st.front, EM P L f.2) ∧ ∀ f ∈ st.rear, EM P L f.2

theorem nbStep_mem {P : Set Vec2} {L : Set Lane} (l : Lane) (s : ℝ) (self : ℕ) {st : NbState} (hs : NbM P L st) {e : Entity} (h : EM P L e) :
    NbM P L (nbStep l s self st e) := by
  unfold nbStep
  dsimp only
  by_cases h1 : e.uid ≠ self ∧ e.isLandmark = false
  · rw [if_pos h1]
    by_cases h2 : l.onLane e.pos (some (l.localCoordinates e.pos).1) (some (l.localCoordinates e.pos).2) 1 = false
    · rw [if_pos h2]; exact hs
    · rw [if_neg h2]
      have h3 : NbM P L (if s ≤ (l.localCoordinates e.pos).1 ∧ (∀ f ∈ st.front, (l.localCoordinates e.pos).1 ≤ f.1)
            then { st with front := some ((l.localCoordinates e.pos).1, e) } else st) := by
        by_cases hc : s ≤ (l.localCoordinates e.pos).1 ∧ (∀ f ∈ st.front, (l.localCoordinates e.pos).1 ≤ f.1)
        · rw [if_pos hc]; exact ⟨fun f hf => by cases hf; exact h, hs.2⟩
        · rw [if_neg hc]; exact hs
      generalize (if s ≤ (l.localCoordinates e.pos).1 ∧ (∀ f ∈ st.front, (l.localCoordinates e.pos).1 ≤ f.1)
            then { st with front := some ((l.localCoordinates e.pos).1, e) } else st) = q at h3
      by_cases hc : (l.localCoordinates e.pos).1 < s ∧ (∀ f ∈ q.rear, f.1 < (l.localCoordinates e.pos).1)
      · rw [if_pos hc]; exact ⟨h3.1, fun f hf => by cases hf; exact h⟩
      · rw [if_neg hc]; exact h3
  · rw [if_neg h1]; exact hs

theorem nbFold_mem {P : Set Vec2} {L : Set Lane} (l : Lane) (s : ℝ) (self : ℕ) (es : List Entity) (h : ∀ e ∈ es, EM P L e) {st : NbState} (hs : NbM P L st) :
    NbM P L (es.foldl (nbStep l s self) st) := by
  induction es generalizing st with
  | nil => exact hs
  | cons e es ih =>
    simp only [List.foldl_cons]
    exact ih (fun e' he => h e' (List.mem_cons_of_mem _ he)) (nbStep_mem l s self hs (h e (by simp)))

section
variable {P : Set Vec2} {L : Set Lane} (hPL : ∀ l ∈ L, ∀ p ∈ P, HasImage l p) {r : Road} (hr : RM P L r)

include hr in
theorem neighbour_mem {v : Vehicle} {i : Option LaneIndex} {p : Option Entity × Option Entity} (h : r.neighbourVehicles v i = .ok p) :
    (∀ f ∈ p.1, EM P L f) ∧ ∀ f ∈ p.2, EM P L f := by
  unfold neighbourVehicles at h
  obtain ⟨l, -, h⟩ := bind_ok h
  have key := nbFold_mem l (l.localCoordinates v.pos).1 v.uid r.entities hr.entities (st := {}) ⟨fun f hf => (by cases hf), fun f hf => (by cases hf)⟩
  cases h
  refine ⟨fun f hf => ?_, fun f hf => ?_⟩
  · obtain ⟨q, hq, rfl⟩ := Option.mem_map.1 hf
    exact key.1 q hq
  · obtain ⟨q, hq, rfl⟩ := Option.mem_map.1 hf
    exact key.2 q hq

include hPL hr in
theorem neighbourVehicles_m {v : Vehicle} (hv : VM P L v) (i : Option LaneIndex) :
    r.mirror.neighbourVehicles v.mirror i =
      (r.neighbourVehicles v i).map fun p => (p.1.map Entity.mirror, p.2.map Entity.mirror) := by
  unfold neighbourVehicles
  have hn : r.mirror.network = r.network.mirror := rfl
  simp only [hn, Vehicle.laneIndex_m, Graph.getLane_m, entities_m]
  cases hl : r.network.getLane (i.getD v.laneIndex) with
  | error e => rfl
  | ok l =>
    have hlL := Graph.getLane_in hr.lanes hl
    simp only [Except.map, bind, Except.bind, pure, Except.pure, Vehicle.pos_m, Lane.localCoordinates_m (hPL l hlL _ hv.1), Vehicle.uid_m]
    have h := nbFold_m (l.localCoordinates v.pos).1 v.uid r.entities (fun e he => hPL l hlL _ (hr.entities e he).pos) {}
    have h0 : NbState.mirror ({} : NbState) = {} := rfl
    rw [h0] at h
    rw [h]
    unfold NbState.mirror
    simp only [Option.map_map]
    rfl

end
end Road

namespace Vehicle
section
variable {P : Set Vec2} {L : Set Lane} (hPL : ∀ l ∈ L, ∀ p ∈ P, HasImage l p)

theorem desiredGap_m (G : Globals) (k : VKind) (e : Vehicle) (f : Entity) :
    desiredGap G k e.mirror f.mirror = desiredGap G k e f := by
  unfold desiredGap
  simp only [velocity_m, Entity.velocity_m, direction_m, ← Vec2.mirror_sub, Vec2.dot_mirror, speed_m]

include hPL

theorem idmAcceleration_m (G : Globals) (k : VKind) {e : Vehicle} (he : VM P L e) {f : Option Entity} (hf : ∀ x ∈ f, EM P L x) :
    idmAcceleration G k e.mirror (f.map Entity.mirror) = idmAcceleration G k e f := by
  unfold idmAcceleration
  cases f with
  | none => rfl
  | some f =>
    simp only [Option.map_some, desiredGap_m, Entity.pos_m, laneDistanceTo_m (hPL _ he.2.1 _ (hf f rfl).pos) (hPL _ he.2.1 _ he.1)]
    rfl

theorem accelerationFeatures_m (G : Globals) (k : VKind) {e : Vehicle} (he : VM P L e) {f : Option Entity} (hf : ∀ x ∈ f, EM P L x) :
    accelerationFeatures G k e.mirror (f.map Entity.mirror) = accelerationFeatures G k e f := by
  unfold accelerationFeatures
  cases f with
  | none => rfl
  | some f =>
    simp only [Option.map_some, Entity.pos_m, laneDistanceTo_m (hPL _ he.2.1 _ (hf f rfl).pos) (hPL _ he.2.1 _ he.1), Entity.speed_m, targetSpeed_m, speed_m]

theorem accelerationOf_m (G : Globals) (v : Vehicle) {e f : Option Entity} (he : ∀ x ∈ e, EM P L x) (hf : ∀ x ∈ f, EM P L x) :
    accelerationOf G v.mirror (e.map Entity.mirror) (f.map Entity.mirror) = accelerationOf G v e f := by
  unfold accelerationOf
  cases e with
  | none => rfl
  | some e =>
    cases e with
    | obj o => rfl
    | veh e =>
      have he' : VM P L e := he _ rfl
      simp only [Option.map_some, Entity.mirror, accelerationFeatures_m hPL G _ he' hf, idmAcceleration_m hPL G _ he' hf, kind_m, accParams_m]

theorem mobil_m (G : Globals) {r : Road} (hr : RM P L r) {v : Vehicle} (hv : VM P L v) (i : LaneIndex) : v.mirror.mobil G r.mirror i = v.mobil G r i := by
  have hs : ∀ x ∈ (some (Entity.veh v) : Option Entity), EM P L x := fun x hx => by cases hx; exact hv
  unfold mobil
  rw [Road.neighbourVehicles_m hPL hr hv, Road.neighbourVehicles_m hPL hr hv]
  cases hn : r.neighbourVehicles v (some i) with
  | error e => rfl
  | ok p =>
    obtain ⟨p1, p2⟩ := Road.neighbour_mem hr hn
    have hf : ∀ f : Option Entity, (∀ x ∈ f, EM P L x) → accelerationOf G v.mirror (some (.veh v.mirror)) (f.map Entity.mirror) =
        accelerationOf G v (some (.veh v)) f := fun f h => accelerationOf_m hPL G v hs h
    have hf' : ∀ f : Option Entity, (∀ x ∈ f, EM P L x) → accelerationOf G v.mirror (f.map Entity.mirror) (some (.veh v.mirror)) =
        accelerationOf G v f (some (.veh v)) := fun f h => accelerationOf_m hPL G v h hs
    cases hm : r.neighbourVehicles v with
    | error e =>
      simp only [Except.map, bind, Except.bind, accelerationOf_m hPL G v p2 p1, hf' _ p2]
      rfl
    | ok q =>
      obtain ⟨q1, q2⟩ := Road.neighbour_mem hr hm
      simp only [Except.map, bind, Except.bind, accelerationOf_m hPL G v p2 p1, accelerationOf_m hPL G v q2 q1, hf _ p1, hf _ q1, hf' _ p2, hf' _ q2]
      rfl

theorem abortedBy_m (G : Globals) {v w : Vehicle} (hv : VM P L v) (hw : VM P L w) : abortedBy G v.mirror w.mirror = abortedBy G v w := by
  unfold abortedBy
  have h : desiredGap G v.kind v.mirror (.veh w.mirror) = desiredGap G v.kind v (.veh w) := desiredGap_m G v.kind v (.veh w)
  simp only [pos_m, laneDistanceTo_m (hPL _ hv.2.1 _ hw.1) (hPL _ hv.2.1 _ hv.1)]
  show (_ && decide (0 < v.laneDistanceTo w.pos ∧ v.laneDistanceTo w.pos < desiredGap G v.kind v.mirror (.veh w.mirror))) = _
  rw [h]
  rfl

theorem considerLane_m (G : Globals) {r : Road} (hr : RM P L r) {v : Vehicle} (hv : VM P L v) (i : LaneIndex) :
    considerLane G r.mirror v.mirror i = (considerLane G r v i).map Vehicle.mirror := by
  unfold considerLane
  have hn : r.mirror.network = r.network.mirror := rfl
  rw [hn, Graph.getLane_m]
  cases hl : r.network.getLane i with
  | error e => rfl
  | ok l =>
    simp only [Except.map, bind, Except.bind, pos_m, Lane.isReachableFrom_m (hPL _ (Graph.getLane_in hr.lanes hl) _ hv.1), mobil_m hPL G hr hv]
    by_cases h : l.isReachableFrom v.pos = true
    · rw [if_pos h, if_pos h]
      cases v.mobil G r i with
      | error e => rfl
      | ok b => cases b <;> rfl
    · rw [if_neg h, if_neg h]; rfl

end
end Vehicle

theorem VM.body {P : Set Vec2} {L : Set Lane} {v w : Vehicle} (h : VM P L v) (hb : SameBody v w) : VM P L w := by
  refine ⟨by rw [hb.pos]; exact h.1, by rw [hb.lane]; exact h.2.1, by rw [hb.kind]; exact h.2.2.1, fun hk l hl => ?_⟩
  rw [Vehicle.facesBack_body hb]
  exact h.2.2.2 (by rw [← hb.kind]; exact hk) l hl

namespace Vehicle
section
variable {P : Set Vec2} {L : Set Lane} (hPL : ∀ l ∈ L, ∀ p ∈ P, HasImage l p) (G : Globals) {r : Road} (hr : RM P L r) {v : Vehicle} (hv : VM P L v)
include hPL hr hv

theorem changeLanePolicy_m : v.mirror.changeLanePolicy G r.mirror = (v.changeLanePolicy G r).map Vehicle.mirror := by
  have ha : r.mirror.vehicles.any (abortedBy G v.mirror) = r.vehicles.any (abortedBy G v) := by
    show (r.vehicles.map Vehicle.mirror).any _ = _
    rw [List.any_map]
    have := hr.vehicles
    generalize r.vehicles = vs at this
    induction vs with
    | nil => rfl
    | cons w vs ih =>
      simp only [List.any_cons, Function.comp, abortedBy_m hPL G hv (this w (by simp))]
      congr 1
      exact ih fun u hu => this u (List.mem_cons_of_mem _ hu)
  have hs : r.mirror.network.sideLanes v.laneIndex = r.network.sideLanes v.laneIndex := Graph.sideLanes_m r.network v.laneIndex
  have e : v.mirror.changeLanePolicy G r.mirror =
      if v.laneIndex ≠ v.targetLane then
        if v.laneIndex.src = v.targetLane.src ∧ v.laneIndex.dst = v.targetLane.dst then
          if r.mirror.vehicles.any (abortedBy G v.mirror) then .ok { v.mirror with targetLane := v.laneIndex }
          else .ok v.mirror
        else .ok v.mirror
      else if doEvery LANE_CHANGE_DELAY v.timer then do
        let sides ← r.mirror.network.sideLanes v.laneIndex
        sides.foldlM (considerLane G r.mirror) (Vehicle.mirror { v with timer := 0 })
      else .ok v.mirror := rfl
  rw [e, ha, hs]
  unfold changeLanePolicy
  by_cases h1 : v.laneIndex ≠ v.targetLane
  · rw [if_pos h1, if_pos h1]
    by_cases h2 : v.laneIndex.src = v.targetLane.src ∧ v.laneIndex.dst = v.targetLane.dst
    · rw [if_pos h2, if_pos h2]
      by_cases h3 : r.vehicles.any (abortedBy G v) = true
      · rw [if_pos h3, if_pos h3]; rfl
      · rw [if_neg h3, if_neg h3]; rfl
    · rw [if_neg h2, if_neg h2]; rfl
  · rw [if_neg h1, if_neg h1]
    by_cases h2 : doEvery LANE_CHANGE_DELAY v.timer = true
    · rw [if_pos h2, if_pos h2]
      dsimp only
      cases r.network.sideLanes v.laneIndex with
      | error e => rfl
      | ok sides =>
        exact foldlM_equiv_inv (VM P L) Vehicle.mirror _ _ (fun s i hs => considerLane_m hPL G hr hs i)
          (fun s i s' hs h => hs.body (considerLane_body h)) sides { v with timer := 0 } hv
    · rw [if_neg h2, if_neg h2]; rfl

theorem maybeChangeLane_m : v.mirror.maybeChangeLane G r.mirror = (v.maybeChangeLane G r).map Vehicle.mirror := by
  unfold maybeChangeLane
  rw [changeLanePolicy_m hPL G hr hv, enableLaneChange_m]
  by_cases h : v.enableLaneChange = true
  · rw [if_pos h, if_pos h]
  · rw [if_neg h, if_neg h]; rfl

theorem idmAct_m (hk : v.kind.isControlled = true) : v.mirror.idmAct G r.mirror = (v.idmAct G r).map fun p => (p.1.mirror, p.2) := by
  have hp : ∀ l ∈ L, HasImage l v.pos := fun l hl => hPL l hl _ hv.1
  unfold idmAct
  have hn : r.mirror.network = r.network.mirror := rfl
  have hrng : r.mirror.rng = r.rng := rfl
  rw [Road.neighbourVehicles_m hPL hr hv, hn, hrng, followRoad_m hr.lanes hp, crashed_m]
  by_cases hc : v.crashed = true
  · rw [if_pos hc, if_pos hc]; rfl
  rw [if_neg hc, if_neg hc]
  cases hnb : r.neighbourVehicles v with
  | error e => rfl
  | ok p =>
    obtain ⟨p1, -⟩ := Road.neighbour_mem hr hnb
    cases hq : v.followRoad r.network r.rng with
    | error e => rfl
    | ok q =>
      have hq' : VM P L q.1 := hv.body (followRoad_body (v' := q.1) (rng' := q.2) hq)
      simp only [Except.map, bind, Except.bind, maybeChangeLane_m hPL G hr hq']
      cases hw : q.1.maybeChangeLane G r with
      | error e => rfl
      | ok w =>
        have hw' : VM P L w := by
          unfold maybeChangeLane at hw
          by_cases h : q.1.enableLaneChange = true
          · rw [if_pos h] at hw; exact hq'.body (changeLanePolicy_body hw)
          · rw [if_neg h] at hw; cases hw; exact hq'
        have hkw : w.kind.isControlled = true := by
          have b1 := followRoad_body (v' := q.1) (rng' := q.2) hq
          have b2 : SameBody q.1 w := by
            unfold maybeChangeLane at hw
            by_cases h : q.1.enableLaneChange = true
            · rw [if_pos h] at hw; exact changeLanePolicy_body hw
            · rw [if_neg h] at hw; cases hw; exact SameBody.refl _
          rw [b2.kind, b1.kind]; exact hk
        simp only [Except.map, targetLane_m, steeringControl_m hr.lanes (fun l hl => hPL l hl _ hw'.1) (hw'.2.2.2 hkw)]
        cases w.steeringControl r.network w.targetLane with
        | error e => rfl
        | ok st =>
          have ha : accelerationOf G w.mirror (some (.veh w.mirror)) (p.1.map Entity.mirror) =
              accelerationOf G w (some (.veh w)) p.1 := accelerationOf_m hPL G w (e := some (.veh w)) (fun x hx => by cases hx; exact hw') p1
          simp only [ha]
          cases accelerationOf G w (some (.veh w)) p.1 with
          | error e => rfl
          | ok acc =>
            simp only [Except.map, npClip_odd st (show (0 : ℝ) ≤ MAX_STEERING_ANGLE by unfold MAX_STEERING_ANGLE; positivity)]
            rfl

theorem act_m (a : VAction) : v.mirror.act G r.mirror a.mirror = (v.act G r a).map fun p => (p.1.mirror, p.2) := by
  have hp : ∀ l ∈ L, HasImage l v.pos := fun l hl => hPL l hl _ hv.1
  have hd := hv.2.2.2
  unfold act
  rw [kind_m]
  cases hk : v.kind <;> rw [hk] at hd <;> first
    | exact controlledAct_m hr.lanes hp (hd rfl) r.rng a
    | exact mdpAct_m hr.lanes hp G (hd rfl) r.rng a
    | exact idmAct_m hPL G hr hv (by rw [hk]; rfl)
    | (cases a <;> rfl)

end
end Vehicle

theorem RM.pointwise {P : Set Vec2} {L : Set Lane} {r r' : Road} (h : RM P L r) (hb : Pointwise SameBody r.vehicles r'.vehicles)
    (hs : Road.SameScene r r') : RM P L r' := by
  refine ⟨?_, fun w hw => ?_, ?_⟩
  · rw [hs.network]; exact h.lanes
  · obtain ⟨i, hi⟩ := List.getElem?_of_mem hw
    have hlt : i < r.vehicles.length := by
      rw [← hb.1]; exact (List.getElem?_eq_some_iff.1 hi).1
    obtain ⟨w', hw', hsame⟩ := hb.2 i _ (List.getElem?_eq_getElem hlt)
    rw [hi] at hw'
    cases hw'
    exact (h.vehicles _ (List.getElem_mem hlt)).body hsame
  · rw [hs.objects]; exact h.objects

namespace Road
section
variable {P : Set Vec2} {L : Set Lane} (hPL : ∀ l ∈ L, ∀ p ∈ P, HasImage l p)

include hPL in
theorem actAt_m (G : Globals) (a : VAction) {r : Road} (hr : RM P L r) (i : ℕ) :
    r.mirror.actAt G a.mirror i = (r.actAt G a i).map Road.mirror := by
  unfold actAt
  simp only [vehicles_m, List.getElem?_map]
  cases hv : r.vehicles[i]? with
  | none => rfl
  | some v =>
    simp only [Option.map_some, Vehicle.act_m hPL G hr (hr.vehicles v (List.mem_of_getElem? hv))]
    cases v.act G r a with
    | error e => rfl
    | ok p =>
      simp only [Except.map, bind, Except.bind, pure, Except.pure]
      unfold Road.mirror
      rw [List.map_set]

theorem actAt_mem {G : Globals} {a : VAction} {r r' : Road} {i : ℕ} (hr : RM P L r) (h : r.actAt G a i = .ok r') : RM P L r' :=
  hr.pointwise (actAt_frame h).1 (actAt_frame h).2

include hPL in
theorem commands_m (G : Globals) (cmds : List (ℕ × VAction)) {r : Road} (hr : RM P L r) :
    (cmds.map fun c => (c.1, c.2.mirror)).foldlM (fun (r : Road) (c : ℕ × VAction) => r.actAt G c.2 c.1) r.mirror =
      (cmds.foldlM (fun (r : Road) (c : ℕ × VAction) => r.actAt G c.2 c.1) r).map Road.mirror := by
  rw [List.foldlM_map]
  exact foldlM_equiv_inv (RM P L) Road.mirror _ _ (fun _ c hs => actAt_m hPL G c.2 hs c.1) (fun _ _ _ hs h => actAt_mem hs h) cmds r hr

theorem commands_mem {G : Globals} {cmds : List (ℕ × VAction)} {r r' : Road} (hr : RM P L r)
    (h : cmds.foldlM (fun (r : Road) (c : ℕ × VAction) => r.actAt G c.2 c.1) r = .ok r') : RM P L r' := by
  induction cmds generalizing r with
  | nil => cases h; exact hr
  | cons c cs ih =>
    rw [List.foldlM_cons] at h
    obtain ⟨s, hs, h⟩ := bind_ok h
    exact ih (actAt_mem hr hs) h

include hPL in
theorem act_m (G : Globals) {r : Road} (hr : RM P L r) : r.mirror.act G = (r.act G).map Road.mirror := by
  unfold act
  rw [vehicles_m, List.length_map]
  exact foldlM_equiv_inv (RM P L) Road.mirror _ _ (fun s i hs => actAt_m hPL G .none hs i) (fun _ _ _ hs h => actAt_mem hs h) _ r hr

theorem act_mem {G : Globals} {r r' : Road} (hr : RM P L r) (h : r.act G = .ok r') : RM P L r' :=
  hr.pointwise (act_frame h).1 (act_frame h).2


include hPL in
theorem moveAll_m {r r' : Road} {dt : ℝ} (hk : ∀ v ∈ r.vehicles, v.kind ≠ .bicycle) (hg : r.network.LanesIn L) (h : r.moveAll dt = .ok r') (hn : ∀ v ∈ r'.vehicles, v.pos ∈ P) :
    r.mirror.moveAll dt = .ok r'.mirror := by
  unfold moveAll at h
  obtain ⟨vs, hvs, h⟩ := bind_ok h
  cases h
  unfold moveAll
  have key : r.mirror.vehicles.mapM (Vehicle.step r.mirror.network r.mirror.recordHistory dt) = .ok (vs.map Vehicle.mirror) := by
    refine mapM_some hvs fun v hv w hw => ?_
    obtain ⟨i, hi⟩ := List.getElem?_of_mem hv
    obtain ⟨w', hw', hs⟩ := (mapM_pointwise hvs).2 i v hi
    rw [hw] at hs
    cases hs
    have hp : (v.move dt).pos = w.pos := by
      obtain ⟨j, l, hist, -, -, rfl⟩ := Vehicle.step_ok hw
      rfl
    have := hn w (List.mem_of_getElem? hw')
    exact (Vehicle.step_m hg r.recordHistory dt (hk v hv) (fun l hl => hp ▸ hPL l hl _ this)).trans (by rw [hw]; rfl)
  rw [key]
  rfl

include hPL in
theorem stepBase_m {r r' : Road} {dt : ℝ} (hk : ∀ v ∈ r.vehicles, v.kind ≠ .bicycle) (hg : r.network.LanesIn L) (h : r.stepBase dt = .ok r') (hn : ∀ v ∈ r'.vehicles, v.pos ∈ P) :
    r.mirror.stepBase dt = .ok r'.mirror := by
  unfold stepBase at h
  obtain ⟨s, hs, h⟩ := bind_ok h
  cases h
  have hn' : ∀ v ∈ s.vehicles, v.pos ∈ P := by
    intro v hv
    obtain ⟨i, hi⟩ := List.getElem?_of_mem hv
    obtain ⟨w, hw, x, b, rfl, -⟩ := (collidePass_evolves s.vehicles s.objects).1.pointwise.2 i v hi
    exact hn (bump v x b) (List.mem_of_getElem? hw)
  unfold stepBase
  rw [moveAll_m hPL hk hg hs hn']
  simp only [bind, Except.bind, pure, Except.pure, vehicles_m, objects_m, collidePass_m]
  rfl

/-! Regulation -/

theorem release_m (v : Vehicle) : release v.mirror = (release v).map Vehicle.mirror := by
  unfold release
  rw [apply_ite (Except.map Vehicle.mirror), apply_ite (Except.map Vehicle.mirror), apply_ite (Except.map Vehicle.mirror)]
  rfl

include hPL in
theorem isConflictPossible_m {g : Graph} (hg : g.LanesIn L) {v w : Vehicle} (hv : VM P L v) (hw : VM P L w) :
    isConflictPossible g.mirror v.mirror w.mirror = isConflictPossible g v w := by
  unfold isConflictPossible
  have h1 := Vehicle.predictConstantSpeed_m hg (v := v) (fun l hl => hPL l hl _ hv.1) (hPL _ hv.2.1 _ hv.1) conflictTimes
  have h2 := Vehicle.predictConstantSpeed_m hg (v := w) (fun l hl => hPL l hl _ hw.1) (hPL _ hw.2.1 _ hw.1) conflictTimes
  generalize v.predictConstantSpeed g conflictTimes = x at h1
  generalize v.mirror.predictConstantSpeed g.mirror conflictTimes = x' at h1
  generalize w.predictConstantSpeed g conflictTimes = y at h2
  generalize w.mirror.predictConstantSpeed g.mirror conflictTimes = y' at h2
  cases h1 with
  | error e => rfl
  | ok h1 =>
    cases h2 with
    | error e => rfl
    | ok h2 =>
      simp only [bind, Except.bind, pure, Except.pure]
      congr 1
      refine (anyRel (R := Graph.PoseM) (fun a a' b b' ha hb => ?_) h1 h2).symm
      have hi := Vehicle.RectM.intersect (r1 := conflictRect a) (r2 := conflictRect b) (s1 := conflictRect a') (s2 := conflictRect b')
        ⟨ha.1, rfl, rfl, ha.2⟩ ⟨hb.1, rfl, rfl, hb.2⟩
      dsimp only
      rw [hi, ha.1, hb.1, ← Vec2.mirror_sub, Vec2.norm_mirror]

theorem firstYields_m (v w : Vehicle) : firstYields v.mirror w.mirror = firstYields v w := by
  unfold firstYields Vehicle.frontDistanceTo
  simp only [Vehicle.lane_m, Vehicle.pos_m, Vehicle.direction_m, ← Vec2.mirror_sub, Vec2.dot_mirror]
  rfl

theorem markYield_m (v : Vehicle) : markYield v.mirror = (markYield v).mirror := by
  unfold markYield
  rw [apply_ite Vehicle.mirror]
  rfl

include hPL in
theorem resolvePair_m {g : Graph} (hg : g.LanesIn L) {vs : List Vehicle} (hvs : ∀ v ∈ vs, VM P L v) (ij : ℕ × ℕ) :
    resolvePair g.mirror (vs.map Vehicle.mirror) ij = (resolvePair g vs ij).map (List.map Vehicle.mirror) := by
  unfold resolvePair
  simp only [List.getElem?_map]
  cases hv : vs[ij.1]? with
  | none => rfl
  | some v =>
    cases hw : vs[ij.2]? with
    | none => rfl
    | some w =>
      simp only [Option.map_some, isConflictPossible_m hPL hg (hvs v (List.mem_of_getElem? hv)) (hvs w (List.mem_of_getElem? hw)),
        firstYields_m, markYield_m]
      cases isConflictPossible g v w with
      | error e => rfl
      | ok c =>
        simp only [bind, Except.bind]
        cases c
        · rfl
        · cases firstYields v w <;> simp [Except.map, pure, Except.pure, List.map_set]

theorem allM_pointwise {vs ws : List Vehicle} (h : ∀ v ∈ vs, VM P L v) (hb : Pointwise SameButYield vs ws) : ∀ v ∈ ws, VM P L v := by
  intro w hw
  obtain ⟨i, hi⟩ := List.getElem?_of_mem hw
  have hlt : i < vs.length := by
    rw [← hb.1]; exact (List.getElem?_eq_some_iff.1 hi).1
  obtain ⟨w', hw', hsame⟩ := hb.2 i _ (List.getElem?_eq_getElem hlt)
  rw [hi] at hw'
  cases hw'
  exact (h _ (List.getElem_mem hlt)).body hsame.body

include hPL in
theorem enforceRoadRules_m {r : Road} (hr : RM P L r) : r.mirror.enforceRoadRules = r.enforceRoadRules.map Road.mirror := by
  unfold enforceRoadRules
  have h := mapM_equiv Vehicle.mirror release release release_m r.vehicles
  rw [vehicles_m, h]
  cases hm : List.mapM release r.vehicles with
  | error e => rfl
  | ok vs =>
    have hvs : ∀ v ∈ vs, VM P L v := allM_pointwise hr.vehicles ((mapM_pointwise hm).mono fun _ _ => release_frame)
    simp only [Except.map, bind, Except.bind, List.length_map, network_m]
    have h2 := foldlM_equiv_inv (fun vs : List Vehicle => ∀ v ∈ vs, VM P L v) (List.map Vehicle.mirror) _ _
      (fun s a hs => resolvePair_m hPL hr.lanes hs a) (fun s a s' hs h => allM_pointwise hs (resolvePair_frame h)) (pairs vs.length) vs hvs
    rw [h2]
    cases List.foldlM (resolvePair r.network) vs (pairs vs.length) <;> rfl

include hPL in
theorem maybeEnforce_m {r : Road} (hr : RM P L r) (period : Int) : r.mirror.maybeEnforce period = (r.maybeEnforce period).map Road.mirror := by
  unfold maybeEnforce
  rw [enforceRoadRules_m hPL hr, steps_m]
  by_cases h : (r.steps : Int) % period = 0
  · rw [if_pos h, if_pos h]
  · rw [if_neg h, if_neg h]; rfl

theorem maybeEnforce_mem {r r' : Road} (hr : RM P L r) {period : Int} (h : r.maybeEnforce period = .ok r') :
    (∀ v ∈ r'.vehicles, v.kind ≠ .bicycle) ∧ r'.network.LanesIn L := by
  unfold maybeEnforce at h
  by_cases hp : (r.steps : Int) % period = 0
  · rw [if_pos hp] at h
    refine ⟨fun v hv => (allM_pointwise hr.vehicles (enforce_frame h).1 v hv).2.2.1, ?_⟩
    rw [(enforce_frame h).2.1.network]; exact hr.lanes
  · rw [if_neg hp] at h
    cases h; exact ⟨fun v hv => (hr.vehicles v hv).2.2.1, hr.lanes⟩

include hPL in
theorem stepRegulated_m {r r' : Road} (hr : RM P L r) {dt : ℝ} (h : r.stepRegulated dt = .ok r') (hn : ∀ v ∈ r'.vehicles, v.pos ∈ P) :
    r.mirror.stepRegulated dt = .ok r'.mirror := by
  unfold stepRegulated at h ⊢
  dsimp only at h ⊢
  by_cases hp : pyInt (1 / dt / REGULATION_FREQUENCY) = 0
  · rw [if_pos hp] at h; cases h
  rw [if_neg hp] at h ⊢
  obtain ⟨s, hs, h⟩ := bind_ok h
  have hr' : RM P L { r with steps := r.steps + 1 } := ⟨hr.lanes, hr.vehicles, hr.objects⟩
  have e : maybeEnforce { r.mirror with steps := r.mirror.steps + 1 } (pyInt (1 / dt / REGULATION_FREQUENCY)) = .ok s.mirror :=
    (maybeEnforce_m hPL hr' (pyInt (1 / dt / REGULATION_FREQUENCY))).trans (by rw [hs]; rfl)
  rw [e]
  exact stepBase_m hPL (maybeEnforce_mem hr' hs).1 (maybeEnforce_mem hr' hs).2 h hn

include hPL in
theorem step_m {r r' : Road} (hr : RM P L r) {dt : ℝ} (h : r.step dt = .ok r') (hn : ∀ v ∈ r'.vehicles, v.pos ∈ P) :
    r.mirror.step dt = .ok r'.mirror := by
  unfold step at h ⊢
  have hreg : r.mirror.regulated = r.regulated := rfl
  rw [hreg]
  by_cases hc : r.regulated = true
  · rw [if_pos hc] at h ⊢
    exact stepRegulated_m hPL hr h hn
  · rw [if_neg hc] at h ⊢
    exact stepBase_m hPL (fun v hv => (hr.vehicles v hv).2.2.1) hr.lanes h hn

end
end Road

end HighwayEnv
