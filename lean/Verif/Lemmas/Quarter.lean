import Verif.Spec.Quarter
import Verif.Lemmas.Translate
import Verif.Lemmas.Lane
import Verif.Lemmas.Vehicle
import Verif.Lemmas.Road

/-! Every function of the simulation commutes with turning the whole world by 90°. -/

noncomputable section
open Classical
namespace HighwayEnv
open Spec

namespace Vec2

@[simp] theorem quarter_x (p : Vec2) : p.quarter.x = -p.y := rfl
@[simp] theorem quarter_y (p : Vec2) : p.quarter.y = p.x := rfl
theorem quarter_add (p q : Vec2) : (p + q).quarter = p.quarter + q.quarter := by ext <;> simp; ring
theorem quarter_sub (p q : Vec2) : (p - q).quarter = p.quarter - q.quarter := by ext <;> simp; ring
theorem quarter_smul (k : ℝ) (p : Vec2) : (k • p).quarter = k • p.quarter := by ext <;> simp
theorem quarter_neg (p : Vec2) : (-p).quarter = -p.quarter := by ext <;> simp
theorem dot_quarter (p q : Vec2) : p.quarter.dot q.quarter = p.dot q := by unfold dot; simp; ring
theorem norm_quarter (p : Vec2) : p.quarter.norm = p.norm := by unfold norm; congr 1; simp; ring
theorem dir_quarter (h : ℝ) : dir (h + Real.pi / 2) = (dir h).quarter := by
  unfold dir quarter; simp [Real.cos_add_pi_div_two, Real.sin_add_pi_div_two]
theorem rot_quarter (h : ℝ) (p : Vec2) : rot (h + Real.pi / 2) p = (rot h p).quarter := by
  unfold rot quarter
  simp only [Real.cos_add_pi_div_two, Real.sin_add_pi_div_two]
  ext <;> ring
theorem rot_of_quarter (h : ℝ) (p : Vec2) : rot h p.quarter = (rot h p).quarter := by
  unfold rot quarter; ext <;> simp <;> ring
theorem quarter_inj {p q : Vec2} : p.quarter = q.quarter ↔ p = q := by
  constructor
  · intro h
    have hx := congrArg Vec2.x h
    have hy := congrArg Vec2.y h
    ext
    · simpa using hy
    · simpa using hx
  · rintro rfl; rfl

end Vec2

theorem arctan2_quarter {v : Vec2} (hv : v ≠ 0) : ∃ k : ℤ, arctan2 v.quarter.y v.quarter.x = arctan2 v.y v.x + Real.pi / 2 + 2 * Real.pi * k := by
  have hn : 0 < v.norm := lt_of_le_of_ne (Vec2.norm_nonneg v) fun h => hv (Vec2.norm_eq_zero.1 h.symm)
  have e := Lane.norm_dir_arg v
  obtain ⟨k, hk⟩ := Lane.arctan2_polar (phi := arctan2 v.y v.x + Real.pi / 2) hn
  refine ⟨k, ?_⟩
  rw [← hk]
  have e2 : v.quarter = v.norm • Vec2.dir (arctan2 v.y v.x + Real.pi / 2) := by
    rw [Vec2.dir_quarter, ← Vec2.quarter_smul, e]
  have ey := congrArg Vec2.y e2
  have ex := congrArg Vec2.x e2
  rw [ex, ey]
  rfl

namespace Lane

theorem straightDir_q (a b : Vec2) : straightDir a.quarter b.quarter = (straightDir a b).quarter := by
  unfold straightDir
  rw [← Vec2.quarter_sub, Vec2.norm_quarter]
  ext <;> simp <;> ring

theorem straightLocal_q (a b p : Vec2) : straightLocal a.quarter b.quarter p.quarter = straightLocal a b p := by
  unfold straightLocal
  rw [straightDir_q, ← Vec2.quarter_sub]
  have e : (⟨-(straightDir a b).quarter.y, (straightDir a b).quarter.x⟩ : Vec2) = (straightDir a b).quarter.quarter := rfl
  dsimp only
  rw [e, Vec2.dot_quarter, Vec2.dot_quarter]
  rfl

theorem straightPosition_q (a b : Vec2) (s r : ℝ) : straightPosition a.quarter b.quarter s r = (straightPosition a b s r).quarter := by
  unfold straightPosition
  rw [straightDir_q]
  ext <;> simp; ring

theorem straightHeading_q {a b : Vec2} (h : a ≠ b) : ∃ k : ℤ, straightHeading a.quarter b.quarter = straightHeading a b + Real.pi / 2 + 2 * Real.pi * k := by
  have hv : b - a ≠ 0 := by
    intro e
    apply h
    have hx := congrArg Vec2.x e
    have hy := congrArg Vec2.y e
    ext
    · simp at hx; linarith
    · simp at hy; linarith
  obtain ⟨k, hk⟩ := arctan2_quarter hv
  refine ⟨k, ?_⟩
  unfold straightHeading
  rw [Vec2.quarter_sub] at hk
  exact hk

@[simp] theorem length_q (l : Lane) : l.quarter.length = l.length := by
  cases l with | mk shape => cases shape <;> simp [Lane.quarter, LaneShape.quarter, length, ← Vec2.quarter_sub, Vec2.norm_quarter]

theorem position_q (l : Lane) (s r : ℝ) : l.quarter.position s r = (l.position s r).quarter := by
  cases l with | mk shape =>
    cases shape with
    | straight a b => exact straightPosition_q a b s r
    | sine a b amp w ph => exact straightPosition_q a b s _
    | circular c rad p0 p1 cw =>
      simp only [Lane.quarter, LaneShape.quarter, position]
      rw [← add_assoc, Vec2.dir_quarter, Vec2.quarter_add, Vec2.quarter_smul]

theorem headingAt_q {l : Lane} {p : Vec2} (h : HasPlace l p) (s : ℝ) : ∃ k : ℤ, l.quarter.headingAt s = l.headingAt s + Real.pi / 2 + 2 * Real.pi * k := by
  cases l with | mk shape =>
    cases shape with
    | straight a b => exact straightHeading_q h
    | sine a b amp w ph =>
      obtain ⟨k, hk⟩ := straightHeading_q (a := a) (b := b) h
      refine ⟨k, ?_⟩
      simp only [Lane.quarter, LaneShape.quarter, headingAt, hk]
      ring
    | circular c rad p0 p1 cw =>
      refine ⟨0, ?_⟩
      simp only [Lane.quarter, LaneShape.quarter, headingAt]
      push_cast
      ring

theorem localCoordinates_q {l : Lane} {p : Vec2} (h : HasPlace l p) : l.quarter.localCoordinates p.quarter = l.localCoordinates p := by
  cases l with | mk shape =>
    cases shape with
    | straight a b => exact straightLocal_q a b p
    | sine a b amp w ph => simp only [Lane.quarter, LaneShape.quarter, localCoordinates, straightLocal_q]
    | circular c rad p0 p1 cw =>
      have hv : p - c ≠ 0 := by
        intro e
        apply h
        have hx := congrArg Vec2.x e
        have hy := congrArg Vec2.y e
        ext
        · simp at hx; linarith
        · simp at hy; linarith
      obtain ⟨k, hk⟩ := arctan2_quarter hv
      simp only [Lane.quarter, LaneShape.quarter, localCoordinates]
      rw [← Vec2.quarter_sub, Vec2.norm_quarter, hk]
      have e : arctan2 (p - c).y (p - c).x + Real.pi / 2 + 2 * Real.pi * k - (p0 + Real.pi / 2) = (arctan2 (p - c).y (p - c).x - p0) + 2 * Real.pi * k := by ring
      rw [e, wrapToPi_add_int]
      congr 2
      ring

theorem wrap_q {l : Lane} {p : Vec2} (h : HasPlace l p) (s x : ℝ) :
    wrapToPi (x + Real.pi / 2 - l.quarter.headingAt s) = wrapToPi (x - l.headingAt s) := by
  obtain ⟨k, hk⟩ := headingAt_q h s
  rw [hk, ← wrapToPi_add_int (x - l.headingAt s) (-k)]
  congr 1
  push_cast
  ring

theorem wrap_q' {l : Lane} {p : Vec2} (h : HasPlace l p) (s x y : ℝ) :
    wrapToPi (l.quarter.headingAt s + y - (x + Real.pi / 2)) = wrapToPi (l.headingAt s + y - x) := by
  obtain ⟨k, hk⟩ := headingAt_q h s
  rw [hk, ← wrapToPi_add_int (l.headingAt s + y - x) k]
  congr 1
  ring

@[simp] theorem width_q (l : Lane) : l.quarter.width = l.width := rfl
@[simp] theorem widthAt_q (l : Lane) (s : ℝ) : l.quarter.widthAt s = l.widthAt s := rfl
@[simp] theorem forbidden_q (l : Lane) : l.quarter.forbidden = l.forbidden := rfl
@[simp] theorem priority_q (l : Lane) : l.quarter.priority = l.priority := rfl

variable {l : Lane} {p : Vec2}

theorem onLane_q (h : HasPlace l p) (a b : Option ℝ) (m : ℝ) : l.quarter.onLane p.quarter a b m = l.onLane p a b m := by
  unfold onLane; rw [localCoordinates_q h]; simp

theorem isReachableFrom_q (h : HasPlace l p) : l.quarter.isReachableFrom p.quarter = l.isReachableFrom p := by
  unfold isReachableFrom; rw [localCoordinates_q h]; simp

theorem afterEnd_q (h : HasPlace l p) (a : Option ℝ) : l.quarter.afterEnd p.quarter a = l.afterEnd p a := by
  unfold afterEnd; rw [localCoordinates_q h]; simp

theorem distance_q (h : HasPlace l p) : l.quarter.distance p.quarter = l.distance p := by
  unfold distance; rw [localCoordinates_q h]; simp

theorem distanceWithHeading_q (h : HasPlace l p) (x w : ℝ) :
    l.quarter.distanceWithHeading p.quarter (some (x + Real.pi / 2)) w = l.distanceWithHeading p (some x) w := by
  unfold distanceWithHeading
  dsimp only
  rw [localCoordinates_q h, wrap_q h, length_q]

end Lane


/-! Networks.  `L` is a set of lanes and `P` a set of points such that every point has a place along every lane. -/

namespace Dict

theorem mem_of_get? {α β : Type*} [DecidableEq α] {d : Dict α β} {k : α} {b : β} (h : Dict.get? d k = some b) : (k, b) ∈ d := by
  induction d with
  | nil => cases h
  | cons ab d ih =>
    obtain ⟨a, c⟩ := ab
    unfold Dict.get? at h
    by_cases e : a = k
    · rw [if_pos e] at h; cases h; simp [e]
    · rw [if_neg e] at h; exact List.mem_cons_of_mem _ (ih h)

theorem mem_of_getItem {α β : Type*} [DecidableEq α] {d : Dict α β} {k : α} {b : β} (h : Dict.getItem d k = .ok b) : (k, b) ∈ d := by
  unfold Dict.getItem at h
  cases e : Dict.get? d k with
  | none => rw [e] at h; cases h
  | some c => rw [e] at h; cases h; exact mem_of_get? e

end Dict

namespace Graph

/-- All lanes of the network belong to `L`. -/
def LanesIn (L : Set Lane) (g : Graph) : Prop := ∀ nd ∈ g, ∀ ml ∈ nd.2, ∀ l ∈ ml.2, l ∈ L

variable {L : Set Lane} {P : Set Vec2} {g : Graph}

theorem lanesOf_in (h : LanesIn L g) {a b : String} {ls : List Lane} (e : g.lanesOf a b = .ok ls) : ∀ l ∈ ls, l ∈ L := by
  unfold lanesOf at e
  obtain ⟨d, h1, h2⟩ := bind_ok e
  exact h _ (Dict.mem_of_getItem h1) _ (Dict.mem_of_getItem h2)

theorem pyIndex_mem {α : Type*} {l : List α} {i : Int} {a : α} (h : pyIndex l i = .ok a) : a ∈ l := by
  unfold pyIndex at h
  dsimp only at h
  generalize (if i < 0 then i + (l.length : Int) else i) = j at h
  by_cases hj : j < 0
  · rw [if_pos hj] at h; cases h
  · rw [if_neg hj] at h
    cases e : l[j.toNat]? with
    | none => rw [e] at h; cases h
    | some b => rw [e] at h; cases h; exact List.mem_of_getElem? e

theorem getLaneStep_in (h : LanesIn L g) {i : RouteStep} {l : Lane} (e : g.getLaneStep i = .ok l) : l ∈ L := by
  unfold getLaneStep at e
  obtain ⟨ls, h1, h2⟩ := bind_ok e
  have := lanesOf_in h h1
  cases hi : i.id with
  | some k => rw [hi] at h2; exact this _ (pyIndex_mem h2)
  | none =>
    rw [hi] at h2
    dsimp only at h2
    by_cases hl : ls.length = 1
    · rw [if_pos hl] at h2; exact this _ (pyIndex_mem h2)
    · rw [if_neg hl] at h2; cases h2

theorem getLane_in (h : LanesIn L g) {i : LaneIndex} {l : Lane} (e : g.getLane i = .ok l) : l ∈ L := getLaneStep_in h e

theorem get?_q (g : Graph) (n : String) :
    Dict.get? g.quarter n = (Dict.get? g n).map fun d => d.map fun ml => (ml.1, ml.2.map Lane.quarter) := by
  unfold Graph.quarter
  exact Dict.get?_map _ g n

theorem lanesOf_q (g : Graph) (a b : String) : g.quarter.lanesOf a b = (g.lanesOf a b).map (List.map Lane.quarter) := by
  unfold lanesOf
  have h1 : Dict.getItem g.quarter a = (Dict.getItem g a).map fun d => d.map fun ml => (ml.1, ml.2.map Lane.quarter) :=
    Dict.getItem_map _ g a
  rw [h1]
  cases Dict.getItem g a with
  | error e => rfl
  | ok d => exact Dict.getItem_map _ d b

theorem getLaneStep_q (g : Graph) (i : RouteStep) : g.quarter.getLaneStep i = (g.getLaneStep i).map Lane.quarter := by
  unfold getLaneStep
  rw [lanesOf_q]
  cases g.lanesOf i.src i.dst with
  | error e => rfl
  | ok ls =>
    simp only [Except.map, bind, Except.bind]
    cases i.id with
    | some k => exact pyIndex_map _ _ _
    | none =>
      simp only [List.length_map]
      by_cases h : ls.length = 1
      · rw [if_pos h, if_pos h]; exact pyIndex_map _ _ _
      · rw [if_neg h, if_neg h]

theorem getLane_q (g : Graph) (i : LaneIndex) : g.quarter.getLane i = (g.getLane i).map Lane.quarter := getLaneStep_q g _

theorem indexedLanes_q (g : Graph) : g.quarter.indexedLanes = g.indexedLanes.map fun il => (il.1, il.2.quarter) := by
  unfold indexedLanes Graph.quarter
  simp only [List.flatMap_map, List.map_flatMap, List.zipIdx_map, List.map_map]
  rfl

theorem indexedLanes_in (h : LanesIn L g) : ∀ il ∈ g.indexedLanes, il.2 ∈ L := by
  intro il hil
  unfold indexedLanes at hil
  obtain ⟨nd, h1, h2⟩ := List.mem_flatMap.1 hil
  obtain ⟨ml, h3, h4⟩ := List.mem_flatMap.1 h2
  obtain ⟨lk, h5, rfl⟩ := List.mem_map.1 h4
  exact h _ h1 _ h3 _ (List.fst_mem_of_mem_zipIdx h5)

theorem firstMin_congr {α : Type*} {f f' : α → ℝ} {l : List α} (h : ∀ a ∈ l, f a = f' a) : firstMin f l = firstMin f' l := by
  induction l with
  | nil => rfl
  | cons a l ih =>
    have ih' := ih fun b hb => h b (List.mem_cons_of_mem _ hb)
    have mem : ∀ (l : List α) (b : α), firstMin f l = some b → b ∈ l := by
      intro l
      induction l with
      | nil => intro b hb; cases hb
      | cons c l ihl =>
        intro b hb
        simp only [firstMin] at hb
        cases e : firstMin f l with
        | none => rw [e] at hb; cases hb; simp
        | some d =>
          rw [e] at hb
          dsimp only at hb
          by_cases hc : f c ≤ f d
          · rw [if_pos hc] at hb; cases hb; simp
          · rw [if_neg hc] at hb; cases hb; exact List.mem_cons_of_mem _ (ihl _ e)
    simp only [firstMin, ← ih']
    cases e : firstMin f l with
    | none => rfl
    | some b => dsimp only; rw [h a (by simp), h b (List.mem_cons_of_mem _ (mem l b e))]

theorem getClosestLaneIndex_q (hg : LanesIn L g) {p : Vec2} (hp : ∀ l ∈ L, HasPlace l p) (x : ℝ) :
    g.quarter.getClosestLaneIndex p.quarter (some (x + Real.pi / 2)) = g.getClosestLaneIndex p (some x) := by
  unfold getClosestLaneIndex
  rw [indexedLanes_q, firstMin_map]
  have e : firstMin (fun a : LaneIndex × Lane => a.2.quarter.distanceWithHeading p.quarter (some (x + Real.pi / 2))) g.indexedLanes =
      firstMin (fun il => il.2.distanceWithHeading p (some x)) g.indexedLanes :=
    firstMin_congr fun il hil => Lane.distanceWithHeading_q (hp _ (indexedLanes_in hg il hil)) x 1
  dsimp only
  rw [e]
  cases firstMin (fun il : LaneIndex × Lane => il.2.distanceWithHeading p (some x)) g.indexedLanes <;> rfl

theorem nextLaneOn_q (hg : LanesIn L g) {p : Vec2} (hp : ∀ l ∈ L, HasPlace l p) (cur : LaneIndex) (n : String) :
    g.quarter.nextLaneOn cur n p.quarter = g.nextLaneOn cur n p := by
  unfold nextLaneOn
  rw [lanesOf_q, lanesOf_q]
  cases g.lanesOf cur.src cur.dst with
  | error e => rfl
  | ok here =>
    cases ht : g.lanesOf cur.dst n with
    | error e => rfl
    | ok there =>
      simp only [Except.map, bind, Except.bind, List.length_map]
      by_cases h : here.length = there.length
      · rw [if_pos h, if_pos h]
      · rw [if_neg h, if_neg h, List.zipIdx_map, firstMin_map]
        simp only [Prod.map_fst]
        have e : firstMin (fun a : Lane × ℕ => a.1.quarter.distance p.quarter) there.zipIdx = firstMin (fun lk => lk.1.distance p) there.zipIdx :=
          firstMin_congr fun lk hlk => Lane.distance_q (hp _ (lanesOf_in hg ht _ (List.fst_mem_of_mem_zipIdx hlk)))
        rw [e]
        cases firstMin (fun lk : Lane × ℕ => lk.1.distance p) there.zipIdx <;> rfl

theorem nextLane_q (hg : LanesIn L g) {p : Vec2} (hp : ∀ l ∈ L, HasPlace l p) (cur : LaneIndex) (route : Option (List RouteStep)) (rng : Rng) :
    g.quarter.nextLane cur route p.quarter rng = g.nextLane cur route p rng := by
  unfold nextLane
  simp only [nextLaneOn_q hg hp, get?_q]
  cases Dict.get? g cur.dst with
  | none => rfl
  | some d =>
    simp only [Option.map_some, List.length_map]
    have : Dict.keys (d.map fun ml : String × List Lane => (ml.1, ml.2.map Lane.quarter)) = Dict.keys d := Dict.keys_map _ d
    simp only [this]

theorem sideLanes_q (g : Graph) (i : LaneIndex) : g.quarter.sideLanes i = g.sideLanes i := by
  unfold sideLanes
  rw [lanesOf_q]
  cases g.lanesOf i.src i.dst with
  | error e => rfl
  | ok ls => simp [Except.map, bind, Except.bind]

/-- A position and a heading in the two worlds; headings are only the same up to whole turns. -/
def PoseQ (a b : Vec2 × ℝ) : Prop := b.1 = a.1.quarter ∧ ∃ k : ℤ, b.2 = a.2 + Real.pi / 2 + 2 * Real.pi * k

/-- Two results that are the same exception, or values in relation. -/
inductive PyRel {α β : Type*} (R : α → β → Prop) : Py α → Py β → Prop
  | error (e : PyErr) : PyRel R (.error e) (.error e)
  | ok {a : α} {b : β} (h : R a b) : PyRel R (.ok a) (.ok b)

theorem positionHeadingAlongRoute_q (hg : LanesIn L g) {p : Vec2} (hp : ∀ l ∈ L, HasPlace l p) (route : List RouteStep) (lon lat : ℝ) :
    PyRel PoseQ (g.positionHeadingAlongRoute route lon lat) (g.quarter.positionHeadingAlongRoute route lon lat) := by
  induction route generalizing lon with
  | nil => exact .error _
  | cons s rest ih =>
    cases rest with
    | nil =>
      unfold positionHeadingAlongRoute
      rw [getLaneStep_q]
      cases hl : g.getLaneStep s with
      | error e => exact .error _
      | ok l =>
        exact .ok ⟨Lane.position_q _ _ _, Lane.headingAt_q (hp _ (getLaneStep_in hg hl)) _⟩
    | cons s' rest =>
      unfold positionHeadingAlongRoute
      rw [getLaneStep_q]
      cases hl : g.getLaneStep s with
      | error e => exact .error _
      | ok l =>
        simp only [Except.map, bind, Except.bind, Lane.length_q]
        by_cases h : lon > l.length
        · rw [if_pos h, if_pos h]; exact ih _
        · rw [if_neg h, if_neg h]
          exact .ok ⟨Lane.position_q _ _ _, Lane.headingAt_q (hp _ (getLaneStep_in hg hl)) _⟩

theorem mapM_rel {α β γ : Type*} {R : β → γ → Prop} {f : α → Py β} {f' : α → Py γ} (h : ∀ a, PyRel R (f a) (f' a)) (l : List α) :
    PyRel (List.Forall₂ R) (l.mapM f) (l.mapM f') := by
  induction l with
  | nil => exact .ok .nil
  | cons a l ih =>
    simp only [List.mapM_cons]
    have ha := h a
    generalize f a = x at ha
    generalize f' a = y at ha
    cases ha with
    | error e => exact .error e
    | ok hr =>
      generalize l.mapM f = x at ih
      generalize l.mapM f' = y at ih
      cases ih with
      | error e => exact .error e
      | ok hrs => exact .ok (.cons hr hrs)

end Graph


/-! Vehicles -/

namespace Vehicle

@[simp] theorem uid_q (v : Vehicle) : v.quarter.uid = v.uid := rfl
@[simp] theorem kind_q (v : Vehicle) : v.quarter.kind = v.kind := rfl
@[simp] theorem speed_q (v : Vehicle) : v.quarter.speed = v.speed := rfl
@[simp] theorem laneIndex_q (v : Vehicle) : v.quarter.laneIndex = v.laneIndex := rfl
@[simp] theorem steering_q (v : Vehicle) : v.quarter.steering = v.steering := rfl
@[simp] theorem acceleration_q (v : Vehicle) : v.quarter.acceleration = v.acceleration := rfl
@[simp] theorem crashed_q (v : Vehicle) : v.quarter.crashed = v.crashed := rfl
@[simp] theorem collisionsEnabled_q (v : Vehicle) : v.quarter.collisionsEnabled = v.collisionsEnabled := rfl
@[simp] theorem targetLane_q (v : Vehicle) : v.quarter.targetLane = v.targetLane := rfl
@[simp] theorem targetSpeed_q (v : Vehicle) : v.quarter.targetSpeed = v.targetSpeed := rfl
@[simp] theorem route_q (v : Vehicle) : v.quarter.route = v.route := rfl
@[simp] theorem timer_q (v : Vehicle) : v.quarter.timer = v.timer := rfl
@[simp] theorem enableLaneChange_q (v : Vehicle) : v.quarter.enableLaneChange = v.enableLaneChange := rfl
@[simp] theorem maxBraking_q (v : Vehicle) : v.quarter.maxBraking = v.maxBraking := rfl
@[simp] theorem accParams_q (v : Vehicle) : v.quarter.accParams = v.accParams := rfl
@[simp] theorem steerParams_q (v : Vehicle) : v.quarter.steerParams = v.steerParams := rfl
@[simp] theorem isYielding_q (v : Vehicle) : v.quarter.isYielding = v.isYielding := rfl
@[simp] theorem yieldTimer_q (v : Vehicle) : v.quarter.yieldTimer = v.yieldTimer := rfl
@[simp] theorem hasColor_q (v : Vehicle) : v.quarter.hasColor = v.hasColor := rfl
@[simp] theorem lateralSpeed_q (v : Vehicle) : v.quarter.lateralSpeed = v.lateralSpeed := rfl
@[simp] theorem yawRate_q (v : Vehicle) : v.quarter.yawRate = v.yawRate := rfl
@[simp] theorem pos_q (v : Vehicle) : v.quarter.pos = v.pos.quarter := rfl
@[simp] theorem heading_q (v : Vehicle) : v.quarter.heading = v.heading + Real.pi / 2 := rfl
@[simp] theorem lane_q (v : Vehicle) : v.quarter.lane = v.lane.quarter := rfl
@[simp] theorem direction_q (v : Vehicle) : v.quarter.direction = v.direction.quarter := Vec2.dir_quarter v.heading
@[simp] theorem velocity_q (v : Vehicle) : v.quarter.velocity = v.velocity.quarter := by
  unfold velocity; rw [direction_q, speed_q, Vec2.quarter_smul]

theorem clipActionsBase_q (v : Vehicle) : v.quarter.clipActionsBase = v.clipActionsBase.quarter := by
  have key : ∀ w : Vehicle, (if w.quarter.speed > w.quarter.kind.maxSpeed then
        { w.quarter with acceleration := min w.quarter.acceleration (w.quarter.kind.maxSpeed - w.quarter.speed) }
      else if w.quarter.speed < -w.quarter.kind.maxSpeed then
        { w.quarter with acceleration := max w.quarter.acceleration (w.quarter.kind.maxSpeed - w.quarter.speed) }
      else w.quarter) =
      Vehicle.quarter (if w.speed > w.kind.maxSpeed then { w with acceleration := min w.acceleration (w.kind.maxSpeed - w.speed) }
      else if w.speed < -w.kind.maxSpeed then { w with acceleration := max w.acceleration (w.kind.maxSpeed - w.speed) }
      else w) := by
    intro w
    rw [apply_ite Vehicle.quarter, apply_ite Vehicle.quarter]
    rfl
  have h : (if v.quarter.crashed = true then { v.quarter with steering := 0, acceleration := -1 * v.quarter.speed }
        else v.quarter) =
      Vehicle.quarter (if v.crashed = true then { v with steering := 0, acceleration := -1 * v.speed } else v) := by
    rw [apply_ite Vehicle.quarter]
    rfl
  exact (congrArg (fun w : Vehicle => if w.speed > w.kind.maxSpeed then { w with acceleration := min w.acceleration (w.kind.maxSpeed - w.speed) }
      else if w.speed < -w.kind.maxSpeed then { w with acceleration := max w.acceleration (w.kind.maxSpeed - w.speed) }
      else w) h).trans (key _)

theorem clipActions_q (v : Vehicle) : v.quarter.clipActions = v.clipActions.quarter := by
  have key : ∀ w : Vehicle, (if w.quarter.kind = .bicycle then
        { w.quarter with
          steering := npClip w.quarter.steering (-Real.pi / 2) (Real.pi / 2),
          yawRate := npClip w.quarter.yawRate (-(2 * Real.pi)) (2 * Real.pi) } else w.quarter) =
      Vehicle.quarter (if w.kind = .bicycle then
        { w with steering := npClip w.steering (-Real.pi / 2) (Real.pi / 2), yawRate := npClip w.yawRate (-(2 * Real.pi)) (2 * Real.pi) }
        else w) := by
    intro w
    rw [apply_ite Vehicle.quarter]
    rfl
  exact (congrArg (fun w : Vehicle => if w.kind = .bicycle then
        { w with steering := npClip w.steering (-Real.pi / 2) (Real.pi / 2), yawRate := npClip w.yawRate (-(2 * Real.pi)) (2 * Real.pi) }
        else w) (clipActionsBase_q v)).trans (key _)

theorem integrate_q (v : Vehicle) (dt : ℝ) : v.quarter.integrate dt = (v.integrate dt).quarter := by
  have e1 : v.pos.quarter + dt • (v.speed • Vec2.dir (v.heading + Real.pi / 2 + slip v.steering)) =
      (v.pos + dt • (v.speed • Vec2.dir (v.heading + slip v.steering))).quarter := by
    rw [show v.heading + Real.pi / 2 + slip v.steering = v.heading + slip v.steering + Real.pi / 2 by ring, Vec2.dir_quarter, Vec2.quarter_add,
      Vec2.quarter_smul, Vec2.quarter_smul]
  have e2 : v.heading + Real.pi / 2 + v.speed * Real.sin (slip v.steering) / (LENGTH / 2) * dt =
      v.heading + v.speed * Real.sin (slip v.steering) / (LENGTH / 2) * dt + Real.pi / 2 := by ring
  unfold integrate Vehicle.quarter
  dsimp only
  rw [e1, e2]

theorem integrateBicycle_q (v : Vehicle) (dt : ℝ) : v.quarter.integrateBicycle dt = (v.integrateBicycle dt).quarter := by
  have e1 : v.pos.quarter + dt • Vec2.rot (v.heading + Real.pi / 2) ⟨v.speed, v.lateralSpeed⟩ =
      (v.pos + dt • Vec2.rot v.heading ⟨v.speed, v.lateralSpeed⟩).quarter := by
    rw [Vec2.rot_quarter, Vec2.quarter_add, Vec2.quarter_smul]
  have e2 : v.heading + Real.pi / 2 + v.yawRate * dt = v.heading + v.yawRate * dt + Real.pi / 2 := by ring
  have e3 : v.quarter.bicycleLateral = v.bicycleLateral := rfl
  unfold integrateBicycle
  rw [e3]
  unfold Vehicle.quarter
  dsimp only
  rw [e1, e2]

theorem move_q (v : Vehicle) (dt : ℝ) : v.quarter.move dt = (v.move dt).quarter := by
  have h : (if v.quarter.kind.isIDM = true then { v.quarter with timer := v.quarter.timer + dt } else v.quarter) =
      Vehicle.quarter (if v.kind.isIDM = true then { v with timer := v.timer + dt } else v) := by
    rw [apply_ite Vehicle.quarter]
    rfl
  have key : ∀ w : Vehicle, (if w.quarter.kind = .bicycle then w.quarter.integrateBicycle dt else w.quarter.integrate dt) =
      Vehicle.quarter (if w.kind = .bicycle then w.integrateBicycle dt else w.integrate dt) := by
    intro w
    rw [apply_ite Vehicle.quarter, integrateBicycle_q, integrate_q]
    rfl
  have h2 := (congrArg Vehicle.clipActions h).trans (clipActions_q _)
  exact (congrArg (fun w : Vehicle => if w.kind = .bicycle then w.integrateBicycle dt else w.integrate dt) h2).trans (key _)

theorem onStateUpdate_q {L : Set Lane} {g : Graph} (hg : g.LanesIn L) (rec : Bool) {v : Vehicle} (hp : ∀ l ∈ L, HasPlace l v.pos) :
    v.quarter.onStateUpdate g.quarter rec = (v.onStateUpdate g rec).map Vehicle.quarter := by
  unfold onStateUpdate
  simp only [pos_q, heading_q, Graph.getClosestLaneIndex_q hg hp]
  cases g.getClosestLaneIndex v.pos (some v.heading) with
  | error e => rfl
  | ok i =>
    simp only [bind, Except.bind, Graph.getLane_q]
    cases g.getLane i with
    | error e => rfl
    | ok l =>
      simp only [Except.map, pure, Except.pure]
      unfold Vehicle.quarter
      congr 2
      cases rec
      · rfl
      · simp [Snapshot.quarter, List.map_take]

theorem step_q {L : Set Lane} {g : Graph} (hg : g.LanesIn L) (rec : Bool) (dt : ℝ) {v : Vehicle} (hp : ∀ l ∈ L, HasPlace l (v.move dt).pos) :
    v.quarter.step g.quarter rec dt = (v.step g rec dt).map Vehicle.quarter := by
  unfold step
  rw [move_q, onStateUpdate_q hg rec hp]

theorem laneDistanceTo_q {v : Vehicle} {p : Vec2} (h1 : HasPlace v.lane p) (h2 : HasPlace v.lane v.pos) : v.quarter.laneDistanceTo p.quarter = v.laneDistanceTo p := by
  unfold laneDistanceTo
  rw [lane_q, pos_q, Lane.localCoordinates_q h1, Lane.localCoordinates_q h2]

/-! Collisions -/

theorem inRect_neg (u : Vec2) (l w : ℝ) : pointInRectangle (-u) ⟨-l / 2, -w / 2⟩ ⟨l / 2, w / 2⟩ = pointInRectangle u ⟨-l / 2, -w / 2⟩ ⟨l / 2, w / 2⟩ := by
  unfold pointInRectangle
  congr 1
  simp only [Vec2.neg_x, Vec2.neg_y, eq_iff_iff]
  constructor <;> rintro ⟨h1, h2, h3, h4⟩ <;> refine ⟨?_, ?_, ?_, ?_⟩ <;> linarith

theorem rot_turns (a : ℝ) (k : ℤ) (p : Vec2) : Vec2.rot (a + 2 * Real.pi * k) p = Vec2.rot a p := by
  unfold Vec2.rot
  rw [show a + 2 * Real.pi * k = a + k * (2 * Real.pi) by ring, Real.cos_add_int_mul_two_pi, Real.sin_add_int_mul_two_pi]

/-- The rectangle `r` turned by 90°, its angle known up to whole turns. -/
def RectQ (r s : Rect) : Prop := s.center = r.center.quarter ∧ s.length = r.length ∧ s.width = r.width ∧ ∃ k : ℤ, s.angle = r.angle + Real.pi / 2 + 2 * Real.pi * k

theorem hasCorner_q {r1 r2 s1 s2 : Rect} (h1 : RectQ r1 s1) (h2 : RectQ r2 s2) : hasCornerInside s1 s2 = hasCornerInside r1 r2 := by
  obtain ⟨a1, a2, a3, k1, a4⟩ := h1
  obtain ⟨b1, b2, b3, k2, b4⟩ := h2
  unfold hasCornerInside pointInRotatedRectangle
  rw [a1, a2, a3, a4, b1, b2, b3, b4]
  congr 1
  funext p
  dsimp only
  rw [rot_turns, rot_turns, Vec2.rot_quarter, Vec2.rot_quarter, ← Vec2.quarter_add, ← Vec2.quarter_sub, Vec2.rot_of_quarter]
  have e : ∀ u : Vec2, u.quarter.quarter = -u := fun u => by ext <;> simp
  rw [e, inRect_neg]

theorem intersect_q {r1 r2 s1 s2 : Rect} (h1 : RectQ r1 s1) (h2 : RectQ r2 s2) : rotatedRectanglesIntersect s1 s2 = rotatedRectanglesIntersect r1 r2 := by
  unfold rotatedRectanglesIntersect
  rw [hasCorner_q h1 h2, hasCorner_q h2 h1]

theorem rect_q (v : Vehicle) : RectQ v.rect v.quarter.rect := ⟨rfl, rfl, rfl, 0, by simp [rect]⟩

theorem isColliding_q (v : Vehicle) {o o' : Rect} (h : RectQ o o') : v.quarter.isColliding o' = v.isColliding o := by
  unfold isColliding
  rw [pos_q, h.1, ← Vec2.quarter_sub, Vec2.norm_quarter, intersect_q (rect_q v) h]

theorem checkCollisionV_q (v w : Vehicle) :
    v.quarter.checkCollisionV w.quarter = ((v.checkCollisionV w).1.quarter, (v.checkCollisionV w).2.quarter) := by
  unfold checkCollisionV
  have h : v.quarter.isColliding w.quarter.rect = v.isColliding w.rect := isColliding_q v (rect_q w)
  simp only [crashed_q, collisionsEnabled_q, h, speed_q]
  split_ifs <;> rfl

theorem checkCollisionO_q (v : Vehicle) (o : RoadObject) :
    v.quarter.checkCollisionO o.quarter = ((v.checkCollisionO o).1.quarter, (v.checkCollisionO o).2.quarter) := by
  unfold checkCollisionO
  have hr : RectQ o.rect o.quarter.rect := ⟨rfl, rfl, rfl, 0, by simp [RoadObject.rect, RoadObject.quarter]⟩
  have h : v.quarter.isColliding o.quarter.rect = v.isColliding o.rect := isColliding_q v hr
  have hk : o.quarter.kind = o.kind := rfl
  simp only [crashed_q, collisionsEnabled_q, h, speed_q, hk]
  cases o.kind <;> simp only <;> split_ifs <;> rfl

/-! Controllers -/

section
variable {L : Set Lane} {g : Graph} (hg : g.LanesIn L) {v : Vehicle} (hp : ∀ l ∈ L, HasPlace l v.pos)
include hg hp

theorem followRoad_q (rng : Rng) : v.quarter.followRoad g.quarter rng = (v.followRoad g rng).map fun p => (p.1.quarter, p.2) := by
  unfold followRoad
  simp only [targetLane_q, pos_q, route_q, Graph.getLane_q, Graph.nextLane_q hg hp]
  cases hl : g.getLane v.targetLane with
  | error e => rfl
  | ok l =>
    simp only [Except.map, bind, Except.bind, Lane.afterEnd_q (hp _ (Graph.getLane_in hg hl))]
    split_ifs
    · cases g.nextLane v.targetLane v.route v.pos rng <;> rfl
    · rfl

omit hg hp in
theorem steeringToLane_q {l : Lane} (h : HasPlace l v.pos) : v.quarter.steeringToLane l.quarter = v.steeringToLane l := by
  unfold steeringToLane
  simp only [pos_q, Lane.localCoordinates_q h, speed_q, heading_q, Lane.wrap_q' h]

omit hg hp in
theorem steeringFeatures_q {l : Lane} (h : HasPlace l v.pos) : v.quarter.steeringFeatures l.quarter = v.steeringFeatures l := by
  have e : ∀ s x, wrapToPi (l.quarter.headingAt s - (x + Real.pi / 2)) = wrapToPi (l.headingAt s - x) := by
    intro s x
    have := Lane.wrap_q' h s x 0
    simpa using this
  unfold steeringFeatures
  simp only [pos_q, Lane.localCoordinates_q h, speed_q, heading_q, e]

theorem steeringControl_q (i : LaneIndex) : v.quarter.steeringControl g.quarter i = v.steeringControl g i := by
  unfold steeringControl
  rw [Graph.getLane_q]
  cases hl : g.getLane i with
  | error e => rfl
  | ok l =>
    have := hp _ (Graph.getLane_in hg hl)
    simp only [Except.map, bind, Except.bind, kind_q, steerParams_q, steeringFeatures_q this, steeringToLane_q this]

theorem changeLane_q (d : Int) : v.quarter.changeLane g.quarter d = (v.changeLane g d).map Vehicle.quarter := by
  unfold changeLane
  simp only [targetLane_q, Graph.lanesOf_q, Graph.getLane_q]
  cases g.lanesOf v.targetLane.src v.targetLane.dst with
  | error e => rfl
  | ok ls =>
    simp only [Except.map, bind, Except.bind, List.length_map]
    generalize ({ v.targetLane with id := npClipInt (v.targetLane.id + d) 0 ((ls.length : Int) - 1) } : LaneIndex) = i
    cases hl : g.getLane i with
    | error e => rfl
    | ok l =>
      simp only [pos_q, Lane.isReachableFrom_q (hp _ (Graph.getLane_in hg hl))]
      split_ifs <;> rfl

theorem applyMeta_q (a : VAction) : v.quarter.applyMeta g.quarter a = (v.applyMeta g a).map Vehicle.quarter := by
  unfold applyMeta
  cases a <;> first | exact changeLane_q hg hp _ | rfl

theorem controlledAct_q (rng : Rng) (a : VAction) :
    v.quarter.controlledAct g.quarter rng a = (v.controlledAct g rng a).map fun p => (p.1.quarter, p.2) := by
  unfold controlledAct
  rw [followRoad_q hg hp]
  cases h1 : v.followRoad g rng with
  | error e => rfl
  | ok p =>
    have b1 := followRoad_body (v' := p.1) (rng' := p.2) h1
    have hp1 : ∀ l ∈ L, HasPlace l p.1.pos := by rw [b1.pos]; exact hp
    simp only [Except.map, bind, Except.bind, applyMeta_q hg hp1]
    cases h2 : p.1.applyMeta g a with
    | error e => rfl
    | ok w =>
      have hp2 : ∀ l ∈ L, HasPlace l w.pos := by rw [(applyMeta_body h2).pos]; exact hp1
      simp only [targetLane_q, steeringControl_q hg hp2]
      cases w.steeringControl g w.targetLane <;> rfl

theorem mdpAct_q (G : Globals) (rng : Rng) (a : VAction) :
    v.quarter.mdpAct G g.quarter rng a = (v.mdpAct G g rng a).map fun p => (p.1.quarter, p.2) := by
  unfold mdpAct
  cases a <;> first | exact controlledAct_q hg hp rng _ |
    exact controlledAct_q (v := v.setSpeedIndex G _) hg hp rng .none

theorem predictConstantSpeed_q (h2 : HasPlace v.lane v.pos) (times : List ℝ) :
    Graph.PyRel (List.Forall₂ Graph.PoseQ) (v.predictConstantSpeed g times) (v.quarter.predictConstantSpeed g.quarter times) := by
  unfold predictConstantSpeed
  simp only [kind_q, lane_q, pos_q, Lane.localCoordinates_q h2, route_q, laneIndex_q, speed_q]
  by_cases h : v.kind.isControlled = true
  · rw [if_pos h, if_pos h]
    exact Graph.mapM_rel (fun a => Graph.positionHeadingAlongRoute_q hg hp _ _ _) times
  · rw [if_neg h, if_neg h]; exact .error _

end

end Vehicle


/-- Something on the road turned by 90°. -/
def Entity.quarter : Entity → Entity
  | .veh v => .veh v.quarter
  | .obj o => .obj o.quarter

namespace Entity
@[simp] theorem pos_q (e : Entity) : e.quarter.pos = e.pos.quarter := by cases e <;> rfl
@[simp] theorem speed_q (e : Entity) : e.quarter.speed = e.speed := by cases e <;> rfl
@[simp] theorem uid_q (e : Entity) : e.quarter.uid = e.uid := by cases e <;> rfl
@[simp] theorem isLandmark_q (e : Entity) : e.quarter.isLandmark = e.isLandmark := by cases e <;> rfl
@[simp] theorem velocity_q (e : Entity) : e.quarter.velocity = e.velocity.quarter := by
  cases e with
  | veh v => exact Vehicle.velocity_q v
  | obj o =>
    show o.speed • Vec2.dir (o.heading + Real.pi / 2) = (o.speed • Vec2.dir o.heading).quarter
    rw [Vec2.dir_quarter, Vec2.quarter_smul]
end Entity

/-- A vehicle at a point of `P`, recorded on a lane of `L`. -/
def VIn (P : Set Vec2) (L : Set Lane) (v : Vehicle) : Prop := v.pos ∈ P ∧ v.lane ∈ L

/-- The same for anything on the road. -/
def EIn (P : Set Vec2) (L : Set Lane) : Entity → Prop
  | .veh v => VIn P L v
  | .obj o => o.pos ∈ P

theorem EIn.pos {P : Set Vec2} {L : Set Lane} {e : Entity} (h : EIn P L e) : e.pos ∈ P := by
  cases e with
  | veh v => exact h.1
  | obj o => exact h

/-- A road whose lanes are in `L` and on which everything is at points of `P`. -/
structure RIn (P : Set Vec2) (L : Set Lane) (r : Road) : Prop where
  lanes : r.network.LanesIn L
  vehicles : ∀ v ∈ r.vehicles, VIn P L v
  objects : ∀ o ∈ r.objects, o.pos ∈ P

theorem RIn.entities {P : Set Vec2} {L : Set Lane} {r : Road} (h : RIn P L r) : ∀ e ∈ r.entities, EIn P L e := by
  intro e he
  unfold Road.entities at he
  rcases List.mem_append.1 he with he | he
  · obtain ⟨v, hv, rfl⟩ := List.mem_map.1 he
    exact h.vehicles v hv
  · obtain ⟨o, ho, rfl⟩ := List.mem_map.1 he
    exact h.objects o ho

namespace Road

@[simp] theorem vehicles_q (r : Road) : r.quarter.vehicles = r.vehicles.map Vehicle.quarter := rfl
@[simp] theorem network_q (r : Road) : r.quarter.network = r.network.quarter := rfl
@[simp] theorem objects_q (r : Road) : r.quarter.objects = r.objects.map RoadObject.quarter := rfl
@[simp] theorem rng_q (r : Road) : r.quarter.rng = r.rng := rfl
@[simp] theorem steps_q (r : Road) : r.quarter.steps = r.steps := rfl

theorem entities_q (r : Road) : r.quarter.entities = r.entities.map Entity.quarter := by
  unfold entities Road.quarter
  simp only [List.map_append, List.map_map]
  rfl

/-- The candidates of a neighbour search, turned. -/
def NbState.quarter (st : NbState) : NbState :=
  ⟨st.front.map fun p => (p.1, p.2.quarter), st.rear.map fun p => (p.1, p.2.quarter)⟩

theorem nbStep_q {l : Lane} (s : ℝ) (self : ℕ) (st : NbState) {e : Entity} (h : HasPlace l e.pos) :
    nbStep l.quarter s self (NbState.quarter st) e.quarter = NbState.quarter (nbStep l s self st e) := by
  unfold nbStep
  simp only [Entity.uid_q, Entity.isLandmark_q, Entity.pos_q, Lane.localCoordinates_q h, Lane.onLane_q h]
  by_cases h1 : e.uid ≠ self ∧ e.isLandmark = false
  · rw [if_pos h1, if_pos h1]
    by_cases h2 : l.onLane e.pos (some (l.localCoordinates e.pos).1) (some (l.localCoordinates e.pos).2) 1 = false
    · rw [if_pos h2, if_pos h2]
    · rw [if_neg h2, if_neg h2]
      have hf : (∀ f ∈ (NbState.quarter st).front, (l.localCoordinates e.pos).1 ≤ f.1) ↔ ∀ f ∈ st.front, (l.localCoordinates e.pos).1 ≤ f.1 := by
        unfold NbState.quarter; cases st.front <;> simp
      have hr : ∀ q : NbState, (∀ f ∈ (NbState.quarter q).rear, f.1 < (l.localCoordinates e.pos).1) ↔ ∀ f ∈ q.rear, f.1 < (l.localCoordinates e.pos).1 := by
        intro q; unfold NbState.quarter; cases q.rear <;> simp
      have h3 : (if s ≤ (l.localCoordinates e.pos).1 ∧ (∀ f ∈ (NbState.quarter st).front, (l.localCoordinates e.pos).1 ≤ f.1)
            then { (NbState.quarter st) with front := some ((l.localCoordinates e.pos).1, e.quarter) } else NbState.quarter st) =
          NbState.quarter (if s ≤ (l.localCoordinates e.pos).1 ∧ (∀ f ∈ st.front, (l.localCoordinates e.pos).1 ≤ f.1)
            then { st with front := some ((l.localCoordinates e.pos).1, e) } else st) := by
        by_cases hc : s ≤ (l.localCoordinates e.pos).1 ∧ (∀ f ∈ st.front, (l.localCoordinates e.pos).1 ≤ f.1)
        · rw [if_pos hc, if_pos (by rwa [hf])]; rfl
        · rw [if_neg hc, if_neg (by rwa [hf])]
      rw [h3]
      generalize (if s ≤ (l.localCoordinates e.pos).1 ∧ (∀ f ∈ st.front, (l.localCoordinates e.pos).1 ≤ f.1)
            then { st with front := some ((l.localCoordinates e.pos).1, e) } else st) = q
      by_cases hc : (l.localCoordinates e.pos).1 < s ∧ (∀ f ∈ q.rear, f.1 < (l.localCoordinates e.pos).1)
      · rw [if_pos hc, if_pos (by rwa [hr])]; rfl
      · rw [if_neg hc, if_neg (by rwa [hr])]
  · rw [if_neg h1, if_neg h1]

theorem nbFold_q {l : Lane} (s : ℝ) (self : ℕ) (es : List Entity) (h : ∀ e ∈ es, HasPlace l e.pos) (st : NbState) :
    (es.map Entity.quarter).foldl (nbStep l.quarter s self) (NbState.quarter st) = NbState.quarter (es.foldl (nbStep l s self) st) := by
  induction es generalizing st with
  | nil => rfl
  | cons e es ih =>
    simp only [List.map_cons, List.foldl_cons, nbStep_q s self st (h e (by simp))]
    exact ih (fun e' he => h e' (List.mem_cons_of_mem _ he)) _

/-- The candidates of a neighbour search are on the road. -/
def NbIn (P : Set Vec2) (L : Set Lane) (st : NbState) : Prop := (∀ f ∈ st.front, EIn P L f.2) ∧ ∀ f ∈ st.rear, EIn P L f.2

theorem nbStep_in {P : Set Vec2} {L : Set Lane} (l : Lane) (s : ℝ) (self : ℕ) {st : NbState} (hs : NbIn P L st) {e : Entity} (h : EIn P L e) :
    NbIn P L (nbStep l s self st e) := by
  unfold nbStep
  dsimp only
  by_cases h1 : e.uid ≠ self ∧ e.isLandmark = false
  · rw [if_pos h1]
    by_cases h2 : l.onLane e.pos (some (l.localCoordinates e.pos).1) (some (l.localCoordinates e.pos).2) 1 = false
    · rw [if_pos h2]; exact hs
    · rw [if_neg h2]
      have h3 : NbIn P L (if s ≤ (l.localCoordinates e.pos).1 ∧ (∀ f ∈ st.front, (l.localCoordinates e.pos).1 ≤ f.1)
            then { st with front := some ((l.localCoordinates e.pos).1, e) } else st) := by
        by_cases hc : s ≤ (l.localCoordinates e.pos).1 ∧ (∀ f ∈ st.front, (l.localCoordinates e.pos).1 ≤ f.1)
        · rw [if_pos hc]; exact ⟨fun f hf => by cases hf; exact h, hs.2⟩
        · rw [if_neg hc]; exact hs
      generalize (if s ≤ (l.localCoordinates e.pos).1 ∧ (∀ f ∈ st.front, (l.localCoordinates e.pos).1 ≤ f.1)
            then { st with front := some ((l.localCoordinates e.pos).1, e) } else st) = q at h3
      by_cases hc : (l.localCoordinates e.pos).1 < s ∧ (∀ f ∈ q.rear, f.1 < (l.localCoordinates e.pos).1)
      · rw [if_pos hc]; exact ⟨h3.1, fun f hf => by cases hf; exact h⟩
      · rw [if_neg hc]; exact h3
  · rw [if_neg h1]; exact hs

theorem nbFold_in {P : Set Vec2} {L : Set Lane} (l : Lane) (s : ℝ) (self : ℕ) (es : List Entity) (h : ∀ e ∈ es, EIn P L e) {st : NbState} (hs : NbIn P L st) :
    NbIn P L (es.foldl (nbStep l s self) st) := by
  induction es generalizing st with
  | nil => exact hs
  | cons e es ih =>
    simp only [List.foldl_cons]
    exact ih (fun e' he => h e' (List.mem_cons_of_mem _ he)) (nbStep_in l s self hs (h e (by simp)))

section
variable {P : Set Vec2} {L : Set Lane} (hPL : ∀ l ∈ L, ∀ p ∈ P, HasPlace l p) {r : Road} (hr : RIn P L r)

include hr in
theorem neighbour_in {v : Vehicle} {i : Option LaneIndex} {p : Option Entity × Option Entity} (h : r.neighbourVehicles v i = .ok p) :
    (∀ f ∈ p.1, EIn P L f) ∧ ∀ f ∈ p.2, EIn P L f := by
  unfold neighbourVehicles at h
  obtain ⟨l, -, h⟩ := bind_ok h
  have key := nbFold_in l (l.localCoordinates v.pos).1 v.uid r.entities hr.entities (st := {}) ⟨fun f hf => (by cases hf), fun f hf => (by cases hf)⟩
  cases h
  refine ⟨fun f hf => ?_, fun f hf => ?_⟩
  · obtain ⟨q, hq, rfl⟩ := Option.mem_map.1 hf
    exact key.1 q hq
  · obtain ⟨q, hq, rfl⟩ := Option.mem_map.1 hf
    exact key.2 q hq

include hPL hr in
theorem neighbourVehicles_q {v : Vehicle} (hv : VIn P L v) (i : Option LaneIndex) :
    r.quarter.neighbourVehicles v.quarter i =
      (r.neighbourVehicles v i).map fun p => (p.1.map Entity.quarter, p.2.map Entity.quarter) := by
  unfold neighbourVehicles
  have hn : r.quarter.network = r.network.quarter := rfl
  simp only [hn, Vehicle.laneIndex_q, Graph.getLane_q, entities_q]
  cases hl : r.network.getLane (i.getD v.laneIndex) with
  | error e => rfl
  | ok l =>
    have hlL := Graph.getLane_in hr.lanes hl
    simp only [Except.map, bind, Except.bind, pure, Except.pure, Vehicle.pos_q, Lane.localCoordinates_q (hPL l hlL _ hv.1), Vehicle.uid_q]
    have h := nbFold_q (l.localCoordinates v.pos).1 v.uid r.entities (fun e he => hPL l hlL _ (hr.entities e he).pos) {}
    have h0 : NbState.quarter ({} : NbState) = {} := rfl
    rw [h0] at h
    rw [h]
    unfold NbState.quarter
    simp only [Option.map_map]
    rfl

end
end Road

namespace Vehicle
section
variable {P : Set Vec2} {L : Set Lane} (hPL : ∀ l ∈ L, ∀ p ∈ P, HasPlace l p)

theorem desiredGap_q (G : Globals) (k : VKind) (e : Vehicle) (f : Entity) :
    desiredGap G k e.quarter f.quarter = desiredGap G k e f := by
  unfold desiredGap
  simp only [velocity_q, Entity.velocity_q, direction_q, ← Vec2.quarter_sub, Vec2.dot_quarter, speed_q]

include hPL

theorem idmAcceleration_q (G : Globals) (k : VKind) {e : Vehicle} (he : VIn P L e) {f : Option Entity} (hf : ∀ x ∈ f, EIn P L x) :
    idmAcceleration G k e.quarter (f.map Entity.quarter) = idmAcceleration G k e f := by
  unfold idmAcceleration
  cases f with
  | none => rfl
  | some f =>
    simp only [Option.map_some, desiredGap_q, Entity.pos_q, laneDistanceTo_q (hPL _ he.2 _ (hf f rfl).pos) (hPL _ he.2 _ he.1)]
    rfl

theorem accelerationFeatures_q (G : Globals) (k : VKind) {e : Vehicle} (he : VIn P L e) {f : Option Entity} (hf : ∀ x ∈ f, EIn P L x) :
    accelerationFeatures G k e.quarter (f.map Entity.quarter) = accelerationFeatures G k e f := by
  unfold accelerationFeatures
  cases f with
  | none => rfl
  | some f =>
    simp only [Option.map_some, Entity.pos_q, laneDistanceTo_q (hPL _ he.2 _ (hf f rfl).pos) (hPL _ he.2 _ he.1), Entity.speed_q, targetSpeed_q, speed_q]

theorem accelerationOf_q (G : Globals) (v : Vehicle) {e f : Option Entity} (he : ∀ x ∈ e, EIn P L x) (hf : ∀ x ∈ f, EIn P L x) :
    accelerationOf G v.quarter (e.map Entity.quarter) (f.map Entity.quarter) = accelerationOf G v e f := by
  unfold accelerationOf
  cases e with
  | none => rfl
  | some e =>
    cases e with
    | obj o => rfl
    | veh e =>
      have he' : VIn P L e := he _ rfl
      simp only [Option.map_some, Entity.quarter, accelerationFeatures_q hPL G _ he' hf, idmAcceleration_q hPL G _ he' hf, kind_q, accParams_q]

theorem mobil_q (G : Globals) {r : Road} (hr : RIn P L r) {v : Vehicle} (hv : VIn P L v) (i : LaneIndex) : v.quarter.mobil G r.quarter i = v.mobil G r i := by
  have hs : ∀ x ∈ (some (Entity.veh v) : Option Entity), EIn P L x := fun x hx => by cases hx; exact hv
  unfold mobil
  rw [Road.neighbourVehicles_q hPL hr hv, Road.neighbourVehicles_q hPL hr hv]
  cases hn : r.neighbourVehicles v (some i) with
  | error e => rfl
  | ok p =>
    obtain ⟨p1, p2⟩ := Road.neighbour_in hr hn
    have hf : ∀ f : Option Entity, (∀ x ∈ f, EIn P L x) → accelerationOf G v.quarter (some (.veh v.quarter)) (f.map Entity.quarter) =
        accelerationOf G v (some (.veh v)) f := fun f h => accelerationOf_q hPL G v hs h
    have hf' : ∀ f : Option Entity, (∀ x ∈ f, EIn P L x) → accelerationOf G v.quarter (f.map Entity.quarter) (some (.veh v.quarter)) =
        accelerationOf G v f (some (.veh v)) := fun f h => accelerationOf_q hPL G v h hs
    cases hm : r.neighbourVehicles v with
    | error e =>
      simp only [Except.map, bind, Except.bind, accelerationOf_q hPL G v p2 p1, hf' _ p2]
      rfl
    | ok q =>
      obtain ⟨q1, q2⟩ := Road.neighbour_in hr hm
      simp only [Except.map, bind, Except.bind, accelerationOf_q hPL G v p2 p1, accelerationOf_q hPL G v q2 q1, hf _ p1, hf _ q1, hf' _ p2, hf' _ q2]
      rfl

theorem abortedBy_q (G : Globals) {v w : Vehicle} (hv : VIn P L v) (hw : VIn P L w) : abortedBy G v.quarter w.quarter = abortedBy G v w := by
  unfold abortedBy
  have h : desiredGap G v.kind v.quarter (.veh w.quarter) = desiredGap G v.kind v (.veh w) := desiredGap_q G v.kind v (.veh w)
  simp only [pos_q, laneDistanceTo_q (hPL _ hv.2 _ hw.1) (hPL _ hv.2 _ hv.1)]
  show (_ && decide (0 < v.laneDistanceTo w.pos ∧ v.laneDistanceTo w.pos < desiredGap G v.kind v.quarter (.veh w.quarter))) = _
  rw [h]
  rfl

theorem considerLane_q (G : Globals) {r : Road} (hr : RIn P L r) {v : Vehicle} (hv : VIn P L v) (i : LaneIndex) :
    considerLane G r.quarter v.quarter i = (considerLane G r v i).map Vehicle.quarter := by
  unfold considerLane
  have hn : r.quarter.network = r.network.quarter := rfl
  rw [hn, Graph.getLane_q]
  cases hl : r.network.getLane i with
  | error e => rfl
  | ok l =>
    simp only [Except.map, bind, Except.bind, pos_q, Lane.isReachableFrom_q (hPL _ (Graph.getLane_in hr.lanes hl) _ hv.1), mobil_q hPL G hr hv]
    by_cases h : l.isReachableFrom v.pos = true
    · rw [if_pos h, if_pos h]
      cases v.mobil G r i with
      | error e => rfl
      | ok b => cases b <;> rfl
    · rw [if_neg h, if_neg h]; rfl

end
end Vehicle

/-- A loop that commutes with a change of state at each iteration, as long as an invariant holds, commutes with it. -/
theorem foldlM_equiv_inv {σ α : Type*} (I : σ → Prop) (h : σ → σ) (f f' : σ → α → Py σ) (hf : ∀ s a, I s → f' (h s) a = (f s a).map h)
    (hI : ∀ s a s', I s → f s a = .ok s' → I s') (l : List α) (s : σ) (hs : I s) : l.foldlM f' (h s) = (l.foldlM f s).map h := by
  induction l generalizing s with
  | nil => rfl
  | cons a l ih =>
    simp only [List.foldlM_cons, hf s a hs]
    cases e : f s a with
    | error e => rfl
    | ok s' => exact ih s' (hI s a s' hs e)

theorem VIn.body {P : Set Vec2} {L : Set Lane} {v w : Vehicle} (h : VIn P L v) (hb : SameBody v w) : VIn P L w := by
  unfold VIn
  rw [hb.pos, hb.lane]
  exact h

namespace Vehicle
section
variable {P : Set Vec2} {L : Set Lane} (hPL : ∀ l ∈ L, ∀ p ∈ P, HasPlace l p) (G : Globals) {r : Road} (hr : RIn P L r) {v : Vehicle} (hv : VIn P L v)
include hPL hr hv

theorem changeLanePolicy_q : v.quarter.changeLanePolicy G r.quarter = (v.changeLanePolicy G r).map Vehicle.quarter := by
  have ha : r.quarter.vehicles.any (abortedBy G v.quarter) = r.vehicles.any (abortedBy G v) := by
    show (r.vehicles.map Vehicle.quarter).any _ = _
    rw [List.any_map]
    have := hr.vehicles
    generalize r.vehicles = vs at this
    induction vs with
    | nil => rfl
    | cons w vs ih =>
      simp only [List.any_cons, Function.comp, abortedBy_q hPL G hv (this w (by simp))]
      congr 1
      exact ih fun u hu => this u (List.mem_cons_of_mem _ hu)
  have hs : r.quarter.network.sideLanes v.laneIndex = r.network.sideLanes v.laneIndex := Graph.sideLanes_q r.network v.laneIndex
  have e : v.quarter.changeLanePolicy G r.quarter =
      if v.laneIndex ≠ v.targetLane then
        if v.laneIndex.src = v.targetLane.src ∧ v.laneIndex.dst = v.targetLane.dst then
          if r.quarter.vehicles.any (abortedBy G v.quarter) then .ok { v.quarter with targetLane := v.laneIndex }
          else .ok v.quarter
        else .ok v.quarter
      else if doEvery LANE_CHANGE_DELAY v.timer then do
        let sides ← r.quarter.network.sideLanes v.laneIndex
        sides.foldlM (considerLane G r.quarter) (Vehicle.quarter { v with timer := 0 })
      else .ok v.quarter := rfl
  rw [e, ha, hs]
  unfold changeLanePolicy
  by_cases h1 : v.laneIndex ≠ v.targetLane
  · rw [if_pos h1, if_pos h1]
    by_cases h2 : v.laneIndex.src = v.targetLane.src ∧ v.laneIndex.dst = v.targetLane.dst
    · rw [if_pos h2, if_pos h2]
      by_cases h3 : r.vehicles.any (abortedBy G v) = true
      · rw [if_pos h3, if_pos h3]; rfl
      · rw [if_neg h3, if_neg h3]; rfl
    · rw [if_neg h2, if_neg h2]; rfl
  · rw [if_neg h1, if_neg h1]
    by_cases h2 : doEvery LANE_CHANGE_DELAY v.timer = true
    · rw [if_pos h2, if_pos h2]
      dsimp only
      cases r.network.sideLanes v.laneIndex with
      | error e => rfl
      | ok sides =>
        exact foldlM_equiv_inv (VIn P L) Vehicle.quarter _ _ (fun s i hs => considerLane_q hPL G hr hs i)
          (fun s i s' hs h => hs.body (considerLane_body h)) sides { v with timer := 0 } hv
    · rw [if_neg h2, if_neg h2]; rfl

theorem maybeChangeLane_q : v.quarter.maybeChangeLane G r.quarter = (v.maybeChangeLane G r).map Vehicle.quarter := by
  unfold maybeChangeLane
  rw [changeLanePolicy_q hPL G hr hv, enableLaneChange_q]
  by_cases h : v.enableLaneChange = true
  · rw [if_pos h, if_pos h]
  · rw [if_neg h, if_neg h]; rfl

theorem idmAct_q : v.quarter.idmAct G r.quarter = (v.idmAct G r).map fun p => (p.1.quarter, p.2) := by
  have hp : ∀ l ∈ L, HasPlace l v.pos := fun l hl => hPL l hl _ hv.1
  unfold idmAct
  have hn : r.quarter.network = r.network.quarter := rfl
  have hrng : r.quarter.rng = r.rng := rfl
  rw [Road.neighbourVehicles_q hPL hr hv, hn, hrng, followRoad_q hr.lanes hp, crashed_q]
  by_cases hc : v.crashed = true
  · rw [if_pos hc, if_pos hc]; rfl
  rw [if_neg hc, if_neg hc]
  cases hnb : r.neighbourVehicles v with
  | error e => rfl
  | ok p =>
    obtain ⟨p1, -⟩ := Road.neighbour_in hr hnb
    cases hq : v.followRoad r.network r.rng with
    | error e => rfl
    | ok q =>
      have hq' : VIn P L q.1 := hv.body (followRoad_body (v' := q.1) (rng' := q.2) hq)
      simp only [Except.map, bind, Except.bind, maybeChangeLane_q hPL G hr hq']
      cases hw : q.1.maybeChangeLane G r with
      | error e => rfl
      | ok w =>
        have hw' : VIn P L w := by
          unfold maybeChangeLane at hw
          by_cases h : q.1.enableLaneChange = true
          · rw [if_pos h] at hw; exact hq'.body (changeLanePolicy_body hw)
          · rw [if_neg h] at hw; cases hw; exact hq'
        simp only [Except.map, targetLane_q, steeringControl_q hr.lanes (fun l hl => hPL l hl _ hw'.1)]
        cases w.steeringControl r.network w.targetLane with
        | error e => rfl
        | ok st =>
          have ha : accelerationOf G w.quarter (some (.veh w.quarter)) (p.1.map Entity.quarter) =
              accelerationOf G w (some (.veh w)) p.1 := accelerationOf_q hPL G w (e := some (.veh w)) (fun x hx => by cases hx; exact hw') p1
          simp only [ha]
          cases accelerationOf G w (some (.veh w)) p.1 <;> rfl

theorem act_q (a : VAction) : v.quarter.act G r.quarter a = (v.act G r a).map fun p => (p.1.quarter, p.2) := by
  have hp : ∀ l ∈ L, HasPlace l v.pos := fun l hl => hPL l hl _ hv.1
  unfold act
  rw [kind_q]
  cases hk : v.kind <;> first
    | exact controlledAct_q hr.lanes hp r.rng a
    | exact mdpAct_q hr.lanes hp G r.rng a
    | exact idmAct_q hPL G hr hv
    | (cases a <;> rfl)

end
end Vehicle

theorem RIn.pointwise {P : Set Vec2} {L : Set Lane} {r r' : Road} (h : RIn P L r) (hb : Pointwise SameBody r.vehicles r'.vehicles)
    (hs : Road.SameScene r r') : RIn P L r' := by
  refine ⟨?_, fun w hw => ?_, ?_⟩
  · rw [hs.network]; exact h.lanes
  · obtain ⟨i, hi⟩ := List.getElem?_of_mem hw
    have hlt : i < r.vehicles.length := by
      rw [← hb.1]; exact (List.getElem?_eq_some_iff.1 hi).1
    obtain ⟨w', hw', hsame⟩ := hb.2 i _ (List.getElem?_eq_getElem hlt)
    rw [hi] at hw'
    cases hw'
    exact (h.vehicles _ (List.getElem_mem hlt)).body hsame
  · rw [hs.objects]; exact h.objects

namespace Road
section
variable {P : Set Vec2} {L : Set Lane} (hPL : ∀ l ∈ L, ∀ p ∈ P, HasPlace l p)

include hPL in
theorem actAt_q (G : Globals) (a : VAction) {r : Road} (hr : RIn P L r) (i : ℕ) :
    r.quarter.actAt G a i = (r.actAt G a i).map Road.quarter := by
  unfold actAt
  simp only [vehicles_q, List.getElem?_map]
  cases hv : r.vehicles[i]? with
  | none => rfl
  | some v =>
    simp only [Option.map_some, Vehicle.act_q hPL G hr (hr.vehicles v (List.mem_of_getElem? hv))]
    cases v.act G r a with
    | error e => rfl
    | ok p =>
      simp only [Except.map, bind, Except.bind, pure, Except.pure]
      unfold Road.quarter
      rw [List.map_set]

theorem actAt_in {G : Globals} {a : VAction} {r r' : Road} {i : ℕ} (hr : RIn P L r) (h : r.actAt G a i = .ok r') : RIn P L r' :=
  hr.pointwise (actAt_frame h).1 (actAt_frame h).2

include hPL in
theorem commands_q (G : Globals) (cmds : List (ℕ × VAction)) {r : Road} (hr : RIn P L r) :
    cmds.foldlM (fun (r : Road) (c : ℕ × VAction) => r.actAt G c.2 c.1) r.quarter =
      (cmds.foldlM (fun (r : Road) (c : ℕ × VAction) => r.actAt G c.2 c.1) r).map Road.quarter :=
  foldlM_equiv_inv (RIn P L) Road.quarter _ _ (fun _ c hs => actAt_q hPL G c.2 hs c.1) (fun _ _ _ hs h => actAt_in hs h) cmds r hr

theorem commands_in {G : Globals} {cmds : List (ℕ × VAction)} {r r' : Road} (hr : RIn P L r)
    (h : cmds.foldlM (fun (r : Road) (c : ℕ × VAction) => r.actAt G c.2 c.1) r = .ok r') : RIn P L r' := by
  induction cmds generalizing r with
  | nil => cases h; exact hr
  | cons c cs ih =>
    rw [List.foldlM_cons] at h
    obtain ⟨s, hs, h⟩ := bind_ok h
    exact ih (actAt_in hr hs) h

include hPL in
theorem act_q (G : Globals) {r : Road} (hr : RIn P L r) : r.quarter.act G = (r.act G).map Road.quarter := by
  unfold act
  rw [vehicles_q, List.length_map]
  exact foldlM_equiv_inv (RIn P L) Road.quarter _ _ (fun s i hs => actAt_q hPL G .none hs i) (fun _ _ _ hs h => actAt_in hs h) _ r hr

theorem act_in {G : Globals} {r r' : Road} (hr : RIn P L r) (h : r.act G = .ok r') : RIn P L r' :=
  hr.pointwise (act_frame h).1 (act_frame h).2

/-! One step -/

theorem mapM_some {α : Type} {q : α → α} {f f' : α → Py α} {vs ws : List α} (h : vs.mapM f = .ok ws)
    (hf : ∀ v ∈ vs, ∀ w, f v = .ok w → f' (q v) = .ok (q w)) : (vs.map q).mapM f' = .ok (ws.map q) := by
  induction vs generalizing ws with
  | nil => rw [List.mapM_nil] at h; cases h; rfl
  | cons v vs ih =>
    rw [List.mapM_cons] at h
    obtain ⟨w, hw, h⟩ := bind_ok h
    obtain ⟨ws', hws, h⟩ := bind_ok h
    cases h
    rw [List.map_cons, List.mapM_cons, hf v (by simp) w hw, ih hws fun u hu => hf u (List.mem_cons_of_mem _ hu)]
    rfl

include hPL in
theorem moveAll_q {r r' : Road} {dt : ℝ} (hg : r.network.LanesIn L) (h : r.moveAll dt = .ok r') (hn : ∀ v ∈ r'.vehicles, v.pos ∈ P) :
    r.quarter.moveAll dt = .ok r'.quarter := by
  unfold moveAll at h
  obtain ⟨vs, hvs, h⟩ := bind_ok h
  cases h
  unfold moveAll
  have key : r.quarter.vehicles.mapM (Vehicle.step r.quarter.network r.quarter.recordHistory dt) = .ok (vs.map Vehicle.quarter) := by
    refine mapM_some hvs fun v hv w hw => ?_
    obtain ⟨i, hi⟩ := List.getElem?_of_mem hv
    obtain ⟨w', hw', hs⟩ := (mapM_pointwise hvs).2 i v hi
    rw [hw] at hs
    cases hs
    have hp : (v.move dt).pos = w.pos := by
      obtain ⟨j, l, hist, -, -, rfl⟩ := Vehicle.step_ok hw
      rfl
    have := hn w (List.mem_of_getElem? hw')
    exact (Vehicle.step_q hg r.recordHistory dt (fun l hl => hp ▸ hPL l hl _ this)).trans (by rw [hw]; rfl)
  rw [key]
  rfl

theorem collideVV_q (i : ℕ) (vs : List Vehicle) (j : ℕ) :
    collideVV i (vs.map Vehicle.quarter) j = (collideVV i vs j).map Vehicle.quarter := by
  unfold collideVV
  by_cases h : i = j
  · rw [if_pos h, if_pos h]
  rw [if_neg h, if_neg h]
  simp only [List.getElem?_map]
  cases vs[i]? with
  | none => rfl
  | some v =>
    cases vs[j]? with
    | none => rfl
    | some w => simp only [Option.map_some, Vehicle.checkCollisionV_q, List.map_set]

theorem collideVO_q (v : Vehicle) (os : List RoadObject) :
    collideVO v.quarter (os.map RoadObject.quarter) =
      ((collideVO v os).1.quarter, (collideVO v os).2.map RoadObject.quarter) := by
  induction os generalizing v with
  | nil => rfl
  | cons o os ih => simp only [List.map_cons, collideVO, Vehicle.checkCollisionO_q, ih]

/-- Both lists of a collision pass turned. -/
def qBoth (st : List Vehicle × List RoadObject) : List Vehicle × List RoadObject :=
  (st.1.map Vehicle.quarter, st.2.map RoadObject.quarter)

theorem collideOne_q (st : List Vehicle × List RoadObject) (i : ℕ) : collideOne (qBoth st) i = qBoth (collideOne st i) := by
  unfold collideOne
  have h : (List.range (qBoth st).1.length).foldl (collideVV i) (qBoth st).1 =
      ((List.range st.1.length).foldl (collideVV i) st.1).map Vehicle.quarter := by
    unfold qBoth
    rw [List.length_map]
    exact foldl_equiv (List.map Vehicle.quarter) _ _ (fun s a => collideVV_q i s a) _ _
  rw [h]
  simp only [List.getElem?_map]
  generalize (List.range st.1.length).foldl (collideVV i) st.1 = vs
  cases vs[i]? with
  | none => rfl
  | some v =>
    have := collideVO_q v st.2
    simp only [Option.map_some]
    unfold qBoth
    simp only [this, List.map_set]

theorem collidePass_q (vs : List Vehicle) (os : List RoadObject) :
    collidePass (vs.map Vehicle.quarter) (os.map RoadObject.quarter) = qBoth (collidePass vs os) := by
  unfold collidePass
  rw [List.length_map]
  exact foldl_equiv (qBoth) _ _ collideOne_q _ (vs, os)


include hPL in
theorem stepBase_q {r r' : Road} {dt : ℝ} (hg : r.network.LanesIn L) (h : r.stepBase dt = .ok r') (hn : ∀ v ∈ r'.vehicles, v.pos ∈ P) :
    r.quarter.stepBase dt = .ok r'.quarter := by
  unfold stepBase at h
  obtain ⟨s, hs, h⟩ := bind_ok h
  cases h
  have hn' : ∀ v ∈ s.vehicles, v.pos ∈ P := by
    intro v hv
    obtain ⟨i, hi⟩ := List.getElem?_of_mem hv
    obtain ⟨w, hw, x, b, rfl, -⟩ := (collidePass_evolves s.vehicles s.objects).1.pointwise.2 i v hi
    exact hn (bump v x b) (List.mem_of_getElem? hw)
  unfold stepBase
  rw [moveAll_q hPL hg hs hn']
  simp only [bind, Except.bind, pure, Except.pure, vehicles_q, objects_q, collidePass_q]
  rfl

/-! Regulation -/

theorem release_q (v : Vehicle) : release v.quarter = (release v).map Vehicle.quarter := by
  unfold release
  rw [apply_ite (Except.map Vehicle.quarter), apply_ite (Except.map Vehicle.quarter), apply_ite (Except.map Vehicle.quarter)]
  rfl

theorem anyRel {α β : Type*} {R : α → β → Prop} {f : α × α → Bool} {f' : β × β → Bool}
    (h : ∀ a a' b b', R a a' → R b b' → f (a, b) = f' (a', b')) {l1 l2 : List α} {m1 m2 : List β} (h1 : List.Forall₂ R l1 m1)
    (h2 : List.Forall₂ R l2 m2) : (l1.zip l2).any f = (m1.zip m2).any f' := by
  induction h1 generalizing l2 m2 with
  | nil => rfl
  | cons ha _ ih =>
    cases h2 with
    | nil => rfl
    | cons hb h2 => simp only [List.zip_cons_cons, List.any_cons, h _ _ _ _ ha hb, ih h2]

include hPL in
theorem isConflictPossible_q {g : Graph} (hg : g.LanesIn L) {v w : Vehicle} (hv : VIn P L v) (hw : VIn P L w) :
    isConflictPossible g.quarter v.quarter w.quarter = isConflictPossible g v w := by
  unfold isConflictPossible
  have h1 := Vehicle.predictConstantSpeed_q hg (v := v) (fun l hl => hPL l hl _ hv.1) (hPL _ hv.2 _ hv.1) conflictTimes
  have h2 := Vehicle.predictConstantSpeed_q hg (v := w) (fun l hl => hPL l hl _ hw.1) (hPL _ hw.2 _ hw.1) conflictTimes
  generalize v.predictConstantSpeed g conflictTimes = x at h1
  generalize v.quarter.predictConstantSpeed g.quarter conflictTimes = x' at h1
  generalize w.predictConstantSpeed g conflictTimes = y at h2
  generalize w.quarter.predictConstantSpeed g.quarter conflictTimes = y' at h2
  cases h1 with
  | error e => rfl
  | ok h1 =>
    cases h2 with
    | error e => rfl
    | ok h2 =>
      simp only [bind, Except.bind, pure, Except.pure]
      congr 1
      refine (anyRel (R := Graph.PoseQ) (fun a a' b b' ha hb => ?_) h1 h2).symm
      have hi := Vehicle.intersect_q (r1 := conflictRect a) (r2 := conflictRect b) (s1 := conflictRect a') (s2 := conflictRect b')
        ⟨ha.1, rfl, rfl, ha.2⟩ ⟨hb.1, rfl, rfl, hb.2⟩
      dsimp only
      rw [hi, ha.1, hb.1, ← Vec2.quarter_sub, Vec2.norm_quarter]

theorem firstYields_q (v w : Vehicle) : firstYields v.quarter w.quarter = firstYields v w := by
  unfold firstYields Vehicle.frontDistanceTo
  simp only [Vehicle.lane_q, Lane.priority_q, Vehicle.pos_q, Vehicle.direction_q, ← Vec2.quarter_sub, Vec2.dot_quarter]

theorem markYield_q (v : Vehicle) : markYield v.quarter = (markYield v).quarter := by
  unfold markYield
  rw [apply_ite Vehicle.quarter]
  rfl

include hPL in
theorem resolvePair_q {g : Graph} (hg : g.LanesIn L) {vs : List Vehicle} (hvs : ∀ v ∈ vs, VIn P L v) (ij : ℕ × ℕ) :
    resolvePair g.quarter (vs.map Vehicle.quarter) ij = (resolvePair g vs ij).map (List.map Vehicle.quarter) := by
  unfold resolvePair
  simp only [List.getElem?_map]
  cases hv : vs[ij.1]? with
  | none => rfl
  | some v =>
    cases hw : vs[ij.2]? with
    | none => rfl
    | some w =>
      simp only [Option.map_some, isConflictPossible_q hPL hg (hvs v (List.mem_of_getElem? hv)) (hvs w (List.mem_of_getElem? hw)),
        firstYields_q, markYield_q]
      cases isConflictPossible g v w with
      | error e => rfl
      | ok c =>
        simp only [bind, Except.bind]
        cases c
        · rfl
        · cases firstYields v w <;> simp [Except.map, pure, Except.pure, List.map_set]

theorem allIn_pointwise {vs ws : List Vehicle} (h : ∀ v ∈ vs, VIn P L v) (hb : Pointwise SameButYield vs ws) : ∀ v ∈ ws, VIn P L v := by
  intro w hw
  obtain ⟨i, hi⟩ := List.getElem?_of_mem hw
  have hlt : i < vs.length := by
    rw [← hb.1]; exact (List.getElem?_eq_some_iff.1 hi).1
  obtain ⟨w', hw', hsame⟩ := hb.2 i _ (List.getElem?_eq_getElem hlt)
  rw [hi] at hw'
  cases hw'
  exact (h _ (List.getElem_mem hlt)).body hsame.body

include hPL in
theorem enforceRoadRules_q {r : Road} (hr : RIn P L r) : r.quarter.enforceRoadRules = r.enforceRoadRules.map Road.quarter := by
  unfold enforceRoadRules
  have h := mapM_equiv Vehicle.quarter release release release_q r.vehicles
  rw [vehicles_q, h]
  cases hm : List.mapM release r.vehicles with
  | error e => rfl
  | ok vs =>
    have hvs : ∀ v ∈ vs, VIn P L v := allIn_pointwise hr.vehicles ((mapM_pointwise hm).mono fun _ _ => release_frame)
    simp only [Except.map, bind, Except.bind, List.length_map, network_q]
    have h2 := foldlM_equiv_inv (fun vs : List Vehicle => ∀ v ∈ vs, VIn P L v) (List.map Vehicle.quarter) _ _
      (fun s a hs => resolvePair_q hPL hr.lanes hs a) (fun s a s' hs h => allIn_pointwise hs (resolvePair_frame h)) (pairs vs.length) vs hvs
    rw [h2]
    cases List.foldlM (resolvePair r.network) vs (pairs vs.length) <;> rfl

include hPL in
theorem maybeEnforce_q {r : Road} (hr : RIn P L r) (period : Int) : r.quarter.maybeEnforce period = (r.maybeEnforce period).map Road.quarter := by
  unfold maybeEnforce
  rw [enforceRoadRules_q hPL hr, steps_q]
  by_cases h : (r.steps : Int) % period = 0
  · rw [if_pos h, if_pos h]
  · rw [if_neg h, if_neg h]; rfl

theorem maybeEnforce_in {r r' : Road} (hr : RIn P L r) {period : Int} (h : r.maybeEnforce period = .ok r') : r'.network.LanesIn L := by
  unfold maybeEnforce at h
  by_cases hp : (r.steps : Int) % period = 0
  · rw [if_pos hp] at h
    rw [(enforce_frame h).2.1.network]; exact hr.lanes
  · rw [if_neg hp] at h
    cases h; exact hr.lanes

include hPL in
theorem stepRegulated_q {r r' : Road} (hr : RIn P L r) {dt : ℝ} (h : r.stepRegulated dt = .ok r') (hn : ∀ v ∈ r'.vehicles, v.pos ∈ P) :
    r.quarter.stepRegulated dt = .ok r'.quarter := by
  unfold stepRegulated at h ⊢
  dsimp only at h ⊢
  by_cases hp : pyInt (1 / dt / REGULATION_FREQUENCY) = 0
  · rw [if_pos hp] at h; cases h
  rw [if_neg hp] at h ⊢
  obtain ⟨s, hs, h⟩ := bind_ok h
  have hr' : RIn P L { r with steps := r.steps + 1 } := ⟨hr.lanes, hr.vehicles, hr.objects⟩
  have e : maybeEnforce { r.quarter with steps := r.quarter.steps + 1 } (pyInt (1 / dt / REGULATION_FREQUENCY)) = .ok s.quarter :=
    (maybeEnforce_q hPL hr' (pyInt (1 / dt / REGULATION_FREQUENCY))).trans (by rw [hs]; rfl)
  rw [e]
  exact stepBase_q hPL (maybeEnforce_in hr' hs) h hn

include hPL in
theorem step_q {r r' : Road} (hr : RIn P L r) {dt : ℝ} (h : r.step dt = .ok r') (hn : ∀ v ∈ r'.vehicles, v.pos ∈ P) :
    r.quarter.step dt = .ok r'.quarter := by
  unfold step at h ⊢
  have hreg : r.quarter.regulated = r.regulated := rfl
  rw [hreg]
  by_cases hc : r.regulated = true
  · rw [if_pos hc] at h ⊢
    exact stepRegulated_q hPL hr h hn
  · rw [if_neg hc] at h ⊢
    exact stepBase_q hPL hr.lanes h hn

end
end Road

end HighwayEnv
