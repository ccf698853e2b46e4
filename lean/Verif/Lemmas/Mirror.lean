import Verif.Spec.Mirror
import Verif.Lemmas.Quarter

/-! The physics of plain vehicles commutes with reflecting the whole world. -/

noncomputable section
open Classical
namespace HighwayEnv
open Spec

namespace Vec2

@[simp] theorem mirror_x (p : Vec2) : p.mirror.x = p.x := rfl
@[simp] theorem mirror_y (p : Vec2) : p.mirror.y = -p.y := rfl
theorem mirror_add (p q : Vec2) : (p + q).mirror = p.mirror + q.mirror := by ext <;> simp; ring
theorem mirror_sub (p q : Vec2) : (p - q).mirror = p.mirror - q.mirror := by ext <;> simp; ring
theorem mirror_smul (k : ℝ) (p : Vec2) : (k • p).mirror = k • p.mirror := by ext <;> simp
theorem dot_mirror (p q : Vec2) : p.mirror.dot q.mirror = p.dot q := by unfold dot; simp
theorem norm_mirror (p : Vec2) : p.mirror.norm = p.norm := by unfold norm; congr 1; simp
theorem dir_mirror (h : ℝ) : dir (-h) = (dir h).mirror := by unfold dir mirror; simp
theorem rot_mirror (h : ℝ) (p : Vec2) : rot (-h) p.mirror = (rot h p).mirror := by
  unfold rot mirror
  simp only [Real.cos_neg, Real.sin_neg]
  ext <;> simp; ring
theorem mirror_mirror (p : Vec2) : p.mirror.mirror = p := by ext <;> simp

end Vec2

theorem arctan2_mirror {v : Vec2} (hv : v ≠ 0) : ∃ k : ℤ, arctan2 v.mirror.y v.mirror.x = -arctan2 v.y v.x + 2 * Real.pi * k := by
  have hn : 0 < v.norm := lt_of_le_of_ne (Vec2.norm_nonneg v) fun h => hv (Vec2.norm_eq_zero.1 h.symm)
  have e := Lane.norm_dir_arg v
  obtain ⟨k, hk⟩ := Lane.arctan2_polar (phi := -arctan2 v.y v.x) hn
  refine ⟨k, ?_⟩
  rw [← hk]
  have e2 : v.mirror = v.norm • Vec2.dir (-arctan2 v.y v.x) := by
    rw [Vec2.dir_mirror, ← Vec2.mirror_smul, e]
  have ey := congrArg Vec2.y e2
  have ex := congrArg Vec2.x e2
  rw [ex, ey]
  rfl

theorem wrap_opp {x : ℝ} (h : wrapToPi x ≠ -Real.pi) : wrapToPi (-x) = -wrapToPi x := by
  have h1 : -wrapToPi x < Real.pi := by
    have := lt_of_le_of_ne (wrapToPi_ge x) (Ne.symm h)
    linarith
  have h2 : -Real.pi ≤ -wrapToPi x := by linarith [wrapToPi_lt x]
  exact (wrapToPi_unique h2 h1 ⌊(x + Real.pi) / (2 * Real.pi)⌋ (by rw [wrapToPi_eq x]; ring)).symm

theorem wrap_abs (x : ℝ) : |wrapToPi (-x)| = |wrapToPi x| := by
  by_cases h : wrapToPi x = -Real.pi
  · have e := wrapToPi_eq x
    rw [h] at e
    have h1 : -Real.pi < Real.pi := by linarith [Real.pi_pos]
    have e2 := wrapToPi_unique (x := -x) le_rfl h1 (⌊(x + Real.pi) / (2 * Real.pi)⌋ - 1) (by push_cast; linarith)
    rw [h, ← e2]
  · rw [wrap_opp h, abs_neg]

namespace Lane

theorem straightDir_m (a b : Vec2) : straightDir a.mirror b.mirror = (straightDir a b).mirror := by
  unfold straightDir
  rw [← Vec2.mirror_sub, Vec2.norm_mirror]
  ext <;> simp <;> ring

theorem straightLocal_m (a b p : Vec2) : straightLocal a.mirror b.mirror p.mirror = ((straightLocal a b p).1, -(straightLocal a b p).2) := by
  unfold straightLocal
  rw [straightDir_m, ← Vec2.mirror_sub]
  dsimp only
  rw [Vec2.dot_mirror]
  congr 1
  unfold Vec2.dot
  simp
  ring

theorem straightHeading_m {a b : Vec2} (h : a ≠ b) : ∃ k : ℤ, straightHeading a.mirror b.mirror = -straightHeading a b + 2 * Real.pi * k := by
  have hv : b - a ≠ 0 := by
    intro e
    apply h
    have hx := congrArg Vec2.x e
    have hy := congrArg Vec2.y e
    ext
    · simp at hx; linarith
    · simp at hy; linarith
  obtain ⟨k, hk⟩ := arctan2_mirror hv
  refine ⟨k, ?_⟩
  unfold straightHeading
  rw [Vec2.mirror_sub] at hk
  exact hk

@[simp] theorem length_m (l : Lane) : l.mirror.length = l.length := by
  cases l with | mk shape =>
    cases shape with
    | straight a b => simp [Lane.mirror, LaneShape.mirror, length, ← Vec2.mirror_sub, Vec2.norm_mirror]
    | sine a b amp w ph => simp [Lane.mirror, LaneShape.mirror, length, ← Vec2.mirror_sub, Vec2.norm_mirror]
    | circular c rad p0 p1 cw =>
      simp only [Lane.mirror, LaneShape.mirror, length]
      cases cw <;> simp [circDir] <;> ring

theorem circDir_not (cw : Bool) : circDir (!cw) = -circDir cw := by cases cw <;> simp [circDir]

theorem headingAt_m {l : Lane} {p : Vec2} (h : HasImage l p) (s : ℝ) : ∃ k : ℤ, l.mirror.headingAt s = -l.headingAt s + 2 * Real.pi * k := by
  cases l with | mk shape =>
    cases shape with
    | straight a b => exact straightHeading_m h
    | sine a b amp w ph =>
      obtain ⟨k, hk⟩ := straightHeading_m (a := a) (b := b) h
      refine ⟨k, ?_⟩
      simp only [Lane.mirror, LaneShape.mirror, headingAt, hk]
      rw [show -amp * w * Real.cos (w * s + ph) = -(amp * w * Real.cos (w * s + ph)) by ring, Real.arctan_neg]
      ring
    | circular c rad p0 p1 cw =>
      refine ⟨0, ?_⟩
      simp only [Lane.mirror, LaneShape.mirror, headingAt, circDir_not]
      push_cast
      ring

theorem position_m (l : Lane) (s r : ℝ) : l.mirror.position s (-r) = (l.position s r).mirror := by
  cases l with | mk shape =>
    cases shape with
    | straight a b =>
      show straightPosition _ _ s (-r) = (straightPosition a b s r).mirror
      unfold straightPosition
      rw [straightDir_m]
      ext <;> simp; ring
    | sine a b amp w ph =>
      show straightPosition _ _ s _ = (straightPosition a b s _).mirror
      unfold straightPosition
      rw [straightDir_m]
      ext <;> simp <;> ring
    | circular c rad p0 p1 cw =>
      simp only [Lane.mirror, LaneShape.mirror, position, circDir_not]
      rw [show -circDir cw * s / rad + -p0 = -(circDir cw * s / rad + p0) by ring, Vec2.dir_mirror, Vec2.mirror_add, Vec2.mirror_smul]
      congr 2
      ring

theorem localCoordinates_m {l : Lane} {p : Vec2} (h : HasImage l p) :
    l.mirror.localCoordinates p.mirror = ((l.localCoordinates p).1, -(l.localCoordinates p).2) := by
  cases l with | mk shape =>
    cases shape with
    | straight a b => exact straightLocal_m a b p
    | sine a b amp w ph =>
      simp only [Lane.mirror, LaneShape.mirror, localCoordinates, straightLocal_m]
      congr 1
      ring
    | circular c rad p0 p1 cw =>
      have h' : ∀ x : ℝ, 0 ≤ x → p ≠ c - x • Vec2.dir p0 := h
      have hv : p - c ≠ 0 := by
        intro e
        apply h' 0 le_rfl
        have hx := congrArg Vec2.x e
        have hy := congrArg Vec2.y e
        ext
        · simp at hx ⊢; linarith
        · simp at hy ⊢; linarith
      have hw : wrapToPi (arctan2 (p - c).y (p - c).x - p0) ≠ -Real.pi := by
        intro e
        have e1 := dir_wrap p0 (arctan2 (p - c).y (p - c).x)
        have e2 := norm_dir_arg (p - c)
        rw [e] at e1
        rw [← e1] at e2
        apply h' (p - c).norm (Vec2.norm_nonneg _)
        have hx := congrArg Vec2.x e2
        have hy := congrArg Vec2.y e2
        have c1 : Real.cos (p0 + -Real.pi) = -Real.cos p0 := by rw [← sub_eq_add_neg, Real.cos_sub_pi]
        have s1 : Real.sin (p0 + -Real.pi) = -Real.sin p0 := by rw [← sub_eq_add_neg, Real.sin_sub_pi]
        simp only [Vec2.smul_x, Vec2.smul_y, Vec2.sub_x, Vec2.sub_y, Vec2.dir, c1, s1] at hx hy
        ext
        · simp only [Vec2.smul_x, Vec2.sub_x, Vec2.dir]; linarith
        · simp only [Vec2.smul_y, Vec2.sub_y, Vec2.dir]; linarith
      obtain ⟨k, hk⟩ := arctan2_mirror hv
      simp only [Lane.mirror, LaneShape.mirror, localCoordinates, circDir_not]
      rw [← Vec2.mirror_sub, Vec2.norm_mirror, hk]
      have e : -arctan2 (p - c).y (p - c).x + 2 * Real.pi * k - -p0 = -(arctan2 (p - c).y (p - c).x - p0) + 2 * Real.pi * k := by ring
      rw [e, wrapToPi_add_int, wrap_opp hw]
      congr 1 <;> ring

theorem distanceWithHeading_m {l : Lane} {p : Vec2} (h : HasImage l p) (x w : ℝ) :
    l.mirror.distanceWithHeading p.mirror (some (-x)) w = l.distanceWithHeading p (some x) w := by
  unfold distanceWithHeading
  dsimp only
  rw [localCoordinates_m h, length_m, abs_neg]
  obtain ⟨k, hk⟩ := headingAt_m h (l.localCoordinates p).1
  rw [hk, show -x - (-l.headingAt (l.localCoordinates p).1 + 2 * Real.pi * k) = -(x - l.headingAt (l.localCoordinates p).1) + 2 * Real.pi * ((-k : ℤ) : ℝ) by
    push_cast; ring, wrapToPi_add_int, wrap_abs]

end Lane

namespace Graph
variable {L : Set Lane} {g : Graph}

theorem lanesOf_m (g : Graph) (a b : String) : g.mirror.lanesOf a b = (g.lanesOf a b).map (List.map Lane.mirror) := by
  unfold lanesOf
  have h1 : Dict.getItem g.mirror a = (Dict.getItem g a).map fun d => d.map fun ml => (ml.1, ml.2.map Lane.mirror) :=
    Dict.getItem_map _ g a
  rw [h1]
  cases Dict.getItem g a with
  | error e => rfl
  | ok d => exact Dict.getItem_map _ d b

theorem getLaneStep_m (g : Graph) (i : RouteStep) : g.mirror.getLaneStep i = (g.getLaneStep i).map Lane.mirror := by
  unfold getLaneStep
  rw [lanesOf_m]
  cases g.lanesOf i.src i.dst with
  | error e => rfl
  | ok ls =>
    simp only [Except.map, bind, Except.bind]
    cases i.id with
    | some k => exact pyIndex_map _ _ _
    | none =>
      simp only [List.length_map]
      by_cases h : ls.length = 1
      · rw [if_pos h, if_pos h]; exact pyIndex_map _ _ _
      · rw [if_neg h, if_neg h]


theorem getLane_m (g : Graph) (i : LaneIndex) : g.mirror.getLane i = (g.getLane i).map Lane.mirror := getLaneStep_m g _

theorem indexedLanes_m (g : Graph) : g.mirror.indexedLanes = g.indexedLanes.map fun il => (il.1, il.2.mirror) := by
  unfold indexedLanes Graph.mirror
  simp only [List.flatMap_map, List.map_flatMap, List.zipIdx_map, List.map_map]
  rfl

theorem getClosestLaneIndex_m (hg : LanesIn L g) {p : Vec2} (hp : ∀ l ∈ L, HasImage l p) (x : ℝ) :
    g.mirror.getClosestLaneIndex p.mirror (some (-x)) = g.getClosestLaneIndex p (some x) := by
  unfold getClosestLaneIndex
  rw [indexedLanes_m, firstMin_map]
  have e : firstMin (fun a : LaneIndex × Lane => a.2.mirror.distanceWithHeading p.mirror (some (-x))) g.indexedLanes =
      firstMin (fun il => il.2.distanceWithHeading p (some x)) g.indexedLanes :=
    firstMin_congr fun il hil => Lane.distanceWithHeading_m (hp _ (indexedLanes_in hg il hil)) x 1
  dsimp only
  rw [e]
  cases firstMin (fun il : LaneIndex × Lane => il.2.distanceWithHeading p (some x)) g.indexedLanes <;> rfl

end Graph

namespace Vehicle
theorem clipActionsBase_m (v : Vehicle) : v.mirror.clipActionsBase = v.clipActionsBase.mirror := by
  have key : ∀ w : Vehicle, (if w.mirror.speed > w.mirror.kind.maxSpeed then
        { w.mirror with acceleration := min w.mirror.acceleration (w.mirror.kind.maxSpeed - w.mirror.speed) }
      else if w.mirror.speed < -w.mirror.kind.maxSpeed then
        { w.mirror with acceleration := max w.mirror.acceleration (w.mirror.kind.maxSpeed - w.mirror.speed) }
      else w.mirror) =
      Vehicle.mirror (if w.speed > w.kind.maxSpeed then { w with acceleration := min w.acceleration (w.kind.maxSpeed - w.speed) }
      else if w.speed < -w.kind.maxSpeed then { w with acceleration := max w.acceleration (w.kind.maxSpeed - w.speed) }
      else w) := by
    intro w
    rw [apply_ite Vehicle.mirror, apply_ite Vehicle.mirror]
    rfl
  have h : (if v.mirror.crashed = true then { v.mirror with steering := 0, acceleration := -1 * v.mirror.speed }
        else v.mirror) =
      Vehicle.mirror (if v.crashed = true then { v with steering := 0, acceleration := -1 * v.speed } else v) := by
    have e : ({ v.mirror with steering := 0, acceleration := -1 * v.mirror.speed } : Vehicle) =
        Vehicle.mirror { v with steering := 0, acceleration := -1 * v.speed } := by
      unfold Vehicle.mirror
      dsimp only
      rw [neg_zero]
    rw [apply_ite Vehicle.mirror, ← e]
    rfl
  exact (congrArg (fun w : Vehicle => if w.speed > w.kind.maxSpeed then { w with acceleration := min w.acceleration (w.kind.maxSpeed - w.speed) }
      else if w.speed < -w.kind.maxSpeed then { w with acceleration := max w.acceleration (w.kind.maxSpeed - w.speed) }
      else w) h).trans (key _)

theorem clipActions_m {v : Vehicle} (hk : v.kind ≠ .bicycle) : v.mirror.clipActions = v.clipActions.mirror := by
  have h : v.clipActionsBase.kind = v.kind := by
    unfold clipActionsBase
    dsimp only
    split_ifs <;> rfl
  unfold clipActions
  rw [clipActionsBase_m]
  have h' : v.clipActionsBase.mirror.kind = v.kind := h
  dsimp only
  rw [if_neg (by rw [h']; exact hk), if_neg (by rw [h]; exact hk)]

theorem slip_neg (x : ℝ) : slip (-x) = -slip x := by
  unfold slip
  rw [Real.tan_neg, mul_neg, Real.arctan_neg]

theorem integrate_m (v : Vehicle) (dt : ℝ) : v.mirror.integrate dt = (v.integrate dt).mirror := by
  have e1 : v.pos.mirror + dt • (v.speed • Vec2.dir (-v.heading + slip (-v.steering))) =
      (v.pos + dt • (v.speed • Vec2.dir (v.heading + slip v.steering))).mirror := by
    rw [slip_neg, show -v.heading + -slip v.steering = -(v.heading + slip v.steering) by ring, Vec2.dir_mirror, Vec2.mirror_add,
      Vec2.mirror_smul, Vec2.mirror_smul]
  have e2 : -v.heading + v.speed * Real.sin (slip (-v.steering)) / (LENGTH / 2) * dt =
      -(v.heading + v.speed * Real.sin (slip v.steering) / (LENGTH / 2) * dt) := by rw [slip_neg, Real.sin_neg]; ring
  unfold integrate Vehicle.mirror
  dsimp only
  rw [e1, e2]

theorem onStateUpdate_m {L : Set Lane} {g : Graph} (hg : g.LanesIn L) (rec : Bool) {v : Vehicle} (hp : ∀ l ∈ L, HasImage l v.pos) :
    v.mirror.onStateUpdate g.mirror rec = (v.onStateUpdate g rec).map Vehicle.mirror := by
  unfold onStateUpdate
  have e := Graph.getClosestLaneIndex_m hg hp v.heading
  have e' : g.mirror.getClosestLaneIndex v.mirror.pos (some v.mirror.heading) = g.getClosestLaneIndex v.pos (some v.heading) := e
  rw [e']
  cases g.getClosestLaneIndex v.pos (some v.heading) with
  | error e => rfl
  | ok i =>
    simp only [bind, Except.bind, Graph.getLane_m]
    cases g.getLane i with
    | error e => rfl
    | ok l =>
      simp only [Except.map, pure, Except.pure]
      unfold Vehicle.mirror
      congr 2
      cases rec
      · rfl
      · simp [Snapshot.mirror, List.map_take]

theorem inRect_mirror (u : Vec2) (l w : ℝ) : pointInRectangle u.mirror ⟨-l / 2, -w / 2⟩ ⟨l / 2, w / 2⟩ = pointInRectangle u ⟨-l / 2, -w / 2⟩ ⟨l / 2, w / 2⟩ := by
  unfold pointInRectangle
  congr 1
  simp only [Vec2.mirror_x, Vec2.mirror_y, eq_iff_iff]
  constructor <;> rintro ⟨h1, h2, h3, h4⟩ <;> refine ⟨?_, ?_, ?_, ?_⟩ <;> linarith

theorem samplePoints_mirror (l w : ℝ) (p : Vec2) (h : p ∈ samplePoints l w) : p.mirror ∈ samplePoints l w := by
  unfold samplePoints at h ⊢
  simp only [List.mem_cons, List.not_mem_nil, or_false] at h ⊢
  rcases h with rfl | rfl | rfl | rfl | rfl | rfl | rfl | rfl | rfl
  · left; ext <;> simp
  · right; left; ext <;> simp
  · right; right; left; ext <;> simp
  · right; right; right; right; left; ext <;> simp
  · right; right; right; left; ext <;> simp
  · right; right; right; right; right; right; left; ext <;> simp
  · right; right; right; right; right; left; ext <;> simp
  · right; right; right; right; right; right; right; right; ext <;> simp
  · right; right; right; right; right; right; right; left; ext <;> simp

/-- The reflected rectangle. -/
def _root_.HighwayEnv.Rect.mirror (r : Rect) : Rect := ⟨r.center.mirror, r.length, r.width, -r.angle⟩

theorem corner_m (r1 r2 : Rect) (p : Vec2) :
    pointInRotatedRectangle (r1.mirror.center + Vec2.rot r1.mirror.angle p.mirror) r2.mirror.center r2.length r2.width r2.mirror.angle =
      pointInRotatedRectangle (r1.center + Vec2.rot r1.angle p) r2.center r2.length r2.width r2.angle := by
  unfold pointInRotatedRectangle Rect.mirror
  dsimp only
  rw [Vec2.rot_mirror, ← Vec2.mirror_add, ← Vec2.mirror_sub, Vec2.rot_mirror, inRect_mirror]

theorem hasCorner_m (r1 r2 : Rect) : hasCornerInside r1.mirror r2.mirror = hasCornerInside r1 r2 := by
  unfold hasCornerInside
  rw [Bool.eq_iff_iff, List.any_eq_true, List.any_eq_true]
  constructor
  · rintro ⟨p, hp, h⟩
    refine ⟨p.mirror, samplePoints_mirror _ _ _ hp, ?_⟩
    rw [← corner_m, Vec2.mirror_mirror]
    exact h
  · rintro ⟨p, hp, h⟩
    refine ⟨p.mirror, samplePoints_mirror _ _ _ hp, ?_⟩
    rw [← corner_m] at h
    exact h

theorem intersect_m (r1 r2 : Rect) : rotatedRectanglesIntersect r1.mirror r2.mirror = rotatedRectanglesIntersect r1 r2 := by
  unfold rotatedRectanglesIntersect
  rw [hasCorner_m, hasCorner_m]

theorem isColliding_m (v : Vehicle) (o : Rect) : v.mirror.isColliding o.mirror = v.isColliding o := by
  unfold isColliding
  have e : o.mirror.center - v.mirror.pos = (o.center - v.pos).mirror := (Vec2.mirror_sub _ _).symm
  rw [e, Vec2.norm_mirror, show v.mirror.rect = v.rect.mirror from rfl, intersect_m]

theorem checkCollisionV_m (v w : Vehicle) :
    v.mirror.checkCollisionV w.mirror = ((v.checkCollisionV w).1.mirror, (v.checkCollisionV w).2.mirror) := by
  unfold checkCollisionV
  have h : v.mirror.isColliding w.mirror.rect = v.isColliding w.rect := isColliding_m v w.rect
  rw [h]
  simp only [show v.mirror.crashed = v.crashed from rfl, show v.mirror.collisionsEnabled = v.collisionsEnabled from rfl,
    show w.mirror.collisionsEnabled = w.collisionsEnabled from rfl, show v.mirror.speed = v.speed from rfl, show w.mirror.speed = w.speed from rfl]
  split_ifs <;> rfl

theorem checkCollisionO_m (v : Vehicle) (o : RoadObject) :
    v.mirror.checkCollisionO o.mirror = ((v.checkCollisionO o).1.mirror, (v.checkCollisionO o).2.mirror) := by
  unfold checkCollisionO
  have h : v.mirror.isColliding o.mirror.rect = v.isColliding o.rect := isColliding_m v o.rect
  have hk : o.mirror.kind = o.kind := rfl
  simp only [show v.mirror.crashed = v.crashed from rfl, show v.mirror.collisionsEnabled = v.collisionsEnabled from rfl,
    show v.mirror.speed = v.speed from rfl, h, hk]
  cases o.kind <;> simp only <;> split_ifs <;> rfl


end Vehicle

namespace Road
open Vehicle

theorem allPlain_of {r r' : Road} (hr : AllPlain r) (hb : Pointwise SameBody r.vehicles r'.vehicles) : AllPlain r' := by
  intro w hw
  obtain ⟨i, hi⟩ := List.getElem?_of_mem hw
  have hlt : i < r.vehicles.length := by
    rw [← hb.1]; exact (List.getElem?_eq_some_iff.1 hi).1
  obtain ⟨w', hw', hsame⟩ := hb.2 i _ (List.getElem?_eq_getElem hlt)
  rw [hi] at hw'
  cases hw'
  exact hsame.kind.trans (hr _ (List.getElem_mem hlt))

theorem collideVV_m (i : ℕ) (vs : List Vehicle) (j : ℕ) :
    collideVV i (vs.map Vehicle.mirror) j = (collideVV i vs j).map Vehicle.mirror := by
  unfold collideVV
  by_cases h : i = j
  · rw [if_pos h, if_pos h]
  rw [if_neg h, if_neg h]
  simp only [List.getElem?_map]
  cases vs[i]? with
  | none => rfl
  | some v =>
    cases vs[j]? with
    | none => rfl
    | some w => simp only [Option.map_some, Vehicle.checkCollisionV_m, List.map_set]

theorem collideVO_m (v : Vehicle) (os : List RoadObject) :
    collideVO v.mirror (os.map RoadObject.mirror) =
      ((collideVO v os).1.mirror, (collideVO v os).2.map RoadObject.mirror) := by
  induction os generalizing v with
  | nil => rfl
  | cons o os ih => simp only [List.map_cons, collideVO, Vehicle.checkCollisionO_m, ih]

/-- Both lists of a collision pass reflected. -/
def mBoth (st : List Vehicle × List RoadObject) : List Vehicle × List RoadObject :=
  (st.1.map Vehicle.mirror, st.2.map RoadObject.mirror)

theorem collideOne_m (st : List Vehicle × List RoadObject) (i : ℕ) : collideOne (mBoth st) i = mBoth (collideOne st i) := by
  unfold collideOne
  have h : (List.range (mBoth st).1.length).foldl (collideVV i) (mBoth st).1 =
      ((List.range st.1.length).foldl (collideVV i) st.1).map Vehicle.mirror := by
    unfold mBoth
    rw [List.length_map]
    exact foldl_equiv (List.map Vehicle.mirror) _ _ (fun s a => collideVV_m i s a) _ _
  rw [h]
  simp only [List.getElem?_map]
  generalize (List.range st.1.length).foldl (collideVV i) st.1 = vs
  cases vs[i]? with
  | none => rfl
  | some v =>
    have := collideVO_m v st.2
    simp only [Option.map_some]
    unfold mBoth
    simp only [this, List.map_set]

theorem collidePass_m (vs : List Vehicle) (os : List RoadObject) :
    collidePass (vs.map Vehicle.mirror) (os.map RoadObject.mirror) = mBoth (collidePass vs os) := by
  unfold collidePass
  rw [List.length_map]
  exact foldl_equiv (mBoth) _ _ collideOne_m _ (vs, os)

end Road
end HighwayEnv
