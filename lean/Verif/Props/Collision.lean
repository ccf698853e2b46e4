import Verif.Lemmas.Road
import Verif.Spec.Sample
import Verif.Props.Utils
import Verif.Props.Kinematics

/-!
# Properties of collisions (C08, C09, C10) and of decisions (C72)
-/

noncomputable section
namespace HighwayEnv.Props
open Spec Classical

/-! ## C08 — crashes are permanent -/

/-- Along every history of a road (any actions, any order, any durations), a crashed vehicle stays crashed; vehicles keep their
position in the list, their identity, class and collision switch. -/
theorem crash_permanent (G : Globals) (r r' : Road) (h : RoadRun G r r') (i : ℕ) (v : Vehicle) (hv : r.vehicles[i]? = some v) :
    ∃ v', r'.vehicles[i]? = some v' ∧ (v.crashed = true → v'.crashed = true) ∧ v'.uid = v.uid ∧ v'.kind = v.kind ∧
      v'.collisionsEnabled = v.collisionsEnabled := by
  induction h with
  | refl => exact ⟨v, hv, id, rfl, rfl, rfl⟩
  | tail _ hev ih =>
    obtain ⟨u, hu, h1, h2, h3, h4⟩ := ih
    cases hev with
    | actAt j a h =>
      obtain ⟨w, hw, hb⟩ := (Road.actAt_frame h).1.2 i u hu
      exact ⟨w, hw, fun hc => hb.crashed.trans (h1 hc), hb.uid.trans h2, hb.kind.trans h3, hb.collisionsEnabled.trans h4⟩
    | act h =>
      obtain ⟨w, hw, hb⟩ := (Road.act_frame h).1.2 i u hu
      exact ⟨w, hw, fun hc => hb.crashed.trans (h1 hc), hb.uid.trans h2, hb.kind.trans h3, hb.collisionsEnabled.trans h4⟩
    | step dt h =>
      obtain ⟨w, hw, x, hx, hs⟩ := (Road.step_frame h).1.2 i u hu
      obtain ⟨m1, m2, m3, m4, _⟩ := hs.mind
      exact ⟨w, hw, fun hc => m3 (hx.body.crashed.trans (h1 hc)), (m1.trans hx.body.uid).trans h2,
        (m2.trans hx.body.kind).trans h3, (m4.trans hx.body.collisionsEnabled).trans h4⟩

/-! ## C09 — who is crashed by a collision pass -/

/-- Two vehicles' collision rectangles meet, according to the code's rectangle test. -/
def Overlap (v w : Vehicle) : Prop := rotatedRectanglesIntersect v.rect w.rect = true

/-- A vehicle's collision rectangle meets that of an object. -/
def OverlapObj (v : Vehicle) (o : RoadObject) : Prop := rotatedRectanglesIntersect v.rect o.rect = true

/-- Vehicle number `i` takes part in a collision: it is collidable and overlaps either another collidable vehicle or an
obstacle. -/
def InCollision (vs : List Vehicle) (os : List RoadObject) (i : ℕ) : Prop :=
  ∃ v, vs[i]? = some v ∧ v.collisionsEnabled = true ∧
    ((∃ j w, j ≠ i ∧ vs[j]? = some w ∧ w.collisionsEnabled = true ∧ Overlap v w) ∨
      ∃ o ∈ os, o.kind = .obstacle ∧ OverlapObj v o)

private theorem cause_iff (vs : List Vehicle) (os : List RoadObject) (i : ℕ) :
    Road.Cause vs os i ↔ InCollision vs os i := by
  unfold Road.Cause InCollision Overlap OverlapObj
  simp only [precheck_vehicles, precheck_objects]
  constructor
  · rintro ⟨v, hv, he, h⟩
    refine ⟨v, hv, he, h.imp_left ?_⟩
    rintro ⟨j, w, hj, hw, hf, h⟩
    refine ⟨j, w, hj, hw, hf, h.elim id fun h => ?_⟩
    rw [rectanglesIntersect_symm]; exact h
  · rintro ⟨v, hv, he, h⟩
    refine ⟨v, hv, he, h.imp_left ?_⟩
    rintro ⟨j, w, hj, hw, hf, h⟩
    exact ⟨j, w, hj, hw, hf, .inl h⟩

/-- The crash flags after the collision pass are exactly: those already set, and those of the vehicles taking part in a collision
(with another vehicle — then both are — or with an obstacle). -/
theorem crashed_iff (vs : List Vehicle) (os : List RoadObject) (i : ℕ) (v : Vehicle) (hv : vs[i]? = some v) :
    ∃ v', (Road.collidePass vs os).1[i]? = some v' ∧
      (v'.crashed = true ↔ v.crashed = true ∨ InCollision vs os i) := by
  obtain ⟨v', hv', s, b, e, hs, hb, hc⟩ := (Road.collidePass_evolves vs os).1.2 i v hv
  refine ⟨v', hv', ?_, ?_⟩
  · intro h
    rcases hc with hc | hc
    · left; rw [← hc]; exact h
    · right; exact (cause_iff _ _ _).1 hc.1
  · rintro (h | ⟨v0, hv0, he, h⟩)
    · rw [e]; exact hb h
    · rw [hv] at hv0; cases hv0
      have : ∃ v', (Road.collidePass vs os).1[i]? = some v' ∧ v'.crashed = true := by
        rcases h with ⟨j, w, hj, hw, hf, ho⟩ | ⟨o, ho, hk, hc⟩
        · exact Road.collidePass_crashes (Ne.symm hj) hv hw he hf (by rw [precheck_vehicles]; exact ho)
        · exact Road.collidePass_crashesO hv he ⟨o, ho, hk, by rw [precheck_objects]; exact hc⟩
      obtain ⟨v'', h1, h2⟩ := this
      rw [hv'] at h1; cases h1; exact h2

/-- A pair of distinct collidable vehicles that overlap are both crashed after the pass. -/
theorem both_crash (vs : List Vehicle) (os : List RoadObject) (i j : ℕ) (v w : Vehicle) (hij : i ≠ j) (hv : vs[i]? = some v)
    (hw : vs[j]? = some w) (he : v.collisionsEnabled = true) (hf : w.collisionsEnabled = true) (ho : Overlap v w) :
    ∃ v' w', (Road.collidePass vs os).1[i]? = some v' ∧ (Road.collidePass vs os).1[j]? = some w' ∧
      v'.crashed = true ∧ w'.crashed = true := by
  obtain ⟨v', h1, h2⟩ := crashed_iff vs os i v hv
  obtain ⟨w', h3, h4⟩ := crashed_iff vs os j w hw
  refine ⟨v', w', h1, h3, h2.2 (.inr ⟨v, hv, he, .inl ⟨j, w, Ne.symm hij, hw, hf, ho⟩⟩),
    h4.2 (.inr ⟨w, hw, hf, .inl ⟨i, v, hij, hv, he, ?_⟩⟩)⟩
  unfold Overlap; rw [rectanglesIntersect_symm]; exact ho

/-- The same through `road.step` (of a plain or regulated road): the pass is run on the moved vehicles, where on a regulated road
the right-of-way rules may first have changed speed targets and yield marks. -/
theorem step_crashed_iff (r r' : Road) (dt : ℝ) (h : r.step dt = .ok r') :
    ∃ moved : List Vehicle,
      Pointwise (fun v u => ∃ ts y t c, Vehicle.step r.network r.recordHistory dt
        { v with targetSpeed := ts, isYielding := y, yieldTimer := t, hasColor := c } = .ok u) r.vehicles moved ∧
      ∀ (i : ℕ) (v : Vehicle), r.vehicles[i]? = some v → ∃ v', r'.vehicles[i]? = some v' ∧
        (v'.crashed = true ↔ v.crashed = true ∨ InCollision moved r.objects i) := by
  obtain ⟨moved, h1, h2, h3⟩ := Road.step_moved h
  refine ⟨moved, h1.mono ?_, fun i v hv => ?_⟩
  · rintro v u ⟨_, ⟨ts, y, t, c, rfl⟩, hu⟩
    exact ⟨ts, y, t, c, hu⟩
  · obtain ⟨u, hu, v0, hv0, hstep⟩ := h1.2 i v hv
    obtain ⟨v', hv', hiff⟩ := crashed_iff moved r.objects i u hu
    refine ⟨v', by rw [h2]; exact hv', ?_⟩
    rw [hiff, (Vehicle.step_mind hstep).crashed, hv0.body.crashed]

/-! ## C10 — a collision never speeds up a vehicle -/

/-- The pass never increases an absolute speed, changes nothing else than speed and crash flag, and leaves vehicles that take part
in no collision entirely unchanged. -/
theorem collision_frame (vs : List Vehicle) (os : List RoadObject) (i : ℕ) (v : Vehicle) (hv : vs[i]? = some v) :
    ∃ v', (Road.collidePass vs os).1[i]? = some v' ∧ |v'.speed| ≤ |v.speed| ∧
      v' = { v with speed := v'.speed, crashed := v'.crashed } ∧ (¬ InCollision vs os i → v' = v) := by
  obtain ⟨v', hv', s, b, e, hs, hb, hc⟩ := (Road.collidePass_evolves vs os).1.2 i v hv
  refine ⟨v', hv', by rw [e]; exact hs, by rw [e]; rfl, fun hn => ?_⟩
  rcases hc with hc | hc
  · exact hc
  · exact absurd ((cause_iff _ _ _).1 hc.1) hn

/-- No vehicle appears or disappears, and objects change at most by being marked as hit. -/
theorem collision_frame_objects (vs : List Vehicle) (os : List RoadObject) :
    (Road.collidePass vs os).1.length = vs.length ∧
    List.Forall₂ (fun o o' => o' = { o with hit := o'.hit } ∧ (o.hit = true → o'.hit = true)) os (Road.collidePass vs os).2 := by
  refine ⟨(Road.collidePass_evolves vs os).1.1, ?_⟩
  have h : List.Forall₂ Road.Marked os (Road.collidePass vs os).2 := (Road.collidePass_evolves vs os).2
  refine h.imp ?_
  rintro o o' ⟨b, rfl, hb⟩
  exact ⟨rfl, hb⟩

/-- A vehicle that is not crashed after the pass has marked as hit every landmark it overlaps. -/
theorem landmark_hit (vs : List Vehicle) (os : List RoadObject) (i k : ℕ) (v : Vehicle) (o : RoadObject) (hv : vs[i]? = some v)
    (ho : os[k]? = some o) (hk : o.kind = .landmark) (hov : OverlapObj v o)
    (hnc : ∀ v', (Road.collidePass vs os).1[i]? = some v' → v'.crashed = false) :
    ∃ o', (Road.collidePass vs os).2[k]? = some o' ∧ o'.hit = true := by
  obtain ⟨st, a1, a2, a3, a4⟩ := Road.collidePass_split vs os (List.getElem?_eq_some_iff.1 hv).1
  have getF : ∀ {x y : List RoadObject}, Road.OsEvolves x y → ∀ (k : ℕ) (o : RoadObject), x[k]? = some o →
      ∃ o', y[k]? = some o' ∧ Road.Marked o o' := by
    intro x y hxy
    unfold Road.OsEvolves at hxy
    induction hxy with
    | nil => simp
    | cons h _ ih =>
      intro k o hk
      cases k with
      | zero => simp only [List.getElem?_cons_zero, Option.some.injEq] at hk ⊢; subst hk; exact ⟨_, rfl, h⟩
      | succ k => simpa using ih k o (by simpa using hk)
  obtain ⟨o1, ho1, b1, rfl, _⟩ := getF a2 k o ho
  have e1 := Road.foldl_collideVV_evolves (vs0 := vs) (os := os) i (List.range st.1.length) st.1 a1
  obtain ⟨u, hu, s, b, rfl, _⟩ := (a1.trans e1).2 i v hv
  have hone : Road.collideOne st i =
      (((List.range st.1.length).foldl (Road.collideVV i) st.1).set i (Road.collideVO (Road.bump v s b) st.2).1,
        (Road.collideVO (Road.bump v s b) st.2).2) := by
    unfold Road.collideOne
    dsimp only
    rw [hu]
  obtain ⟨c1, _, _, _, c5⟩ := Road.collideVO_spec (Road.bump v s b) st.2
  have hlen : i < ((List.range st.1.length).foldl (Road.collideVV i) st.1).length := (List.getElem?_eq_some_iff.1 hu).1
  obtain ⟨w, hw, s3, b3, e3, _, hb3, _⟩ := a3.2 i (Road.collideVO (Road.bump v s b) st.2).1 (by
    rw [hone]; exact List.getElem?_set_self hlen)
  have hfin := hnc w hw
  have hncr : (Road.collideVO (Road.bump v s b) st.2).1.crashed = false := by
    rcases hx : (Road.collideVO (Road.bump v s b) st.2).1.crashed
    · rfl
    · have := hb3 hx
      rw [e3] at hfin
      change b3 = false at hfin
      rw [this] at hfin; cases hfin
  obtain ⟨o2, ho2, _⟩ := getF (x := st.2) c1 k _ ho1
  have hhit := c5 hncr k _ o2 ho1 ho2 hk (by
    change v.isColliding o.rect = true
    rw [precheck_objects]; exact hov)
  obtain ⟨o3, ho3, b', rfl, hb'⟩ := getF (by rw [hone] at a4; exact a4) k o2 ho2
  exact ⟨_, ho3, hb' hhit⟩

/-! ## C72 — deciding does not move anything -/

/-- `vehicle.act(action)` never changes where the vehicle is, how fast it goes, its lane, its crash flag or its history. -/
theorem deciding_does_not_move (G : Globals) (r : Road) (v v' : Vehicle) (a : VAction) (rng' : Rng)
    (h : v.act G r a = .ok (v', rng')) :
    v'.uid = v.uid ∧ v'.kind = v.kind ∧ v'.pos = v.pos ∧ v'.heading = v.heading ∧ v'.speed = v.speed ∧
    v'.laneIndex = v.laneIndex ∧ v'.lane = v.lane ∧ v'.crashed = v.crashed ∧ v'.history = v.history := by
  have hb := Vehicle.act_body h
  exact ⟨hb.uid, hb.kind, hb.pos, hb.heading, hb.speed, hb.laneIndex, hb.lane, hb.crashed, hb.history⟩

/-- `road.act()` changes no vehicle's pose, speed or crash flag, no object and not the network. -/
theorem road_act_does_not_move (G : Globals) (r r' : Road) (h : r.act G = .ok r') :
    Pointwise (fun v v' => v'.uid = v.uid ∧ v'.kind = v.kind ∧ v'.pos = v.pos ∧ v'.heading = v.heading ∧
      v'.speed = v.speed ∧ v'.crashed = v.crashed) r.vehicles r'.vehicles ∧
    r'.objects = r.objects ∧ r'.network = r.network := by
  obtain ⟨h1, h2⟩ := Road.act_frame h
  exact ⟨h1.mono fun a b hb => ⟨hb.uid, hb.kind, hb.pos, hb.heading, hb.speed, hb.crashed⟩, h2.objects, h2.network⟩

/-! ## The hypotheses are met -/

/-- Two overlapping vehicles and a third one that overlaps none. -/
example : Overlap (Sample.car 0 .mdp 0 0 20) (Sample.car 1 .idm 1 0 20) ∧
    ¬ Overlap (Sample.car 0 .mdp 0 0 20) (Sample.car 2 .idm 10 0 20) := by
  constructor <;>
  · simp [Overlap, rotatedRectanglesIntersect, hasCornerInside, pointInRotatedRectangle, pointInRectangle, samplePoints,
      Sample.car, Vehicle.rect, Vehicle.LENGTH, Vehicle.WIDTH, Vec2.rot]
    norm_num

/-- A road on which a step of any duration succeeds exists. -/
example (dt : ℝ) (rng : Rng) (vs : List Vehicle) (os : List RoadObject) :
    ∃ r', ({ network := Sample.net, vehicles := vs, objects := os, rng := rng } : Road).step dt = .ok r' := by
  have h : ∀ v ∈ vs, ∃ w, v.step Sample.net false dt = .ok w := by
    intro v _
    obtain ⟨w, hw⟩ := drive_ok _ Sample.net_py _ _ _ _ Sample.net_has0 false dt [(v.steering, v.acceleration)] v
    unfold drive at hw
    obtain ⟨w', hw', _⟩ := bind_ok hw
    exact ⟨w', hw'⟩
  obtain ⟨ws, hws⟩ := mapM_ok _ h
  unfold Road.step Road.stepBase Road.moveAll
  simp only [Bool.false_eq_true, if_false, hws, bind, Except.bind, pure, Except.pure]
  exact ⟨_, rfl⟩

end HighwayEnv.Props
