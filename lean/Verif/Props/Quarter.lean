import Verif.Lemmas.Quarter
import Verif.Lemmas.Num
import Verif.Lemmas.Level
import Verif.Props.EnvSafe
import Verif.Props.Utils

/-!
# C119 — turning the whole world by 90° does not change the simulation
-/

noncomputable section
open Classical
namespace HighwayEnv.Props
open HighwayEnv Spec

private theorem road_in {r : Road} {L : Set Lane} {P : Set Vec2} (hL : ∀ l, LaneOf r l → l ∈ L) (hP : ∀ p, Occupied r p → p ∈ P) : RIn P L r :=
  ⟨fun nd hnd ml hml l hl => hL l (.inl ⟨nd, hnd, ml, hml, hl⟩), fun v hv => ⟨hP _ (.inl ⟨v, hv, rfl⟩), hL _ (.inr ⟨v, hv, rfl⟩)⟩,
    fun o ho => hP _ (.inr ⟨o, ho, rfl⟩)⟩

private theorem frame_q {P : Set Vec2} {L : Set Lane} (hPL : ∀ l ∈ L, ∀ p ∈ P, HasPlace l p) {G : Globals} {dt : ℝ} {r r' : Road}
    {cmds : List (ℕ × VAction)} (hr : RIn P L r) (hn : ∀ v ∈ r'.vehicles, v.pos ∈ P) (h : frame G dt r cmds = .ok r') :
    frame G dt r.quarter cmds = .ok r'.quarter := by
  unfold frame at h
  obtain ⟨s1, h1, h⟩ := bind_ok h
  obtain ⟨s2, h2, h⟩ := bind_ok h
  have i1 := Road.commands_in hr h1
  have i2 := Road.act_in i1 h2
  unfold frame
  have e1 := Road.commands_q hPL G cmds hr
  rw [h1] at e1
  have e2 := Road.act_q hPL G i1
  rw [h2] at e2
  rw [e1]
  show (do let r ← s1.quarter.act G; r.step dt) = _
  rw [e2]
  exact Road.step_q hPL i2 h hn

/-- **C119, one frame.** If a frame of the simulation leads from `r` to `r'`, and everything on these two roads has a place along all
lanes, then the same frame, with the same commands, leads from the turned `r` to the turned `r'`. -/
theorem turned_frame (G : Globals) (dt : ℝ) (r r' : Road) (cmds : List (ℕ × VAction)) (h : frame G dt r cmds = .ok r')
    (hp : ∀ l p, LaneOf r l → Occupied r p ∨ Occupied r' p → HasPlace l p) : frame G dt r.quarter cmds = .ok r'.quarter :=
  frame_q (P := {p | Occupied r p ∨ Occupied r' p}) (L := {l | LaneOf r l}) (fun l hl p hpp => hp l p hl hpp)
    (road_in (fun _ h => h) fun _ h => .inl h) (fun v hv => .inr (.inl ⟨v, hv, rfl⟩)) h

/-- **C119.** Let a road be simulated for `n` frames, with any commands. If everything that is ever on the road has a place along the
lanes, the turned road, given the same commands, goes through exactly the turned states: same decisions, crashes, speeds, lanes and
random draws, positions and headings turned by 90°. -/
theorem turned_world (G : Globals) (dt : ℝ) (n : ℕ) (s : ℕ → Road) (cmds : ℕ → List (ℕ × VAction))
    (h : ∀ t < n, frame G dt (s t) (cmds t) = .ok (s (t + 1)))
    (hp : ∀ t < n, ∀ l p, LaneOf (s t) l → Occupied (s t) p ∨ Occupied (s (t + 1)) p → HasPlace l p) :
    ∀ t < n, frame G dt (s t).quarter (cmds t) = .ok (s (t + 1)).quarter :=
  fun t ht => turned_frame G dt _ _ _ (h t ht) (hp t ht)

/-- **C119, a condition on the first state only.** The frame turns with the world whenever everything on the road has a place along the
lanes and every vehicle, none of which is a bicycle, is further from the centre of each circular lane than it moves in a frame. -/
theorem turned_far (G : Globals) (dt : ℝ) (r r' : Road) (cmds : List (ℕ × VAction)) (h : frame G dt r cmds = .ok r')
    (hp : Placeable r) (hk : ∀ v ∈ r.vehicles, v.kind ≠ .bicycle)
    (hfar : ∀ l c rad p0 p1 cw, LaneOf r l → l.shape = .circular c rad p0 p1 cw → ∀ v ∈ r.vehicles, |v.speed| * |dt| < (v.pos - c).norm) :
    frame G dt r.quarter cmds = .ok r'.quarter := by
  refine turned_frame G dt r r' cmds h fun l p hl hpp => ?_
  rcases hpp with hpp | hpp
  · exact hp l p hl hpp
  unfold frame at h
  obtain ⟨s1, h1, h⟩ := bind_ok h
  obtain ⟨s2, h2, h⟩ := bind_ok h
  have b1 : Pointwise SameBody r.vehicles s1.vehicles ∧ Road.SameScene r s1 := by
    refine Vehicle.foldlM_rel (R := fun r r' : Road => Pointwise SameBody r.vehicles r'.vehicles ∧ Road.SameScene r r') ?_ ?_ ?_ _ _ _ h1
    · exact fun b => ⟨.refl' SameBody.refl _, rfl, rfl, rfl, rfl, rfl⟩
    · exact fun a b c h1 h2 => ⟨Pointwise.comp (R := SameBody) SameBody.trans h1.1 h2.1, h1.2.trans h2.2⟩
    · exact fun b a b' h => Road.actAt_frame h
  have b2 := Road.act_frame h2
  have hb : Pointwise SameBody r.vehicles s2.vehicles := Pointwise.comp (R := SameBody) SameBody.trans b1.1 b2.1
  have hs := b1.2.trans b2.2
  obtain ⟨f1, -, -, -, -, f2⟩ := Road.step_frame h
  rcases hpp with ⟨w, hw, rfl⟩ | ⟨o, ho, rfl⟩
  · obtain ⟨i, hi⟩ := List.getElem?_of_mem hw
    have hlt2 : i < s2.vehicles.length := by
      rw [← f1.1]; exact (List.getElem?_eq_some_iff.1 hi).1
    have hlt : i < r.vehicles.length := by rw [← hb.1]; exact hlt2
    obtain ⟨u, hu, hbody⟩ := hb.2 i _ (List.getElem?_eq_getElem hlt)
    obtain ⟨w', hw', y, hy, x, hx, b, c, rfl, -⟩ := f1.2 i u hu
    rw [hi] at hw'
    cases hw'
    have hv := List.getElem_mem hlt
    generalize r.vehicles[i] = v at hv hbody
    have hy' := SameBody.trans hbody hy.body
    cases hsh : l.shape with
    | circular c0 rad p0 p1 cw =>
      unfold HasPlace
      rw [hsh]
      dsimp only
      intro hc
      obtain ⟨β, -, -, -, -, hd, -⟩ := step_displacement _ _ _ _ _ (by rw [hy'.kind]; exact hk v hv) hx
      have hf := hfar l c0 rad p0 p1 cw hl hsh v hv
      have e : (v.pos - c0).norm = |v.speed| * |dt| := by
        rw [← hy'.speed, ← hd, hy'.pos]
        show _ = (x.pos - v.pos).norm
        have hc' : x.pos = c0 := hc
        rw [hc']
        unfold Vec2.norm
        congr 1
        simp only [Vec2.sub_x, Vec2.sub_y]
        ring
      linarith
    | straight a b =>
      have := hp l v.pos hl (.inl ⟨v, hv, rfl⟩)
      unfold HasPlace at this ⊢
      rw [hsh] at this ⊢
      exact this
    | sine a b amp ww ph =>
      have := hp l v.pos hl (.inl ⟨v, hv, rfl⟩)
      unfold HasPlace at this ⊢
      rw [hsh] at this ⊢
      exact this
  · have key : ∀ os os' : List RoadObject, List.Forall₂ Road.Marked os os' → ∀ o ∈ os', ∃ o0 ∈ os, o0.pos = o.pos := by
      intro os os' hf
      induction hf with
      | nil => exact fun o ho => by cases ho
      | cons hm _ ih =>
        intro o ho
        rcases List.mem_cons.1 ho with rfl | ho
        · obtain ⟨b, rfl, -⟩ := hm
          exact ⟨_, .head _, rfl⟩
        · obtain ⟨o0, h0, e⟩ := ih o ho
          exact ⟨o0, .tail _ h0, e⟩
    obtain ⟨o0, h0, e⟩ := key _ _ f2 o ho
    rw [← e]
    exact hp l _ hl (.inr ⟨o0, by rw [← hs.objects]; exact h0, rfl⟩)

private theorem step_lane {L : Set Lane} {r r' : Road} {dt : ℝ} (hr : RIn Set.univ L r) (h : r.step dt = .ok r') : RIn Set.univ L r' := by
  obtain ⟨h1, h2, -⟩ := Road.step_frame h
  refine ⟨by rw [h2]; exact hr.lanes, fun w hw => ⟨trivial, ?_⟩, fun _ _ => trivial⟩
  obtain ⟨i, hi⟩ := List.getElem?_of_mem hw
  have hlt : i < r.vehicles.length := by
    rw [← h1.1]; exact (List.getElem?_eq_some_iff.1 hi).1
  obtain ⟨w', hw', u, -, x, hx, b, c, rfl, -⟩ := h1.2 i _ (List.getElem?_eq_getElem hlt)
  rw [hi] at hw'
  cases hw'
  obtain ⟨j, l, hist, -, hl, rfl⟩ := Vehicle.step_ok hx
  exact Graph.getLane_in hr.lanes hl

/-- **C119, roads without circles.** If all lanes are straight or sinusoidal, from one point to another one, then any run of any length,
whatever the commands, gives in the turned world the turned final state. -/
theorem turned_without_circles (G : Globals) (dt : ℝ) (r r' : Road) (cmds : List (List (ℕ × VAction))) (h : frames G dt r cmds = .ok r')
    (hl : ∀ l, LaneOf r l → ∃ a b : Vec2, a ≠ b ∧ (l.shape = .straight a b ∨ ∃ amp w ph, l.shape = .sine a b amp w ph)) :
    frames G dt r.quarter cmds = .ok r'.quarter := by
  have hPL : ∀ l ∈ {l : Lane | ∀ p, HasPlace l p}, ∀ p ∈ (Set.univ : Set Vec2), HasPlace l p := fun l hl p _ => hl p
  have hr : RIn Set.univ {l : Lane | ∀ p, HasPlace l p} r := by
    refine road_in (fun l h p => ?_) fun _ _ => trivial
    obtain ⟨a, b, hab, e | ⟨amp, w, ph, e⟩⟩ := hl l h <;> (unfold HasPlace; rw [e]; exact hab)
  clear hl
  unfold frames at h ⊢
  induction cmds generalizing r with
  | nil => cases h; rfl
  | cons c cs ih =>
    rw [List.foldlM_cons] at h
    obtain ⟨s, hs, h⟩ := bind_ok h
    rw [List.foldlM_cons, frame_q hPL hr (fun _ _ => trivial) hs]
    refine ih s h ?_
    unfold frame at hs
    obtain ⟨s1, h1, hs⟩ := bind_ok hs
    obtain ⟨s2, h2, hs⟩ := bind_ok hs
    exact step_lane (Road.act_in (Road.commands_in hr h1) h2) hs

/-- **C119.** What a user reads off the turned road: as many vehicles, each with the same speed, lane, target, controls and crash flag, at
the turned position, looking 90° further. -/
theorem turned_vehicles (r : Road) : r.quarter.vehicles.length = r.vehicles.length ∧
    ∀ (i : ℕ) (v : Vehicle), r.vehicles[i]? = some v → ∃ w, r.quarter.vehicles[i]? = some w ∧ w.pos = ⟨-v.pos.y, v.pos.x⟩ ∧
      w.heading = v.heading + Real.pi / 2 ∧ w.speed = v.speed ∧ w.laneIndex = v.laneIndex ∧ w.crashed = v.crashed ∧
      w.targetLane = v.targetLane ∧ w.targetSpeed = v.targetSpeed ∧ w.steering = v.steering ∧ w.acceleration = v.acceleration :=
  ⟨by simp, fun i v hv => ⟨v.quarter, by simp [hv], rfl, rfl, rfl, rfl, rfl, rfl, rfl, rfl, rfl⟩⟩

/-- **C119, why the centre of a circle is excluded.** At the centre of a circular lane the turned world is not the same: the longitudinal
coordinate is 0 in one world and −5π in the other one, because `arctan2(0, 0)` is 0 in both. -/
theorem turned_centre : ∃ l : Lane, (l.localCoordinates ⟨0, 0⟩).1 = 0 ∧
    (l.quarter.localCoordinates (Vec2.quarter ⟨0, 0⟩)).1 = -(5 * Real.pi) := by
  have hpi := Real.pi_pos
  have e : arctan2 0 0 = 0 := Complex.arg_zero
  refine ⟨{ shape := .circular ⟨0, 0⟩ 10 0 1 true }, ?_, ?_⟩
  · simp [Lane.localCoordinates, e, wrap_zero]
  · have hw : wrapToPi (-(Real.pi / 2)) = -(Real.pi / 2) := wrapToPi_of_mem (by linarith) (by linarith)
    simp [Lane.localCoordinates, Lane.quarter, LaneShape.quarter, Vec2.quarter, e, hw, Lane.circDir]
    ring

private theorem rot_eighth (c p : Vec2) : Vec2.rot (Real.pi / 4) (c + Vec2.rot (Real.pi / 4) p) =
    ⟨√2 / 2 * (c.x - c.y) - p.y, √2 / 2 * (c.x + c.y) + p.x⟩ := by
  have h : √2 * √2 = 2 := Real.mul_self_sqrt (by norm_num)
  unfold Vec2.rot
  rw [Real.cos_pi_div_four, Real.sin_pi_div_four]
  ext
  · simp only [Vec2.add_x, Vec2.add_y]
    linear_combination (-(p.y) / 2) * h
  · simp only [Vec2.add_x, Vec2.add_y]
    linear_combination (p.x / 2) * h

/-- **C119, other angles.** The claim does not hold for a turn of 45°: of two vehicles in line 4 m apart (they are 5 m long), the first
collides with the second one when they head along the first axis; turned by 45° around the first vehicle, the same pair does not. -/
theorem eighth_turn_differs :
    (Sample.car 0 .plain 0 0 20).isColliding (Sample.car 1 .plain 4 0 20).rect = true ∧
    ({ Sample.car 0 .plain 0 0 20 with heading := Real.pi / 4 } : Vehicle).isColliding
      ({ Sample.car 1 .plain 4 0 20 with heading := Real.pi / 4, pos := Vec2.rot (Real.pi / 4) ⟨4, 0⟩ } : Vehicle).rect = false := by
  have h2 : √2 * √2 = 2 := Real.mul_self_sqrt (by norm_num)
  have hq : Vec2.rot (Real.pi / 4) ⟨4, 0⟩ = ⟨2 * √2, 2 * √2⟩ := by
    unfold Vec2.rot
    rw [Real.cos_pi_div_four, Real.sin_pi_div_four]
    ext <;> simp <;> ring
  constructor
  · unfold Vehicle.isColliding
    rw [if_neg]
    · unfold rotatedRectanglesIntersect
      rw [Bool.or_eq_true]
      left
      unfold hasCornerInside
      rw [List.any_eq_true]
      refine ⟨⟨9 / 10 * 5 / 2, 0⟩, by simp [samplePoints, Vehicle.rect, Vehicle.LENGTH], ?_⟩
      unfold pointInRotatedRectangle pointInRectangle
      rw [decide_eq_true_eq]
      simp only [Vehicle.rect, Sample.car, Vec2.rot, Vehicle.LENGTH, Vehicle.WIDTH]
      norm_num
    · have : √((4 : ℝ) ^ 2) = 4 := by rw [Real.sqrt_sq (by norm_num)]
      simp [Vehicle.rect, Sample.car, Vec2.norm, Vehicle.LENGTH, this]
      norm_num
  · unfold Vehicle.isColliding
    by_cases hc : ((({ Sample.car 1 .plain 4 0 20 with heading := Real.pi / 4, pos := Vec2.rot (Real.pi / 4) ⟨4, 0⟩ } : Vehicle).rect).center -
      ({ Sample.car 0 .plain 0 0 20 with heading := Real.pi / 4 } : Vehicle).pos).norm > Vehicle.LENGTH
    · rw [if_pos hc]
    rw [if_neg hc]
    unfold rotatedRectanglesIntersect
    rw [Bool.or_eq_false_iff]
    constructor
    · unfold hasCornerInside
      rw [List.any_eq_false]
      intro p hpm
      unfold pointInRotatedRectangle
      dsimp only
      show ¬ pointInRectangle (Vec2.rot (Real.pi / 4) ((⟨0, 0⟩ : Vec2) + Vec2.rot (Real.pi / 4) p - Vec2.rot (Real.pi / 4) ⟨4, 0⟩)) _ _ = true
      rw [hq, show (⟨0, 0⟩ : Vec2) + Vec2.rot (Real.pi / 4) p - ⟨2 * √2, 2 * √2⟩ = ⟨-(2 * √2), -(2 * √2)⟩ + Vec2.rot (Real.pi / 4) p by
        ext <;> simp <;> ring, rot_eighth]
      unfold pointInRectangle
      rw [decide_eq_true_eq]
      rintro ⟨_, _, h3, h4⟩
      have e : √2 / 2 * (-(2 * √2) + -(2 * √2)) = -4 := by linear_combination (-2) * h2
      dsimp only at h3 h4
      rw [e] at h3 h4
      simp only [Vehicle.rect, Vehicle.WIDTH] at h3 h4
      simp only [samplePoints, Vehicle.rect, Vehicle.LENGTH, Vehicle.WIDTH, List.mem_cons, List.not_mem_nil, or_false] at hpm
      rcases hpm with h | h | h | h | h | h | h | h | h <;> subst h <;> first | (norm_num at h3; done) | (norm_num at h4; done)
    · unfold hasCornerInside
      rw [List.any_eq_false]
      intro p hpm
      unfold pointInRotatedRectangle
      dsimp only
      show ¬ pointInRectangle (Vec2.rot (Real.pi / 4) (Vec2.rot (Real.pi / 4) ⟨4, 0⟩ + Vec2.rot (Real.pi / 4) p - (⟨0, 0⟩ : Vec2))) _ _ = true
      rw [hq, show (⟨2 * √2, 2 * √2⟩ : Vec2) + Vec2.rot (Real.pi / 4) p - ⟨0, 0⟩ = ⟨2 * √2, 2 * √2⟩ + Vec2.rot (Real.pi / 4) p by
        ext <;> simp, rot_eighth]
      unfold pointInRectangle
      rw [decide_eq_true_eq]
      rintro ⟨_, _, h3, h4⟩
      have e : √2 / 2 * (2 * √2 + 2 * √2) = 4 := by linear_combination 2 * h2
      dsimp only at h3 h4
      rw [e] at h3 h4
      simp only [Vehicle.rect, Vehicle.WIDTH] at h3 h4
      simp only [samplePoints, Vehicle.rect, Vehicle.LENGTH, Vehicle.WIDTH, List.mem_cons, List.not_mem_nil, or_false] at hpm
      rcases hpm with h | h | h | h | h | h | h | h | h <;> subst h <;> first | (norm_num at h3; done) | (norm_num at h4; done)

/-- Non-vacuity of C119: the regulated sample road with a discrete-action vehicle behind a traffic vehicle, driven for a frame with a
lane change, runs, and the turned road goes to the turned state. -/
example : ∃ r', frames {} (1 / 15) sampleEnv.road [[(0, .laneRight)]] = .ok r' ∧
    frames {} (1 / 15) sampleEnv.road.quarter [[(0, .laneRight)]] = .ok r'.quarter := by
  have h0 : Healthy sampleEnv.road := sample_healthy true
  obtain ⟨r1, h1⟩ := (never_raises {} _ _ h0 (.refl _)).1 0 (Sample.car 0 .mdp 10 0 20) .laneRight rfl (.inl rfl)
  have hr1 : RoadRun {} sampleEnv.road r1 := .tail (.refl _) (.actAt 0 .laneRight h1)
  obtain ⟨r2, h2⟩ := (never_raises {} _ _ h0 hr1).2.1
  have hr2 : RoadRun {} sampleEnv.road r2 := .tail hr1 (.act h2)
  obtain ⟨r3, h3⟩ := (never_raises {} _ _ h0 hr2).2.2 (1 / 15) (fun _ => ⟨by norm_num, by norm_num⟩)
  have h : frames {} (1 / 15) sampleEnv.road [[(0, .laneRight)]] = .ok r3 := by
    simp only [frames, frame, List.foldlM_cons, List.foldlM_nil, bind, Except.bind, pure, Except.pure, h1, h2, h3]
  refine ⟨r3, h, turned_without_circles _ _ _ _ _ h fun l hl => ?_⟩
  have hs : ∃ k, l = Sample.lane k := by
    rcases hl with ⟨nd, hnd, ml, hml, hl⟩ | ⟨v, hv, rfl⟩
    · simp only [sampleEnv, Sample.net, List.mem_cons, List.not_mem_nil, or_false] at hnd
      subst hnd
      simp only [List.mem_cons, List.not_mem_nil, or_false] at hml
      subst hml
      simp only [List.mem_cons, List.not_mem_nil, or_false] at hl
      rcases hl with rfl | rfl <;> exact ⟨_, rfl⟩
    · simp only [sampleEnv, List.mem_cons, List.not_mem_nil, or_false] at hv
      rcases hv with rfl | rfl <;> exact ⟨0, rfl⟩
  obtain ⟨k, rfl⟩ := hs
  refine ⟨_, _, fun he => ?_, .inl rfl⟩
  have := congrArg Vec2.x he
  norm_num at this

/-- Non-vacuity of C119 with a circle: a vehicle driving at 10 m/s around a circular lane of radius 20 m; the frame succeeds, and the
turned road goes to the turned state. -/
example : ∃ (r r' : Road), (∃ l, LaneOf r l ∧ ∃ c rad p0 p1 cw, l.shape = .circular c rad p0 p1 cw) ∧
    (∃ v ∈ r.vehicles, v.speed = 10) ∧ frame {} (1 / 15) r [(0, .faster)] = .ok r' ∧ frame {} (1 / 15) r.quarter [(0, .faster)] = .ok r'.quarter := by
  let l : Lane := { shape := .circular ⟨0, 0⟩ 20 0 3 true }
  let g : Graph := [("0", [("1", [l])])]
  let v : Vehicle := { Sample.car 0 .mdp 20 0 10 with heading := Real.pi / 2, lane := l }
  let r : Road := { network := g, rng := ⟨fun _ => 0, fun _ => 0, 0, 0⟩, vehicles := [v] }
  have hpy : IsPyGraph g := ⟨by simp [g], by simp [g]⟩
  have hwf : WellFormed g := { hpy with nonemptyNode := by simp [g], nonemptyEdge := by simp [g] }
  have hhas : HasLane g "0" "1" 0 l := ⟨[l], ⟨_, by simp [g]; rfl, by simp⟩, rfl⟩
  have h0 : Healthy r := by
    refine ⟨hwf, ?_, ?_, ?_⟩
    · intro w hw
      rcases List.mem_singleton.1 hw with rfl
      exact ⟨⟨⟨0, _, rfl, hhas⟩, Graph.getLane_of_hasLane (k := 0) hpy rfl hhas, ⟨0, _, rfl, hhas⟩⟩, by simp [RouteExists, v, Sample.car]⟩
    · simp [r, v, Sample.car, VKind.isLinear]
    · intro hc; cases hc
  obtain ⟨r1, h1⟩ := (never_raises {} _ _ h0 (.refl _)).1 0 v .faster rfl (.inl rfl)
  have hr1 : RoadRun {} r r1 := .tail (.refl _) (.actAt 0 .faster h1)
  obtain ⟨r2, h2⟩ := (never_raises {} _ _ h0 hr1).2.1
  have hr2 : RoadRun {} r r2 := .tail hr1 (.act h2)
  obtain ⟨r3, h3⟩ := (never_raises {} _ _ h0 hr2).2.2 (1 / 15) (fun _ => ⟨by norm_num, by norm_num⟩)
  have h : frame {} (1 / 15) r [(0, .faster)] = .ok r3 := by
    simp only [frame, List.foldlM_cons, List.foldlM_nil, bind, Except.bind, pure, Except.pure, h1, h2, h3]
  have hl : ∀ k, LaneOf r k → k = l := by
    rintro k (⟨nd, hnd, ml, hml, hk⟩ | ⟨w, hw, rfl⟩)
    · rcases List.mem_singleton.1 hnd with rfl
      rcases List.mem_singleton.1 hml with rfl
      exact List.mem_singleton.1 hk
    · rcases List.mem_singleton.1 hw with rfl
      rfl
  refine ⟨r, r3, ⟨l, .inl ⟨_, .head _, _, .head _, .head _⟩, _, _, _, _, _, rfl⟩, ⟨v, .head _, rfl⟩, h, turned_far _ _ _ _ _ h ?_ ?_ ?_⟩
  · rintro k p hk (⟨w, hw, rfl⟩ | ⟨o, ho, -⟩)
    · rw [hl k hk]
      rcases List.mem_singleton.1 hw with rfl
      intro he
      have := congrArg Vec2.x he
      norm_num [v, Sample.car] at this
    · cases ho
  · intro w hw
    rcases List.mem_singleton.1 hw with rfl
    exact fun hc => by cases hc
  · intro k c rad p0 p1 cw hk hsh w hw
    rw [hl k hk] at hsh
    injection hsh with hc
    rcases List.mem_singleton.1 hw with rfl
    subst hc
    have : √((20 : ℝ) ^ 2) = 20 := by rw [Real.sqrt_sq (by norm_num)]
    simp [v, Sample.car, Vec2.norm, this]
    norm_num

end HighwayEnv.Props
