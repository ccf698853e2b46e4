import Verif.Props.Prediction
import Verif.Props.Utils
import Verif.Props.Lane
import Verif.Props.Kinematics
import Verif.Props.NoRaise
import Verif.Spec.Attached
import Verif.Spec.IntervalVehicle
import Verif.Spec.Sample
import Verif.Spec.Run
import Verif.Lemmas.Act
import Verif.Lemmas.Collide
import Verif.Lemmas.Place
import Verif.Props.Queries

/-!
# C94: interval vehicles as objects
-/

noncomputable section
open Classical Matrix Real
namespace HighwayEnv.Props
open HighwayEnv Spec IntervalVehicle

/-! ## The worst-case collision check -/

private theorem meet_aligned (c d : Vec2) (l w l' w' : ℝ) (hl : 0 ≤ l) (hw : 0 ≤ w) (hl' : 0 ≤ l') (hw' : 0 ≤ w') :
    Meet (rectSet c l w 0) (rectSet d l' w' 0) ↔ |c.x - d.x| ≤ (l + l') / 2 ∧ |c.y - d.y| ≤ (w + w') / 2 := by
  have one : ∀ a b m n : ℝ, 0 ≤ m → 0 ≤ n → |a - b| ≤ (m + n) / 2 → ∃ x, |x - a| ≤ m / 2 ∧ |x - b| ≤ n / 2 := by
    intro a b m n hm hn h
    rw [abs_le] at h
    rcases le_total a b with hab | hab
    · refine ⟨min (a + m / 2) b, ?_, ?_⟩ <;> rw [abs_le] <;> constructor <;>
        rcases le_total (a + m / 2) b with h' | h' <;> simp only [min_eq_left h', min_eq_right h'] <;> linarith
    · refine ⟨max (a - m / 2) b, ?_, ?_⟩ <;> rw [abs_le] <;> constructor <;>
        rcases le_total (a - m / 2) b with h' | h' <;> simp only [max_eq_left h', max_eq_right h'] <;> linarith
  constructor
  · rintro ⟨p, ⟨s, t, hs, ht, hx, hy⟩, ⟨s', t', hs', ht', hx', hy'⟩⟩
    simp only [cos_zero, sin_zero, mul_one, mul_zero, sub_zero, add_zero, zero_add] at hx hy hx' hy'
    rw [abs_le] at hs ht hs' ht'
    constructor <;> rw [abs_le] <;> constructor <;> linarith
  · rintro ⟨hx, hy⟩
    obtain ⟨x, x1, x2⟩ := one _ _ _ _ hl hl' hx
    obtain ⟨y, y1, y2⟩ := one _ _ _ _ hw hw' hy
    refine ⟨⟨x, y⟩, ⟨x - c.x, y - c.y, x1, y1, by simp, by simp⟩, ⟨x - d.x, y - d.y, x2, y2, by simp, by simp⟩⟩

private theorem clamp_closest (p a b x : ℝ) (hx : a ≤ x ∧ x ≤ b) : |min (max p a) b - p| ≤ |x - p| := by
  have hab : a ≤ b := hx.1.trans hx.2
  rcases le_total p a with h | h
  · rw [max_eq_right h, min_eq_left hab, abs_of_nonneg (by linarith), abs_of_nonneg (by linarith)]; linarith
  · rw [max_eq_left h]
    rcases le_total p b with h' | h'
    · rw [min_eq_left h', sub_self, abs_zero]; exact abs_nonneg _
    · rw [min_eq_right h', abs_of_nonpos (by linarith), abs_of_nonpos (by linarith)]; linarith

private theorem couldTouch_iff (box : Itv Vec2) (w : Vehicle) (hh : w.heading = 0) (hx : box.1.x ≤ box.2.x) (hy : box.1.y ≤ box.2.y) :
    CouldTouch box 0 w ↔ |min (max w.pos.x box.1.x) box.2.x - w.pos.x| ≤ 19 / 4 ∧ |min (max w.pos.y box.1.y) box.2.y - w.pos.y| ≤ 19 / 10 := by
  unfold CouldTouch
  rw [hh]
  constructor
  · rintro ⟨p, ⟨hpx, hpy⟩, hm⟩
    rw [meet_aligned _ _ _ _ _ _ (by norm_num) (by norm_num) (by norm_num) (by norm_num)] at hm
    exact ⟨(clamp_closest _ _ _ _ hpx).trans (hm.1.trans (by norm_num)), (clamp_closest _ _ _ _ hpy).trans (hm.2.trans (by norm_num))⟩
  · rintro ⟨h1, h2⟩
    refine ⟨⟨min (max w.pos.x box.1.x) box.2.x, min (max w.pos.y box.1.y) box.2.y⟩, ⟨⟨?_, min_le_right _ _⟩, ⟨?_, min_le_right _ _⟩⟩, ?_⟩
    · exact le_min (le_max_right _ _) hx
    · exact le_min (le_max_right _ _) hy
    · rw [meet_aligned _ _ _ _ _ _ (by norm_num) (by norm_num) (by norm_num) (by norm_num)]
      exact ⟨h1.trans (by norm_num), h2.trans (by norm_num)⟩

/-- **C94, worst case.**  For a vehicle and an agent that both head along the x axis, the check reports a collision (both crash, and go on with the smaller speed) exactly if
some position of the interval would make them touch; otherwise it changes nothing. -/
theorem worst_case_exact (s : IntervalVehicle) (w : Vehicle) (hw : w.kind = .mdp) (he : s.v.collisionsEnabled = true) (hc : s.v.crashed = false)
    (hs : s.v.heading = 0) (hh : w.heading = 0) (hx : s.interval.position.1.x ≤ s.interval.position.2.x)
    (hy : s.interval.position.1.y ≤ s.interval.position.2.y) :
    (CouldTouch s.interval.position 0 w →
      s.checkCollision w = ({ s with v := { s.v with speed := min s.v.speed w.speed, crashed := true } }, { w with speed := min s.v.speed w.speed, crashed := true })) ∧
    (¬ CouldTouch s.interval.position 0 w → s.checkCollision w = (s, w)) := by
  rw [couldTouch_iff _ _ hh hx hy]
  have hrect : rotatedRectanglesIntersect ⟨projection s.interval w.pos, Vehicle.LENGTH, Vehicle.WIDTH, s.v.heading⟩ w.rect = true ↔
      |min (max w.pos.x s.interval.position.1.x) s.interval.position.2.x - w.pos.x| ≤ 19 / 4 ∧
      |min (max w.pos.y s.interval.position.1.y) s.interval.position.2.y - w.pos.y| ≤ 19 / 10 := by
    rw [rectanglesIntersect_aligned_exact _ _ (by norm_num [Vehicle.LENGTH]) (by norm_num [Vehicle.WIDTH]) (by norm_num [Vehicle.rect, Vehicle.LENGTH])
      (by norm_num [Vehicle.rect, Vehicle.WIDTH]) hs hh (.inr ⟨by norm_num [Vehicle.rect, Vehicle.LENGTH], by norm_num [Vehicle.rect, Vehicle.WIDTH]⟩)]
    unfold Rect.pts
    rw [show (Vehicle.rect w).angle = 0 from hh]
    dsimp only
    rw [hs, meet_aligned _ _ _ _ _ _ (by norm_num [Vehicle.LENGTH]) (by norm_num [Vehicle.WIDTH]) (by norm_num [Vehicle.rect, Vehicle.LENGTH])
      (by norm_num [Vehicle.rect, Vehicle.WIDTH])]
    norm_num [projection, Vehicle.rect, Vehicle.LENGTH, Vehicle.WIDTH]
  have hpre : |min (max w.pos.x s.interval.position.1.x) s.interval.position.2.x - w.pos.x| ≤ 19 / 4 ∧
      |min (max w.pos.y s.interval.position.1.y) s.interval.position.2.y - w.pos.y| ≤ 19 / 10 →
      pointInRectangle w.pos (s.interval.position.1 - ⟨Vehicle.LENGTH, Vehicle.LENGTH⟩) (s.interval.position.2 + ⟨Vehicle.LENGTH, Vehicle.LENGTH⟩) = true := by
    rintro ⟨h1, h2⟩
    unfold pointInRectangle
    apply decide_eq_true
    simp only [Vec2.sub_x, Vec2.sub_y, Vec2.add_x, Vec2.add_y, Vehicle.LENGTH]
    rw [abs_le] at h1 h2
    have a1 : min (max w.pos.x s.interval.position.1.x) s.interval.position.2.x ≤ s.interval.position.2.x := min_le_right _ _
    have a2 : s.interval.position.1.x ≤ min (max w.pos.x s.interval.position.1.x) s.interval.position.2.x := le_min (le_max_right _ _) hx
    have a3 : min (max w.pos.y s.interval.position.1.y) s.interval.position.2.y ≤ s.interval.position.2.y := min_le_right _ _
    have a4 : s.interval.position.1.y ≤ min (max w.pos.y s.interval.position.1.y) s.interval.position.2.y := le_min (le_max_right _ _) hy
    refine ⟨?_, ?_, ?_, ?_⟩ <;> linarith
  have hen : (!s.v.collisionsEnabled || s.v.crashed) = false := by simp [he, hc]
  constructor
  · intro h
    unfold checkCollision
    rw [if_neg (by simp [hw]), if_neg (by simp [hen]), if_neg (by simp [hpre h]), if_pos (hrect.2 h)]
  · intro h
    unfold checkCollision
    rw [if_neg (by simp [hw]), if_neg (by simp [hen])]
    split
    · rfl
    · rw [if_neg (fun h' => h (hrect.1 h'))]

/-- **C94, robustness.**  In the same situation: wherever the vehicle may be within its interval, if the ordinary check would report a collision there, the worst-case check
reports one. -/
theorem worst_case_covers (s : IntervalVehicle) (w : Vehicle) (hw : w.kind = .mdp) (he : s.v.collisionsEnabled = true) (hc : s.v.crashed = false)
    (hs : s.v.heading = 0) (hh : w.heading = 0) (p : Vec2) (hp : InBox p s.interval.position)
    (hcol : ({ s.v with pos := p } : Vehicle).isColliding w.rect = true) :
    (s.checkCollision w).1.v.crashed = true ∧ (s.checkCollision w).2.crashed = true := by
  have hx := hp.1.1.trans hp.1.2
  have hy := hp.2.1.trans hp.2.2
  have : CouldTouch s.interval.position 0 w := by
    refine ⟨p, hp, ?_⟩
    unfold Vehicle.isColliding at hcol
    split at hcol
    · cases hcol
    · rw [rectanglesIntersect_aligned_exact _ _ (by norm_num [Vehicle.rect, Vehicle.LENGTH]) (by norm_num [Vehicle.rect, Vehicle.WIDTH]) (by norm_num [Vehicle.rect, Vehicle.LENGTH])
        (by norm_num [Vehicle.rect, Vehicle.WIDTH]) hs hh (.inr ⟨by norm_num [Vehicle.rect, Vehicle.LENGTH], by norm_num [Vehicle.rect, Vehicle.WIDTH]⟩)] at hcol
      unfold Rect.pts at hcol
      rw [show (Vehicle.rect w).angle = 0 from hh, show (Vehicle.rect { s.v with pos := p }).angle = 0 from hs,
        meet_aligned _ _ _ _ _ _ (by norm_num [Vehicle.rect, Vehicle.LENGTH]) (by norm_num [Vehicle.rect, Vehicle.WIDTH]) (by norm_num [Vehicle.rect, Vehicle.LENGTH])
        (by norm_num [Vehicle.rect, Vehicle.WIDTH])] at hcol
      rw [hh, meet_aligned _ _ _ _ _ _ (by norm_num) (by norm_num) (by norm_num) (by norm_num)]
      obtain ⟨h1, h2⟩ := hcol
      norm_num [Vehicle.rect, Vehicle.LENGTH, Vehicle.WIDTH] at h1 h2
      exact ⟨h1.trans (by norm_num), h2.trans (by norm_num)⟩
  rw [(worst_case_exact s w hw he hc hs hh hx hy).1 this]
  exact ⟨rfl, rfl⟩

/-- The interval of the car is ±10 m along the road; it meets the hypotheses, and an agent 12 m ahead is hit. -/
def _root_.HighwayEnv.Sample.blurred : IntervalVehicle :=
  { v := Sample.car 1 .linear 0 0 20, thetaA := accelerationRange, thetaB := steeringRange, data := none
    interval := ⟨(⟨-10, 0⟩, ⟨10, 0⟩), (20, 20), (0, 0)⟩, previousTarget := ⟨"0", "1", 0⟩ }

example : (Sample.blurred.checkCollision (Sample.car 0 .mdp 12 0 25)).1.v.crashed = true ∧ (Sample.blurred.checkCollision (Sample.car 0 .mdp 12 0 25)).2.speed = 20 := by
  have h : CouldTouch Sample.blurred.interval.position 0 (Sample.car 0 .mdp 12 0 25) := by
    rw [couldTouch_iff _ _ rfl (by norm_num [Sample.blurred]) (by norm_num [Sample.blurred])]
    norm_num [Sample.blurred, Sample.car]
  rw [(worst_case_exact Sample.blurred _ rfl rfl rfl rfl rfl (by norm_num [Sample.blurred]) (by norm_num [Sample.blurred])).1 h]
  refine ⟨rfl, ?_⟩
  show min (20 : ℝ) 25 = 20
  norm_num

private theorem rot_quarter (c d p : Vec2) : Vec2.rot (π / 4) (c + Vec2.rot (π / 4) p - d) =
    ⟨√2 / 2 * ((c.x - d.x) - (c.y - d.y)) - p.y, √2 / 2 * ((c.x - d.x) + (c.y - d.y)) + p.x⟩ := by
  have h : √2 * √2 = 2 := Real.mul_self_sqrt (by norm_num)
  unfold Vec2.rot
  rw [cos_pi_div_four, sin_pi_div_four]
  ext
  · simp only [Vec2.sub_x, Vec2.sub_y, Vec2.add_x, Vec2.add_y]
    linear_combination (-(p.y) / 2) * h
  · simp only [Vec2.sub_x, Vec2.sub_y, Vec2.add_x, Vec2.add_y]
    linear_combination (p.x / 2) * h

/-- **C94, the worst case is not found for oblique headings.**  Both vehicles head 45° to the axes.  At one end of its interval the vehicle collides with the agent, according
to the ordinary check as well as in the plane, but the worst-case check, which only looks at the closest point of the interval, reports nothing. -/
theorem worst_case_misses : ∃ (s : IntervalVehicle) (w : Vehicle) (p : Vec2), w.kind = .mdp ∧ s.v.collisionsEnabled = true ∧ s.v.crashed = false ∧
    InBox p s.interval.position ∧ InBox s.v.pos s.interval.position ∧ ({ s.v with pos := p } : Vehicle).isColliding w.rect = true ∧
    Meet (rectSet p (9 / 2) (9 / 5) s.v.heading) (rectSet w.pos (9 / 2) (9 / 5) w.heading) ∧ s.checkCollision w = (s, w) := by
  have h2 : √2 * √2 = 2 := Real.mul_self_sqrt (by norm_num)
  have hp : 0 < √2 := by positivity
  set d : ℝ := 11 / 10 * √2 with hd
  let s : IntervalVehicle :=
    { v := { Sample.car 1 .linear 0 0 20 with heading := π / 4 }, thetaA := accelerationRange, thetaB := steeringRange, data := none
      interval := ⟨(⟨0, -d⟩, ⟨0, 0⟩), (20, 20), (π / 4, π / 4)⟩, previousTarget := ⟨"0", "1", 0⟩ }
  let w : Vehicle := { Sample.car 0 .mdp d 0 20 with heading := π / 4 }
  have hd0 : 0 < d := by positivity
  have hd5 : d < 5 := by
    have : √2 < 3 / 2 := by
      rw [Real.sqrt_lt' (by norm_num)]; norm_num
    rw [hd]; linarith
  have hdd : √2 / 2 * d = 11 / 10 := by rw [hd]; linear_combination (11 / 20 : ℝ) * h2
  refine ⟨s, w, ⟨0, -d⟩, rfl, rfl, rfl, ⟨⟨le_rfl, le_rfl⟩, ⟨le_rfl, ?_⟩⟩, ⟨⟨le_rfl, le_rfl⟩, ⟨?_, le_rfl⟩⟩, ?_, ?_, ?_⟩
  · show -d ≤ 0; linarith
  · show -d ≤ 0; linarith
  · unfold Vehicle.isColliding
    rw [if_neg]
    · unfold rotatedRectanglesIntersect
      rw [Bool.or_eq_true]
      left
      unfold hasCornerInside
      rw [List.any_eq_true]
      refine ⟨⟨9 / 4, 0⟩, List.mem_cons.2 (.inr (List.mem_cons.2 (.inr (List.mem_cons.2 (.inl ?_))))), ?_⟩
      · ext <;> norm_num [Vehicle.rect, Vehicle.LENGTH]
      unfold pointInRotatedRectangle
      dsimp only
      show pointInRectangle (Vec2.rot (π / 4) ((⟨0, -d⟩ : Vec2) + Vec2.rot (π / 4) ⟨9 / 4, 0⟩ - ⟨d, 0⟩)) _ _ = true
      rw [rot_quarter]
      unfold pointInRectangle
      apply decide_eq_true
      simp only [Vehicle.rect, Vehicle.LENGTH, Vehicle.WIDTH]
      have e1 : √2 / 2 * (0 - d - (-d - 0)) - 0 = 0 := by ring
      have e2 : √2 / 2 * (0 - d + (-d - 0)) + 9 / 4 = 1 / 20 := by
        have : √2 / 2 * (0 - d + (-d - 0)) = -2 * (√2 / 2 * d) := by ring
        rw [this, hdd]; norm_num
      rw [e1, e2]
      norm_num
    · show ¬ Vec2.norm _ > 5
      rw [not_lt]
      unfold Vec2.norm
      rw [Real.sqrt_le_left (by norm_num)]
      show (d - 0) ^ 2 + (0 - -d) ^ 2 ≤ 5 ^ 2
      rw [hd]
      nlinarith
  · refine ⟨⟨d / 2, -(d / 2)⟩, ⟨11 / 10, 0, by norm_num [abs_le], by norm_num, ?_, ?_⟩, ⟨-(11 / 10), 0, by norm_num [abs_le], by norm_num, ?_, ?_⟩⟩
    all_goals simp only [s, w, Sample.car, cos_pi_div_four, sin_pi_div_four]
    · rw [hd]; ring
    · rw [hd]; ring
    · rw [hd]; ring
    · rw [hd]; ring
  · unfold checkCollision
    rw [if_neg (by simp [w, Sample.car]), if_neg (by simp [s, Sample.car])]
    split
    · rfl
    · rw [if_neg]
      rw [Bool.not_eq_true]
      have hproj : projection s.interval w.pos = ⟨0, 0⟩ := by
        unfold projection
        simp only [s, w, Sample.car]
        rw [max_eq_left (by linarith : (0 : ℝ) ≤ d), min_eq_right (by linarith : (0 : ℝ) ≤ d), max_eq_left (by linarith : -d ≤ 0), min_self]
      rw [hproj]
      have e : ∀ p : Vec2, √2 / 2 * ((0 - d) + (0 - 0)) + p.x = -(11 / 10) + p.x := by
        intro p; have : √2 / 2 * ((0 - d) + (0 - 0)) = -(√2 / 2 * d) := by ring
        rw [this, hdd]
      have e' : ∀ p : Vec2, √2 / 2 * ((d - 0) + (0 - 0)) + p.x = 11 / 10 + p.x := by
        intro p; have : √2 / 2 * ((d - 0) + (0 - 0)) = √2 / 2 * d := by ring
        rw [this, hdd]
      unfold rotatedRectanglesIntersect
      rw [Bool.or_eq_false_iff]
      constructor
      · unfold hasCornerInside
        rw [List.any_eq_false]
        intro p hpm
        unfold pointInRotatedRectangle
        dsimp only
        show ¬ pointInRectangle (Vec2.rot (π / 4) ((⟨0, 0⟩ : Vec2) + Vec2.rot (π / 4) p - ⟨d, 0⟩)) _ _ = true
        rw [rot_quarter]
        unfold pointInRectangle
        rw [decide_eq_true_eq]
        dsimp only
        rw [e]
        rintro ⟨_, _, h3, h4⟩
        simp only [w, Vehicle.rect, Vehicle.WIDTH] at h3 h4
        simp only [samplePoints, Vehicle.LENGTH, Vehicle.WIDTH, List.mem_cons, List.not_mem_nil, or_false] at hpm
        rcases hpm with h | h | h | h | h | h | h | h | h <;> subst h <;> first | (norm_num at h3; done) | (norm_num at h4; done)
      · unfold hasCornerInside
        rw [List.any_eq_false]
        intro p hpm
        unfold pointInRotatedRectangle
        dsimp only
        show ¬ pointInRectangle (Vec2.rot (π / 4) ((⟨d, 0⟩ : Vec2) + Vec2.rot (π / 4) p - ⟨0, 0⟩)) _ _ = true
        rw [rot_quarter]
        unfold pointInRectangle
        rw [decide_eq_true_eq]
        dsimp only
        rw [e']
        rintro ⟨_, _, h3, h4⟩
        simp only [Vehicle.WIDTH] at h3 h4
        simp only [samplePoints, Vehicle.rect, Vehicle.LENGTH, Vehicle.WIDTH, List.mem_cons, List.not_mem_nil, or_false] at hpm
        rcases hpm with h | h | h | h | h | h | h | h | h <;> subst h <;> first | (norm_num at h3; done) | (norm_num at h4; done)

/-- **C94, the uncertainty on the heading is not considered.**  A vehicle whose heading is only known to be between 0 and π/2 would touch the agent beside it if it headed
π/2, but no collision is reported. -/
theorem worst_case_ignores_heading : ∃ (s : IntervalVehicle) (w : Vehicle) (h : ℝ), w.kind = .mdp ∧ s.v.collisionsEnabled = true ∧ s.v.crashed = false ∧
    InItv h s.interval.heading ∧ InVehicle s.v.pos s.v.speed s.v.heading s.interval ∧
    Meet (rectSet s.v.pos (9 / 2) (9 / 5) h) (rectSet w.pos (9 / 2) (9 / 5) w.heading) ∧ s.checkCollision w = (s, w) := by
  have hp := pi_pos
  let s : IntervalVehicle :=
    { v := Sample.car 1 .linear 0 0 20, thetaA := accelerationRange, thetaB := steeringRange, data := none
      interval := ⟨(⟨0, 0⟩, ⟨0, 0⟩), (20, 20), (0, π / 2)⟩, previousTarget := ⟨"0", "1", 0⟩ }
  let w : Vehicle := Sample.car 0 .mdp 0 3 20
  refine ⟨s, w, π / 2, rfl, rfl, rfl, ⟨by show (0 : ℝ) ≤ π / 2; positivity, le_rfl⟩,
    ⟨⟨⟨le_rfl, le_rfl⟩, ⟨le_rfl, le_rfl⟩⟩, ⟨le_rfl, le_rfl⟩, ⟨le_rfl, by show (0 : ℝ) ≤ π / 2; positivity⟩⟩, ?_, ?_⟩
  · refine ⟨⟨0, 11 / 5⟩, ⟨11 / 5, 0, by norm_num [abs_le], by norm_num, ?_, ?_⟩, ⟨0, -(4 / 5), by norm_num, by norm_num [abs_le], ?_, ?_⟩⟩
    all_goals norm_num [s, w, Sample.car]
  · refine (worst_case_exact s w rfl rfl rfl rfl rfl le_rfl le_rfl).2 ?_
    rw [couldTouch_iff _ _ rfl le_rfl le_rfl]
    norm_num [s, w, Sample.car]

/-- **C94, disabled collisions.**  The worst-case check crashes an agent whose collisions are disabled, which the ordinary check never does. -/
theorem worst_case_ignores_disabled : ∃ (s : IntervalVehicle) (w : Vehicle), w.kind = .mdp ∧ w.collisionsEnabled = false ∧ w.crashed = false ∧
    (s.checkCollision w).2.crashed = true ∧ s.v.checkCollisionV w = (s.v, w) := by
  let w : Vehicle := { Sample.car 0 .mdp 1 0 20 with collisionsEnabled := false }
  refine ⟨Sample.blurred, w, rfl, rfl, rfl, ?_, ?_⟩
  · rw [(worst_case_exact Sample.blurred w rfl rfl rfl rfl rfl (by norm_num [Sample.blurred]) (by norm_num [Sample.blurred])).1]
    rw [couldTouch_iff _ _ rfl (by norm_num [Sample.blurred]) (by norm_num [Sample.blurred])]
    norm_num [Sample.blurred, Sample.car, w]
  · unfold Vehicle.checkCollisionV
    rw [if_neg (by simp [Sample.blurred, Sample.car]), if_pos (by simp [w])]

/-- **C94, speed after a worst-case collision.**  The common speed is the smaller one: nobody gets faster if both drive forward, but a vehicle that drives forward at 5 m/s takes
over the 20 m/s of a reversing agent. -/
theorem worst_case_speed (s : IntervalVehicle) (w : Vehicle) (hw : w.kind = .mdp) (hs0 : 0 ≤ s.v.speed) (hw0 : 0 ≤ w.speed) :
    |(s.checkCollision w).1.v.speed| ≤ |s.v.speed| ∧ |(s.checkCollision w).2.speed| ≤ |w.speed| := by
  have key : ∀ a b : ℝ, 0 ≤ a → 0 ≤ b → |min a b| ≤ |a| ∧ |min a b| ≤ |b| := by
    intro a b ha hb
    rw [abs_of_nonneg ha, abs_of_nonneg hb, abs_of_nonneg (le_min ha hb)]
    exact ⟨min_le_left _ _, min_le_right _ _⟩
  unfold checkCollision
  rw [if_neg (by simp [hw])]
  split
  · exact ⟨le_rfl, le_rfl⟩
  · split
    · exact ⟨le_rfl, le_rfl⟩
    · split
      · exact key _ _ hs0 hw0
      · exact ⟨le_rfl, le_rfl⟩

theorem worst_case_speed_reverse : ∃ (s : IntervalVehicle) (w : Vehicle), w.kind = .mdp ∧ s.v.speed = 5 ∧ w.speed = -20 ∧ (s.checkCollision w).1.v.speed = -20 := by
  let s : IntervalVehicle := { Sample.blurred with v := Sample.car 1 .linear 0 0 5 }
  refine ⟨s, Sample.car 0 .mdp 1 0 (-20), rfl, rfl, rfl, ?_⟩
  rw [(worst_case_exact s _ rfl rfl rfl rfl rfl (by norm_num [s, Sample.blurred]) (by norm_num [s, Sample.blurred])).1]
  · show min (5 : ℝ) (-20) = -20
    norm_num
  · rw [couldTouch_iff _ _ rfl (by norm_num [s, Sample.blurred]) (by norm_num [s, Sample.blurred])]
    norm_num [s, Sample.blurred, Sample.car]

/-- **C94, other vehicles.**  With anything but an agent, the check is the ordinary one, and ignores the interval. -/
theorem ordinary_check (s : IntervalVehicle) (w : Vehicle) (hw : w.kind ≠ .mdp) :
    (s.checkCollision w).1.v = (s.v.checkCollisionV w).1 ∧ (s.checkCollision w).2 = (s.v.checkCollisionV w).2 ∧ (s.checkCollision w).1.interval = s.interval := by
  unfold checkCollision
  rw [if_pos hw]
  exact ⟨rfl, rfl, rfl⟩

/-! ## Steps -/

theorem step_parts {E : Eigs} {G : Globals} {r : Road} {others : ℕ → Option VehicleInterval} {dt : ℝ} {mode : StepMode} {s s' : IntervalVehicle}
    (h : s.step E G r others dt mode = .ok s') :
    ∃ w t, Vehicle.createFrom G r.network s.v.uid .linear s.v = .ok w ∧
      updateInterval E G r others dt mode { s with trajectory := s.trajectory ++ [w], intervals := s.intervals ++ [s.interval] } = .ok t ∧
      t.v.step r.network r.recordHistory dt = .ok s'.v ∧ s' = { t with v := s'.v } := by
  unfold IntervalVehicle.step at h
  obtain ⟨s1, h1, h'⟩ := bind_ok h
  obtain ⟨t, h2, h''⟩ := bind_ok h'
  obtain ⟨v, h3, h4⟩ := bind_ok h''
  unfold store at h1
  obtain ⟨w, h0, h5⟩ := bind_ok h1
  cases h5
  cases h4
  exact ⟨w, t, h0, h2, h3, rfl⟩

theorem update_frame {E : Eigs} {G : Globals} {r : Road} {others : ℕ → Option VehicleInterval} {dt : ℝ} {mode : StepMode} {s t : IntervalVehicle}
    (h : updateInterval E G r others dt mode s = .ok t) : t.v = s.v ∧ t.trajectory = s.trajectory ∧ t.intervals = s.intervals ∧ t.data = s.data := by
  unfold updateInterval at h
  split at h
  · cases h; exact ⟨rfl, rfl, rfl, rfl⟩
  · cases mode with
    | partial' =>
      obtain ⟨o, _, h⟩ := bind_ok h
      cases h; exact ⟨rfl, rfl, rfl, rfl⟩
    | predictor =>
      dsimp only at h
      unfold predict at h
      obtain ⟨s1, h1, h⟩ := bind_ok h
      have hs1 : s1.v = s.v ∧ s1.trajectory = s.trajectory ∧ s1.intervals = s.intervals ∧ s1.data = s.data := by
        unfold predictorInit at h1
        obtain ⟨target, _, h1⟩ := bind_ok h1
        dsimp only at h1
        cases hl : s.lon with
        | some l =>
          rw [hl] at h1
          cases h1; exact ⟨rfl, rfl, rfl, rfl⟩
        | none =>
          rw [hl] at h1
          obtain ⟨front, _, h1⟩ := bind_ok h1
          obtain ⟨fv, _, h1⟩ := bind_ok h1
          cases h1; exact ⟨rfl, rfl, rfl, rfl⟩
      cases hl : s1.lon with
      | none => rw [hl] at h; cases h
      | some lon =>
        cases hl' : s1.lat with
        | none => rw [hl, hl'] at h; cases h
        | some lat =>
          rw [hl, hl'] at h
          obtain ⟨p, _, h⟩ := bind_ok h
          obtain ⟨target, _, h⟩ := bind_ok h
          obtain ⟨q, _, h⟩ := bind_ok h
          cases h
          exact hs1
    | other => cases h; exact ⟨rfl, rfl, rfl, rfl⟩

/-- **C94, trajectories.**  After `n` steps, whatever happened between them, exactly `n` states and `n` intervals have been added, in order: the `k`-th ones are the state and
the interval that the vehicle had when its `k`-th step began. -/
theorem trajectories_stored (n : ℕ) (s0 s : IntervalVehicle) (l : List IntervalVehicle) (h : IntervalRun n s0 l s) :
    l.length = n ∧ s.intervals = s0.intervals ++ l.map IntervalVehicle.interval ∧
    ∃ ws : List Vehicle, s.trajectory = s0.trajectory ++ ws ∧
      Pointwise (fun (t : IntervalVehicle) (w : Vehicle) => w.pos = t.v.pos ∧ w.heading = t.v.heading ∧ w.speed = t.v.speed ∧ w.uid = t.v.uid ∧ w.kind = .linear) l ws := by
  induction h with
  | start s => exact ⟨rfl, by simp, [], by simp, rfl, by simp⟩
  | @step n s0 s s1 s2 l E G r others dt mode h same hs ih =>
    obtain ⟨ih1, ih2, ws, ih3, hlen, hpt⟩ := ih
    obtain ⟨w, t, h0, h1, h2, h3⟩ := step_parts hs
    obtain ⟨_, f2, f3, _⟩ := update_frame h1
    have e2 : s2.trajectory = t.trajectory := by rw [h3]
    have e3 : s2.intervals = t.intervals := by rw [h3]
    refine ⟨by simp [ih1], ?_, ws ++ [w], ?_, by simp [hlen], ?_⟩
    · rw [e3, f3, same.2, ih2]; simp
    · rw [e2, f2, same.1, ih3]; simp
    · intro i v hi
      rcases lt_or_ge i l.length with hl | hl
      · rw [List.getElem?_append_left hl] at hi
        obtain ⟨u, hu, hR⟩ := hpt i v hi
        exact ⟨u, by rw [List.getElem?_append_left (by omega)]; exact hu, hR⟩
      · rw [List.getElem?_append_right hl] at hi
        have hi0 : i - l.length = 0 := by
          by_contra hne
          rw [List.getElem?_eq_none (by simp; omega)] at hi
          cases hi
        rw [hi0] at hi
        obtain rfl : s1 = v := by simpa using hi
        refine ⟨w, by rw [List.getElem?_append_right (by omega), hlen, hi0]; rfl, ?_⟩
        unfold Vehicle.createFrom at h0
        rw [if_pos (by rfl)] at h0
        split at h0
        · unfold Vehicle.mk' at h0
          obtain ⟨i', _, h0⟩ := bind_ok h0
          obtain ⟨l', _, h0⟩ := bind_ok h0
          cases h0
          exact ⟨rfl, rfl, rfl, rfl, rfl⟩
        · cases h0

/-- **C94, crashed vehicles.**  The interval of a crashed vehicle is its exact state before the step; so, while it still rolls, its interval does not contain its state. -/
theorem crashed_interval_lags (E : Eigs) (G : Globals) (r : Road) (others : ℕ → Option VehicleInterval) (dt : ℝ) (mode : StepMode) (s s' : IntervalVehicle)
    (hc : s.v.crashed = true) (h : s.step E G r others dt mode = .ok s') :
    s'.interval = VehicleInterval.certain s.v.pos s.v.speed s.v.heading ∧
    (s.v.kind ≠ .bicycle → s.v.speed ≠ 0 → dt ≠ 0 → ¬ InBox s'.v.pos s'.interval.position) := by
  obtain ⟨w, t, h0, h1, h2, h3⟩ := step_parts h
  have ht : t = { s with trajectory := s.trajectory ++ [w], intervals := s.intervals ++ [s.interval], interval := certainOf s.v } := by
    unfold updateInterval at h1
    rw [if_pos hc] at h1
    cases h1; rfl
  have hi : s'.interval = VehicleInterval.certain s.v.pos s.v.speed s.v.heading := by rw [h3, ht]; rfl
  refine ⟨hi, fun hk hv hdt hin => ?_⟩
  have hv' : t.v = s.v := by rw [ht]
  rw [hv'] at h2
  obtain ⟨hp, _, _⟩ := step_kin hk h2
  have hst : executedSteering s.v = 0 := by unfold executedSteering; rw [if_pos hc]
  rw [hst] at hp
  rw [hi, hp] at hin
  obtain ⟨⟨x1, x2⟩, ⟨y1, y2⟩⟩ := hin
  simp only [VehicleInterval.certain, Vec2.add_x, Vec2.add_y, Vec2.smul_x, Vec2.smul_y, Vec2.dir] at x1 x2 y1 y2
  have hx : dt * (s.v.speed * cos (s.v.heading + Vehicle.slip 0)) = 0 := le_antisymm (by linarith) (by linarith)
  have hy : dt * (s.v.speed * sin (s.v.heading + Vehicle.slip 0)) = 0 := le_antisymm (by linarith) (by linarith)
  have hcs := sin_sq_add_cos_sq (s.v.heading + Vehicle.slip 0)
  have c0 : cos (s.v.heading + Vehicle.slip 0) = 0 := by simpa [hdt, hv] using hx
  have s0 : sin (s.v.heading + Vehicle.slip 0) = 0 := by simpa [hdt, hv] using hy
  rw [c0, s0] at hcs
  norm_num at hcs

private theorem product_point (a b : ℝ) : Itv.product (· * ·) (a, a) (b, b) = (a * b, a * b) := by
  have h : ∀ x : ℝ, Itv.p x - Itv.n x = x := by
    intro x
    unfold Itv.p Itv.n
    rcases le_total 0 x with hx | hx
    · rw [sup_eq_left.2 hx, sup_eq_right.2 (by linarith)]; ring
    · rw [sup_eq_right.2 hx, sup_eq_left.2 (by linarith)]; ring
  unfold Itv.product
  dsimp only
  have e : Itv.p a * Itv.p b - Itv.p a * Itv.n b - Itv.n a * Itv.p b + Itv.n a * Itv.n b = a * b := by
    have ea := h a
    have eb := h b
    linear_combination (Itv.p b - Itv.n b) * ea + a * eb
  rw [e]

private theorem cosI_point (a : ℝ) : Observer.cosI (a, a) = (cos a, cos a) := by
  unfold Observer.cosI
  dsimp only
  rw [min_self, max_self]
  congr 1
  · split
    · rename_i h; rw [le_antisymm h.1 h.2, cos_pi]
    · rfl
  · split
    · rename_i h; rw [le_antisymm h.1 h.2, cos_zero]
    · rfl

private theorem sinI_point (a : ℝ) : Observer.sinI (a, a) = (sin a, sin a) := by
  unfold Observer.sinI
  dsimp only
  rw [min_self, max_self]
  congr 1
  · split
    · rename_i h; rw [le_antisymm h.1 h.2, neg_div, sin_neg, sin_pi_div_two]
    · rfl
  · split
    · rename_i h; rw [le_antisymm h.1 h.2, sin_pi_div_two]
    · rfl

/-- **C94, degenerate intervals.**  Stepping the two halves of a certain state separately is the same as stepping the whole interval. -/
theorem partial_step_certain (o : Observer) (dt alpha : ℝ) (pos : Vec2) (speed heading : ℝ) :
    o.partialStep dt alpha (VehicleInterval.certain pos speed heading) = o.step dt (VehicleInterval.certain pos speed heading) := by
  have hm : ∀ c x : ℝ, Observer.mix c x x = x := fun c x => by unfold Observer.mix; ring
  unfold Observer.partialStep
  simp only [VehicleInterval.certain, hm, min_self, max_self]

/-- **C94, the first step.**  From a known state, the interval computed by the first step contains the position the vehicle then moves to exactly if the sideways slip changes its
velocity by at most 1 m/s along each axis (the noise allowed for by the observer). -/
theorem first_step_position (E : Eigs) (G : Globals) (r : Road) (others : ℕ → Option VehicleInterval) (dt : ℝ) (hdt : 0 < dt) (s s' : IntervalVehicle)
    (hi : s.interval = VehicleInterval.certain s.v.pos s.v.speed s.v.heading) (hc : s.v.crashed = false) (hk : s.v.kind ≠ .bicycle)
    (h : s.step E G r others dt .partial' = .ok s') :
    InBox s'.v.pos s'.interval.position ↔
      |s.v.speed * (cos (s.v.heading + Vehicle.slip s.v.steering) - cos s.v.heading)| ≤ 1 ∧
      |s.v.speed * (sin (s.v.heading + Vehicle.slip s.v.steering) - sin s.v.heading)| ≤ 1 := by
  obtain ⟨w, t, h0, h1, h2, h3⟩ := step_parts h
  have hv := (update_frame h1).1
  rw [hv] at h2
  obtain ⟨hp, _, _⟩ := step_kin hk h2
  have hst : executedSteering s.v = s.v.steering := by unfold executedSteering; rw [if_neg (by simp [hc])]
  rw [hst] at hp
  have hpos : s'.interval.position =
      (⟨s.v.pos.x + s.v.speed * cos s.v.heading * dt + 1 * dt * (-1), s.v.pos.y + s.v.speed * sin s.v.heading * dt + 1 * dt * (-1)⟩,
       ⟨s.v.pos.x + s.v.speed * cos s.v.heading * dt + 1 * dt * 1, s.v.pos.y + s.v.speed * sin s.v.heading * dt + 1 * dt * 1⟩) := by
    have e : s'.interval = t.interval := by rw [h3]
    rw [e]
    unfold updateInterval at h1
    rw [if_neg (by simp [hc])] at h1
    obtain ⟨o, _, h5⟩ := bind_ok h1
    cases h5
    have hm : ∀ c x : ℝ, Observer.mix c x x = x := fun c x => by unfold Observer.mix; ring
    rw [hi]
    unfold Observer.partialStep Observer.step
    simp only [VehicleInterval.certain, hm, cosI_point, sinI_point, product_point]
  rw [hpos, hp]
  unfold InBox InItv
  simp only [Vec2.add_x, Vec2.add_y, Vec2.smul_x, Vec2.smul_y, Vec2.dir]
  have key : ∀ x a b : ℝ, (x + a * dt + 1 * dt * (-1) ≤ x + dt * b ∧ x + dt * b ≤ x + a * dt + 1 * dt * 1) ↔ |b - a| ≤ 1 := by
    intro x a b
    rw [abs_le]
    constructor
    · rintro ⟨u, v⟩
      constructor
      · by_contra hn
        push Not at hn
        have := mul_lt_mul_of_pos_left hn hdt
        linarith
      · by_contra hn
        push Not at hn
        have := mul_lt_mul_of_pos_left hn hdt
        linarith
    · rintro ⟨u, v⟩
      have u' := mul_le_mul_of_nonneg_left u hdt.le
      have v' := mul_le_mul_of_nonneg_left v hdt.le
      constructor <;> linarith
  rw [key, key, mul_sub, mul_sub]

/-! ## Decisions -/

/-- **C94, decisions need data.**  A vehicle created without a data record (the default of the constructor, and what `create_from` a vehicle that records nothing gives) raises
`TypeError` as soon as it decides. -/
theorem act_needs_data (G : Globals) (r : Road) (hg : WellFormed r.network) (s : IntervalVehicle) (hv : ValidIndex r.network s.v.laneIndex) (hd : s.data = none) :
    s.act G r = .error .typeError := by
  obtain ⟨l, hl⟩ := Graph.getLane_of_valid hg.toIsPyGraph hv
  obtain ⟨f, b, hfb, _⟩ := neighbours_nearest r s.v none l (by simpa using hl)
  unfold IntervalVehicle.act
  rw [hd]
  simp only [hfb, bind, Except.bind]

/-- With a record, it decides exactly as a linear vehicle does, and the record grows by one observation. -/
theorem act_with_data (G : Globals) (r : Road) (s s' : IntervalVehicle) (rng : Rng) (data : Regression.Records) (hd : s.data = some data)
    (h : s.act G r = .ok (s', rng)) :
    s.v.idmAct G r = .ok (s'.v, rng) ∧ s'.interval = s.interval ∧ s'.intervals = s.intervals ∧ s'.trajectory = s.trajectory ∧
    ∃ d, s'.data = some d ∧ d.longitudinal.length = data.longitudinal.length + 1 ∧ d.lateral.length = data.lateral.length + 1 := by
  unfold IntervalVehicle.act at h
  rw [hd] at h
  obtain ⟨d, h1, h2⟩ := bind_ok h
  obtain ⟨p, h3, h4⟩ := bind_ok h2
  obtain ⟨v, rng'⟩ := p
  cases h4
  refine ⟨h3, rfl, rfl, rfl, d, rfl, ?_⟩
  unfold Regression.collectData Regression.addFeatures at h1
  obtain ⟨q, _, h5⟩ := bind_ok h1
  obtain ⟨l1, _, h6⟩ := bind_ok h5
  obtain ⟨l2, _, h7⟩ := bind_ok h6
  cases h7
  simp

/-! ## Construction -/

/-- **C94, construction.**  On a network with at least one lane, creating an interval vehicle succeeds, wherever it is; it starts at the given state, fully certain, with empty
trajectories and the documented parameter boxes. -/
theorem create_certain (G : Globals) (g : Graph) (hg : WellFormed g) (hne : g ≠ []) (uid : ℕ) (pos : Vec2) (heading speed : ℝ) :
    ∃ s, create G g uid pos heading speed = .ok s ∧ s.v.pos = pos ∧ s.v.heading = heading ∧ s.v.speed = speed ∧ Attached g s.v ∧
      (∀ p v h, InVehicle p v h s.interval ↔ p = pos ∧ v = speed ∧ h = heading) ∧ s.trajectory = [] ∧ s.intervals = [] ∧ s.data = none ∧
      s.thetaA = (![0.15, 0.15, 1], ![0.45, 0.45, 3]) ∧ s.thetaB = (![4.93, 41 / 6], ![5.07, 59 / 6]) := by
  obtain ⟨v, hv, hb, ha, _⟩ := mk'_total G hg hne uid .linear pos heading speed
  refine ⟨_, by unfold create; rw [hv]; rfl, hb.pos, hb.heading, hb.speed, ha, ?_, rfl, rfl, rfl, ?_, ?_⟩
  · intro p u h
    unfold certainOf InVehicle InBox InItv VehicleInterval.certain
    simp only [hb.pos, hb.heading, hb.speed]
    constructor
    · rintro ⟨⟨⟨a, b⟩, ⟨c, d⟩⟩, ⟨e, f⟩, ⟨i, j⟩⟩
      exact ⟨Vec2.ext (le_antisymm b a) (le_antisymm d c), le_antisymm f e, le_antisymm j i⟩
    · rintro ⟨rfl, rfl, rfl⟩
      exact ⟨⟨⟨le_rfl, le_rfl⟩, ⟨le_rfl, le_rfl⟩⟩, ⟨le_rfl, le_rfl⟩, ⟨le_rfl, le_rfl⟩⟩
  · show accelerationRange = _
    unfold accelerationRange; norm_num
  · show steeringRange = _
    unfold steeringRange; norm_num

/-! ## Lanes that could be followed -/

private theorem followed_right (g : Graph) (hg : WellFormed g) (v : Vehicle) (ht : ValidIndex g v.targetLane) (squeeze : Bool) :
    followedLanes g v .right squeeze = .ok (if CanEnter g v.targetLane.src v.targetLane.dst (v.targetLane.id + 1) v.pos
      then [v.targetLane, ⟨v.targetLane.src, v.targetLane.dst, v.targetLane.id + 1⟩] else if squeeze then [v.targetLane] else [v.targetLane, v.targetLane]) := by
  obtain ⟨k, l, hk, ls, hr, hl⟩ := id ht
  have hlen : k < ls.length := (List.getElem?_eq_some_iff.1 hl).1
  have hls := (Graph.lanesOf_ok_iff hg.toIsPyGraph).2 hr
  unfold followedLanes
  simp only [hls, bind, Except.bind]
  by_cases hin : v.targetLane.id < (ls.length : Int) - 1
  · rw [if_pos hin]
    have hcl : k + 1 < ls.length := by omega
    have hvalid : ValidIndex g ⟨v.targetLane.src, v.targetLane.dst, v.targetLane.id + 1⟩ :=
      ⟨k + 1, ls[k + 1], by simp only; omega, ls, hr, List.getElem?_eq_getElem hcl⟩
    obtain ⟨lc, hlc⟩ := Graph.getLane_of_valid hg.toIsPyGraph hvalid
    have hiff := Vehicle.canEnter_iff (p := v.pos) hg.toIsPyGraph (i := ⟨v.targetLane.src, v.targetLane.dst, v.targetLane.id + 1⟩) (by simp only; omega) hlc
    simp only [hlc]
    by_cases hre : lc.isReachableFrom v.pos
    · rw [if_pos hre, if_pos (hiff.1 hre)]; rfl
    · rw [if_neg hre, if_neg (fun h => hre (hiff.2 h))]; rfl
  · have hno : ¬ CanEnter g v.targetLane.src v.targetLane.dst (v.targetLane.id + 1) v.pos := by
      rintro ⟨k', l', hk', ⟨ls', hr', hl'⟩, _⟩
      rw [Graph.RoadLanes.unique hg.toIsPyGraph hr' hr] at hl'
      have := (List.getElem?_eq_some_iff.1 hl').1
      omega
    rw [if_neg hin, if_neg hno]
    rfl

private theorem followed_all (g : Graph) (hg : WellFormed g) (v : Vehicle) (ht : ValidIndex g v.targetLane) :
    ∃ ls, followedLanes g v .all = .ok ls ∧ ls.Nodup ∧
      ∀ j, j ∈ ls ↔ ValidIndex g j ∧ j.src = v.targetLane.src ∧ j.dst = v.targetLane.dst ∧ |j.id - v.targetLane.id| ≤ 1 := by
  obtain ⟨k, l, hk, ls, hr, hl⟩ := id ht
  have hlen : k < ls.length := (List.getElem?_eq_some_iff.1 hl).1
  have hls := (Graph.lanesOf_ok_iff hg.toIsPyGraph).2 hr
  have hvalid : ∀ m : Int, ValidIndex g ⟨v.targetLane.src, v.targetLane.dst, m⟩ ↔ 0 ≤ m ∧ m < ls.length := by
    intro m
    constructor
    · rintro ⟨k', l', hk', ls', hr', hl'⟩
      rw [Graph.RoadLanes.unique hg.toIsPyGraph hr' hr] at hl'
      have := (List.getElem?_eq_some_iff.1 hl').1
      simp only at hk'
      omega
    · rintro ⟨h1, h2⟩
      have hcl : m.toNat < ls.length := by omega
      exact ⟨m.toNat, ls[m.toNat], by simp only; omega, ls, hr, List.getElem?_eq_getElem hcl⟩
  obtain ⟨⟨ts, td, ti⟩, htl⟩ : ∃ t, v.targetLane = t := ⟨_, rfl⟩
  rw [htl] at hk hls hvalid
  simp only at hk hls hvalid
  refine ⟨_, by unfold followedLanes; simp only [Graph.sideLanes, htl, hls, bind, Except.bind]; rfl, ?_, ?_⟩
  · split_ifs <;> simp <;> omega
  · rintro ⟨js, jd, ji⟩
    rw [htl]
    simp only [List.mem_append, List.mem_singleton, LaneIndex.mk.injEq]
    rw [abs_le]
    constructor
    · rintro ((h | h) | ⟨rfl, rfl, rfl⟩)
      · split_ifs at h with hc
        · simp only [List.mem_singleton, LaneIndex.mk.injEq] at h
          obtain ⟨rfl, rfl, rfl⟩ := h
          exact ⟨(hvalid _).2 ⟨by omega, by omega⟩, rfl, rfl, by omega, by omega⟩
        · cases h
      · split_ifs at h with hc
        · simp only [List.mem_singleton, LaneIndex.mk.injEq] at h
          obtain ⟨rfl, rfl, rfl⟩ := h
          exact ⟨(hvalid _).2 ⟨by omega, by omega⟩, rfl, rfl, by omega, by omega⟩
        · cases h
      · exact ⟨(hvalid _).2 ⟨by omega, by omega⟩, rfl, rfl, by omega, by omega⟩
    · rintro ⟨hv, rfl, rfl, h1, h2⟩
      have := (hvalid _).1 hv
      rcases lt_trichotomy ji ti with h | h | h
      · left; left
        rw [if_pos (by omega)]
        simp; omega
      · right; exact ⟨rfl, rfl, h⟩
      · left; right
        rw [if_pos (by omega)]
        simp; omega

/-- **C94, followed lanes.**  For a valid target lane, the lanes returned are: the target lane alone (`model`), that lane and its existing neighbours, each once (`all`), that lane
and the one on its right if it can be entered from here (`right`), in which case nothing is listed twice unless asked for. -/
theorem followed_lanes (g : Graph) (hg : WellFormed g) (v : Vehicle) (ht : ValidIndex g v.targetLane) :
    followedLanes g v = .ok [v.targetLane] ∧
    (∃ ls, followedLanes g v .all = .ok ls ∧ ls.Nodup ∧
      ∀ j, j ∈ ls ↔ ValidIndex g j ∧ j.src = v.targetLane.src ∧ j.dst = v.targetLane.dst ∧ |j.id - v.targetLane.id| ≤ 1) ∧
    (∃ ls, followedLanes g v .right = .ok ls ∧ ls.Nodup ∧
      ∀ j, j ∈ ls ↔ j = v.targetLane ∨ (CanEnter g v.targetLane.src v.targetLane.dst (v.targetLane.id + 1) v.pos ∧
        j = ⟨v.targetLane.src, v.targetLane.dst, v.targetLane.id + 1⟩)) ∧
    (∃ ls, followedLanes g v .right false = .ok ls ∧ ls.length = 2) := by
  refine ⟨rfl, followed_all g hg v ht, ⟨_, followed_right g hg v ht true, ?_, ?_⟩, ⟨_, followed_right g hg v ht false, ?_⟩⟩
  · rw [if_pos rfl]
    split
    · simp only [List.nodup_cons, List.mem_singleton, List.not_mem_nil, not_false_eq_true, List.nodup_nil, and_true]
      intro h
      have := congrArg LaneIndex.id h
      simp at this
    · simp
  · intro j
    rw [if_pos rfl]
    split
    · rename_i h1; simp [h1]
    · rename_i h1; simp [h1]
  · split
    · rfl
    · rw [if_neg Bool.false_ne_true]; rfl

example : ∃ ls, followedLanes Sample.net (Sample.car 0 .linear 10 0 20) .all = .ok ls ∧ (⟨"0", "1", 1⟩ : LaneIndex) ∈ ls := by
  obtain ⟨_, ⟨ls, h, _, hm⟩, _⟩ := followed_lanes Sample.net Sample.net_wf (Sample.car 0 .linear 10 0 20) ⟨0, _, rfl, Sample.net_has0⟩
  exact ⟨ls, h, (hm _).2 ⟨⟨1, _, rfl, Sample.net_has1⟩, rfl, rfl, by norm_num [Sample.car]⟩⟩

/-! ## Changing lanes during a prediction -/

private theorem corners_middle (x y : Itv ℝ) (f : Vec2 → ℝ) (c a b : ℝ) (hf : ∀ q : Vec2, f q = c + a * q.x + b * q.y) :
    middle (Itv.overCorners x y f) = f ⟨middle x, middle y⟩ := by
  have e1 : (Itv.overCorners x y f).1 = c + min (a * x.1) (a * x.2) + min (b * y.1) (b * y.2) := by
    unfold Itv.overCorners
    simp only [hf]
    rw [min_add_add_left, min_add_add_left, add_assoc, add_assoc, add_assoc, min_add_add_left, min_add_add_right]
  have e2 : (Itv.overCorners x y f).2 = c + max (a * x.1) (a * x.2) + max (b * y.1) (b * y.2) := by
    unfold Itv.overCorners
    simp only [hf]
    rw [max_add_add_left, max_add_add_left, add_assoc, add_assoc, add_assoc, max_add_add_left, max_add_add_right]
  unfold middle
  rw [e1, e2, hf]
  have h1 := min_add_max (a * x.1) (a * x.2)
  have h2 := min_add_max (b * y.1) (b * y.2)
  simp only
  linarith

private theorem local_affine (l : Lane) (a b : Vec2) (hl : l.shape = .straight a b) (q : Vec2) :
    (l.localCoordinates q).1 = (-(a.x * (Lane.straightDir a b).x) - a.y * (Lane.straightDir a b).y) + (Lane.straightDir a b).x * q.x + (Lane.straightDir a b).y * q.y ∧
    (l.localCoordinates q).2 = (a.x * (Lane.straightDir a b).y - a.y * (Lane.straightDir a b).x) + -(Lane.straightDir a b).y * q.x + (Lane.straightDir a b).x * q.y := by
  have e : l.localCoordinates q = Lane.straightLocal a b q := by unfold Lane.localCoordinates; rw [hl]
  rw [e]
  unfold Lane.straightLocal Vec2.dot
  constructor <;> simp only [Vec2.sub_x, Vec2.sub_y] <;> ring

private theorem position_affine (l : Lane) (a b : Vec2) (hl : l.shape = .straight a b) (q : Vec2) :
    (l.position q.x q.y).x = a.x + (Lane.straightDir a b).x * q.x + -(Lane.straightDir a b).y * q.y ∧
    (l.position q.x q.y).y = a.y + (Lane.straightDir a b).y * q.x + (Lane.straightDir a b).x * q.y := by
  have e : l.position q.x q.y = Lane.straightPosition a b q.x q.y := by unfold Lane.position; rw [hl]
  rw [e]
  unfold Lane.straightPosition
  constructor <;> simp only <;> ring

/-- The middle of the box of the previous lane, seen from the target lane. -/
private theorem middle_local (previous target : Lane) (a b a' b' : Vec2) (hl : previous.shape = .straight a b) (hl' : target.shape = .straight a' b') (lon lat : Itv ℝ) :
    middle (Itv.absoluteToLocal (Itv.localToAbsolute lon lat previous) target).1 = (target.localCoordinates (previous.position (middle lon) (middle lat))).1 ∧
    middle (Itv.absoluteToLocal (Itv.localToAbsolute lon lat previous) target).2 = (target.localCoordinates (previous.position (middle lon) (middle lat))).2 := by
  have hx : middle ((Itv.localToAbsolute lon lat previous).1.x, (Itv.localToAbsolute lon lat previous).2.x) = (previous.position (middle lon) (middle lat)).x :=
    corners_middle lon lat _ _ _ _ fun q => (position_affine previous a b hl q).1
  have hy : middle ((Itv.localToAbsolute lon lat previous).1.y, (Itv.localToAbsolute lon lat previous).2.y) = (previous.position (middle lon) (middle lat)).y :=
    corners_middle lon lat _ _ _ _ fun q => (position_affine previous a b hl q).2
  unfold Itv.absoluteToLocal
  dsimp only
  rw [corners_middle _ _ _ _ _ _ fun q => (local_affine target a' b' hl' q).1, corners_middle _ _ _ _ _ _ fun q => (local_affine target a' b' hl' q).2, hx, hy]
  exact ⟨rfl, rfl⟩

private theorem headingAt_straight (l : Lane) (a b : Vec2) (hl : l.shape = .straight a b) (s : ℝ) : l.headingAt s = Lane.straightHeading a b := by
  unfold Lane.headingAt; rw [hl]

private theorem predictor_parts {lane : Lane} {dt : ℝ} {lon0 lon : LPV (Fin 4) (Fin 4) (Fin 1)} {lat0 lat : LPV (Fin 2) (Fin 2) (Fin 1)} {i : VehicleInterval}
    (h : predictorStep lane dt lon0 lat0 = .ok (lon, lat, i)) :
    lon.coordinates = lon0.coordinates ∧ lat.coordinates = lat0.coordinates ∧
    i.position = Itv.localToAbsolute ((lon.intervalBack lon.xit).1 0, (lon.intervalBack lon.xit).2 0) ((lat.intervalBack lat.xit).1 0, (lat.intervalBack lat.xit).2 0) lane ∧
    i.heading = ((lat.intervalBack lat.xit).1 1, (lat.intervalBack lat.xit).2 1) := by
  unfold predictorStep at h
  obtain ⟨l1, h1, h'⟩ := bind_ok h
  obtain ⟨l2, h2, h''⟩ := bind_ok h'
  cases h''
  unfold LPV.step at h1 h2
  split at h1
  · cases h1
  · split at h2
    · cases h2
    · cases h1
      cases h2
      exact ⟨rfl, rfl, rfl, rfl⟩

private theorem recentreLat_eq (previous target : Lane) (a b a' b' : Vec2) (hl : previous.shape = .straight a b) (hab : a ≠ b) (hl' : target.shape = .straight a' b')
    (dt : ℝ) (lon0 lon : LPV (Fin 4) (Fin 4) (Fin 1)) (lat0 lat : LPV (Fin 2) (Fin 2) (Fin 1)) (i : VehicleInterval) (h : predictorStep previous dt lon0 lat0 = .ok (lon, lat, i))
    (hc : lat0.coordinates = none) :
    ∃ q : Vec2, (recentreLat previous target i lat).xit =
      (lat.xit.1 + ![(target.localCoordinates q).2 - (previous.localCoordinates q).2, Lane.straightHeading a' b' - Lane.straightHeading a b],
       lat.xit.2 + ![(target.localCoordinates q).2 - (previous.localCoordinates q).2, Lane.straightHeading a' b' - Lane.straightHeading a b]) := by
  obtain ⟨_, hc', hp, hh⟩ := predictor_parts h
  rw [hc] at hc'
  have hback : lat.intervalBack lat.xit = lat.xit := by unfold LPV.intervalBack; rw [hc']
  rw [hback] at hp hh
  set lonI : Itv ℝ := ((lon.intervalBack lon.xit).1 0, (lon.intervalBack lon.xit).2 0) with hlonI
  set latI : Itv ℝ := (lat.xit.1 0, lat.xit.2 0) with hlatI
  set q := previous.position (middle lonI) (middle latI) with hq
  have hqlat : (previous.localCoordinates q).2 = middle latI := by
    have := straight_localCoordinates_position previous a b (middle lonI) (middle latI) hl hab
    rw [hq, this]
  have hm := (middle_local previous target a b a' b' hl hl' lonI latI).2
  rw [← hp, ← hq] at hm
  refine ⟨q, ?_⟩
  have hd : middleVec (lat.intervalForth (![(Itv.absoluteToLocal i.position target).2.1, i.heading.1 + (Lane.straightHeading a' b' - Lane.straightHeading a b)],
      ![(Itv.absoluteToLocal i.position target).2.2, i.heading.2 + (Lane.straightHeading a' b' - Lane.straightHeading a b)])) - middleVec lat.xit =
      ![(target.localCoordinates q).2 - (previous.localCoordinates q).2, Lane.straightHeading a' b' - Lane.straightHeading a b] := by
    unfold LPV.intervalForth
    rw [hc']
    ext k
    unfold middle at hm hqlat
    fin_cases k
    · show ((Itv.absoluteToLocal i.position target).2.1 + (Itv.absoluteToLocal i.position target).2.2) / 2 - (lat.xit.1 0 + lat.xit.2 0) / 2 = _
      rw [hm]
      show _ = (target.localCoordinates q).2 - (previous.localCoordinates q).2
      rw [hqlat]
    · show (i.heading.1 + (Lane.straightHeading a' b' - Lane.straightHeading a b) + (i.heading.2 + (Lane.straightHeading a' b' - Lane.straightHeading a b))) / 2 -
        (lat.xit.1 1 + lat.xit.2 1) / 2 = Lane.straightHeading a' b' - Lane.straightHeading a b
      rw [hh]
      dsimp only
      ring
  unfold recentreLat
  dsimp only
  rw [headingAt_straight target a' b' hl', headingAt_straight previous a b hl, hd]

private theorem middle_scaling {n : ℕ} (m : Matrix (Fin n) (Fin n) ℝ) (x : Itv (Fin n → ℝ)) :
    middleVec (Itv.scaling (α := Fin n → Fin n → ℝ) (fun (m : Matrix (Fin n) (Fin n) ℝ) x => m *ᵥ x) m x) = m *ᵥ middleVec x := by
  have hm : m = (LPV.mp m - LPV.mn m) := by
    ext i j
    show m i j = max (m i j) 0 - max (-(m i j)) 0
    rcases le_total (m i j) 0 with h | h
    · rw [max_eq_right h, max_eq_left (by linarith)]; ring
    · rw [max_eq_left h, max_eq_right (by linarith)]; ring
  have hx : middleVec x = (1 / 2 : ℝ) • (x.1 + x.2) := by
    ext k
    show (x.1 k + x.2 k) / 2 = 1 / 2 * (x.1 k + x.2 k)
    ring
  ext k
  show ((LPV.mp m *ᵥ x.1 - LPV.mn m *ᵥ x.2) k + (LPV.mp m *ᵥ x.2 - LPV.mn m *ᵥ x.1) k) / 2 = _
  conv_rhs => rw [hm, hx]
  rw [Matrix.mulVec_smul, Matrix.sub_mulVec, Matrix.mulVec_add, Matrix.mulVec_add]
  simp only [Pi.sub_apply, Pi.smul_apply, Pi.add_apply, smul_eq_mul]
  ring

/-- The displacement of the coordinates that corresponds to a displacement of the state. -/
private def shiftOf {n : ℕ} (s : LPV (Fin n) (Fin n) (Fin 1)) (d : Fin n → ℝ) : Fin n → ℝ :=
  match s.coordinates with
  | none => d
  | some (_, ti) => ti *ᵥ d

private theorem forth_shift {n : ℕ} (s : LPV (Fin n) (Fin n) (Fin 1)) (hs : FrameOk s) (new : Itv (Fin n → ℝ)) (d : Fin n → ℝ)
    (h : middleVec new = middleVec (s.intervalBack s.xit) + d) : middleVec (s.intervalForth new) - middleVec s.xit = shiftOf s d := by
  unfold LPV.intervalForth shiftOf
  unfold LPV.intervalBack at h
  unfold FrameOk at hs
  generalize s.coordinates = c at *
  rcases c with _ | ⟨t, ti⟩
  · dsimp only at h ⊢
    rw [h]; abel
  · dsimp only at h ⊢
    rw [middle_scaling]
    have e1 : middleVec (new.1 - s.center, new.2 - s.center) = middleVec new - s.center := by
      ext k
      show (new.1 k - s.center k + (new.2 k - s.center k)) / 2 = (new.1 k + new.2 k) / 2 - s.center k
      ring
    have e2 : ∀ v : Itv (Fin n → ℝ), middleVec (v.1 + s.center, v.2 + s.center) = middleVec v + s.center := by
      intro v
      ext k
      show (v.1 k + s.center k + (v.2 k + s.center k)) / 2 = (v.1 k + v.2 k) / 2 + s.center k
      ring
    rw [e2, middle_scaling] at h
    rw [e1, h]
    have e3 : t *ᵥ middleVec s.xit + s.center + d - s.center = t *ᵥ middleVec s.xit + d := by abel
    rw [e3, Matrix.mulVec_add, Matrix.mulVec_mulVec, hs t ti rfl, Matrix.one_mulVec]
    abel

private theorem possible_shift {n : ℕ} (s s' : LPV (Fin n) (Fin n) (Fin 1)) (d : Fin n → ℝ) (hc : s'.coordinates = s.coordinates) (hz : s'.center = s.center)
    (hx : s'.xit = (s.xit.1 + shiftOf s d, s.xit.2 + shiftOf s d)) (x : Fin n → ℝ) : HoldsPossible s' (x + d) ↔ HoldsPossible s x := by
  unfold HoldsPossible InItv
  rw [hc, hz, hx]
  have e : LPV.stateToFrame s.coordinates s.center (x + d) = LPV.stateToFrame s.coordinates s.center x + shiftOf s d := by
    unfold LPV.stateToFrame shiftOf
    rcases s.coordinates with _ | ⟨t, ti⟩
    · rfl
    · dsimp only
      rw [← Matrix.mulVec_add]
      congr 1
      abel
  rw [e]
  exact ⟨fun h => ⟨by simpa using h.1, by simpa using h.2⟩, fun h => ⟨by simpa using h.1, by simpa using h.2⟩⟩

private theorem recentreLat_shift (previous target : Lane) (a b a' b' : Vec2) (hl : previous.shape = .straight a b) (hab : a ≠ b) (hl' : target.shape = .straight a' b')
    (dt : ℝ) (lon0 lon : LPV (Fin 4) (Fin 4) (Fin 1)) (lat0 lat : LPV (Fin 2) (Fin 2) (Fin 1)) (i : VehicleInterval) (h : predictorStep previous dt lon0 lat0 = .ok (lon, lat, i))
    (hc : FrameOk lat0) : ∃ q : Vec2, ∀ x, HoldsPossible (recentreLat previous target i lat)
      (x + ![(target.localCoordinates q).2 - (previous.localCoordinates q).2, target.headingAt 0 - previous.headingAt 0]) ↔ HoldsPossible lat x := by
  obtain ⟨_, hc', hp, hh⟩ := predictor_parts h
  have hc'' : FrameOk lat := by unfold FrameOk at hc ⊢; rw [hc']; exact hc
  set lonI : Itv ℝ := ((lon.intervalBack lon.xit).1 0, (lon.intervalBack lon.xit).2 0) with hlonI
  set latI : Itv ℝ := ((lat.intervalBack lat.xit).1 0, (lat.intervalBack lat.xit).2 0) with hlatI
  set q := previous.position (middle lonI) (middle latI) with hq
  have hqlat : (previous.localCoordinates q).2 = middle latI := by
    have := straight_localCoordinates_position previous a b (middle lonI) (middle latI) hl hab
    rw [hq, this]
  have hm := (middle_local previous target a b a' b' hl hl' lonI latI).2
  rw [← hp, ← hq] at hm
  refine ⟨q, fun x => possible_shift lat _ _ (by rfl) (by rfl) ?_ x⟩
  have hd := forth_shift lat hc'' (![(Itv.absoluteToLocal i.position target).2.1, i.heading.1 + (Lane.straightHeading a' b' - Lane.straightHeading a b)],
      ![(Itv.absoluteToLocal i.position target).2.2, i.heading.2 + (Lane.straightHeading a' b' - Lane.straightHeading a b)])
      ![(target.localCoordinates q).2 - (previous.localCoordinates q).2, Lane.straightHeading a' b' - Lane.straightHeading a b] (by
    unfold middle at hm hqlat
    ext k
    fin_cases k
    · show ((Itv.absoluteToLocal i.position target).2.1 + (Itv.absoluteToLocal i.position target).2.2) / 2 = (latI.1 + latI.2) / 2 +
        ((target.localCoordinates q).2 - (previous.localCoordinates q).2)
      rw [hm, hqlat]
      ring
    · show (i.heading.1 + (Lane.straightHeading a' b' - Lane.straightHeading a b) + (i.heading.2 + (Lane.straightHeading a' b' - Lane.straightHeading a b))) / 2 =
        ((lat.intervalBack lat.xit).1 1 + (lat.intervalBack lat.xit).2 1) / 2 + (Lane.straightHeading a' b' - Lane.straightHeading a b)
      rw [hh]
      dsimp only
      ring)
  unfold recentreLat
  dsimp only
  rw [headingAt_straight target a' b' hl', headingAt_straight previous a b hl, headingAt_straight target a' b' hl', headingAt_straight previous a b hl, hd]

/-- **C94, lane change between parallel lanes.**  When the target lane changes to a parallel one, the recentred predictor holds for possible exactly the lateral positions and relative
headings with respect to the new lane of those states that it held for possible with respect to the previous lane: nothing is lost nor added. -/
theorem recentre_lateral_exact (previous target : Lane) (a b a' b' : Vec2) (hl : previous.shape = .straight a b) (hab : a ≠ b) (hl' : target.shape = .straight a' b')
    (hab' : a' ≠ b') (hpar : target.headingAt 0 = previous.headingAt 0) (dt : ℝ) (lon0 lon : LPV (Fin 4) (Fin 4) (Fin 1)) (lat0 lat : LPV (Fin 2) (Fin 2) (Fin 1))
    (i : VehicleInterval) (h : predictorStep previous dt lon0 lat0 = .ok (lon, lat, i)) (hc : FrameOk lat0) (p : Vec2) (psi : ℝ) :
    HoldsPossible (recentreLat previous target i lat) ![(target.localCoordinates p).2, psi] ↔ HoldsPossible lat ![(previous.localCoordinates p).2, psi] := by
  obtain ⟨q, hq⟩ := recentreLat_shift previous target a b a' b' hl hab hl' dt lon0 lon lat0 lat i h hc
  rw [← hq, hpar, sub_self]
  rw [headingAt_straight target a' b' hl', headingAt_straight previous a b hl] at hpar
  have hdir : Lane.straightDir a' b' = Lane.straightDir a b := by rw [Lane.straightDir_eq_dir hab', Lane.straightDir_eq_dir hab, hpar]
  have hoff : (target.localCoordinates p).2 = (previous.localCoordinates p).2 + ((target.localCoordinates q).2 - (previous.localCoordinates q).2) := by
    rw [(local_affine target a' b' hl' p).2, (local_affine target a' b' hl' q).2, (local_affine previous a b hl p).2, (local_affine previous a b hl q).2, hdir]
    ring
  rw [hoff]
  simp

/-- **C94, lane change to a lane with another heading.**  The relative heading is turned the wrong way: a vehicle whose relative heading `psi` is known exactly has the heading
`previous + psi`, hence the heading `previous + psi - target` relative to the target lane, but that is not in the recentred interval. -/
theorem recentre_heading_wrong (previous target : Lane) (a b a' b' : Vec2) (hl : previous.shape = .straight a b) (hab : a ≠ b) (hl' : target.shape = .straight a' b')
    (hturn : target.headingAt 0 ≠ previous.headingAt 0) (dt : ℝ) (lon0 lon : LPV (Fin 4) (Fin 4) (Fin 1)) (lat0 lat : LPV (Fin 2) (Fin 2) (Fin 1))
    (i : VehicleInterval) (h : predictorStep previous dt lon0 lat0 = .ok (lon, lat, i)) (hc : lat0.coordinates = none) (psi : ℝ)
    (hpsi : lat.xit.1 1 = psi ∧ lat.xit.2 1 = psi) (y : ℝ) :
    ¬ InItv ![y, previous.headingAt 0 + psi - target.headingAt 0] (recentreLat previous target i lat).xit := by
  obtain ⟨q, hq⟩ := recentreLat_eq previous target a b a' b' hl hab hl' dt lon0 lon lat0 lat i h hc
  rw [headingAt_straight target a' b' hl', headingAt_straight previous a b hl] at hturn ⊢
  rw [hq]
  rintro ⟨h1, h2⟩
  have e1 := h1 1
  have e2 := h2 1
  simp only [Pi.add_apply, Matrix.cons_val_one, Matrix.cons_val_fin_one] at e1 e2
  rw [hpsi.1] at e1
  rw [hpsi.2] at e2
  exact hturn (by linarith)

private theorem scaling_one {n : ℕ} (x : Itv (Fin n → ℝ)) :
    Itv.scaling (α := Fin n → Fin n → ℝ) (fun (m : Matrix (Fin n) (Fin n) ℝ) x => m *ᵥ x) (1 : Matrix (Fin n) (Fin n) ℝ) x = x := by
  have hp : (Itv.p (1 : Matrix (Fin n) (Fin n) ℝ) : Fin n → Fin n → ℝ) = (1 : Matrix (Fin n) (Fin n) ℝ) := by
    funext i j
    show max ((1 : Matrix (Fin n) (Fin n) ℝ) i j) 0 = _
    rw [Matrix.one_apply]; split_ifs <;> norm_num
  have hn : (Itv.n (1 : Matrix (Fin n) (Fin n) ℝ) : Fin n → Fin n → ℝ) = (0 : Matrix (Fin n) (Fin n) ℝ) := by
    funext i j
    show max (-((1 : Matrix (Fin n) (Fin n) ℝ) i j)) 0 = 0
    rw [Matrix.one_apply]; split_ifs <;> norm_num
  have e : ∀ y : Fin n → ℝ, ((Itv.p (1 : Matrix (Fin n) (Fin n) ℝ) : Fin n → Fin n → ℝ) : Matrix (Fin n) (Fin n) ℝ) *ᵥ y = y := fun y => by
    rw [hp]; exact Matrix.one_mulVec y
  have e' : ∀ y : Fin n → ℝ, ((Itv.n (1 : Matrix (Fin n) (Fin n) ℝ) : Fin n → Fin n → ℝ) : Matrix (Fin n) (Fin n) ℝ) *ᵥ y = 0 := fun y => by
    rw [hn]; exact Matrix.zero_mulVec y
  exact Prod.ext ((congrArg₂ (· - ·) (e x.1) (e' x.2)).trans (sub_zero _)) ((congrArg₂ (· - ·) (e x.2) (e' x.1)).trans (sub_zero _))

private theorem recentreLon_eq (previous target : Lane) (a b a' b' : Vec2) (hl : previous.shape = .straight a b) (hab : a ≠ b) (hl' : target.shape = .straight a' b')
    (dt : ℝ) (lon0 lon : LPV (Fin 4) (Fin 4) (Fin 1)) (lat0 lat : LPV (Fin 2) (Fin 2) (Fin 1)) (i : VehicleInterval) (h : predictorStep previous dt lon0 lat0 = .ok (lon, lat, i))
    (hc : lon0.coordinates = some (1, 1)) :
    ∃ q : Vec2, ((recentreLon target i lon).intervalBack (recentreLon target i lon).xit) =
      ((lon.intervalBack lon.xit).1 + ![(target.localCoordinates q).1 - (previous.localCoordinates q).1, 0, 0, 0],
       (lon.intervalBack lon.xit).2 + ![(target.localCoordinates q).1 - (previous.localCoordinates q).1, 0, 0, 0]) := by
  obtain ⟨hc', _, hp, hh⟩ := predictor_parts h
  rw [hc] at hc'
  have hback : ∀ (s : LPV (Fin 4) (Fin 4) (Fin 1)) x, s.coordinates = some (1, 1) → s.intervalBack x = (x.1 + s.center, x.2 + s.center) := by
    intro s x hs; unfold LPV.intervalBack; rw [hs]; dsimp only; rw [scaling_one]
  have hforth : ∀ x, lon.intervalForth x = (x.1 - lon.center, x.2 - lon.center) := by
    intro x; unfold LPV.intervalForth; rw [hc']; dsimp only; rw [scaling_one]
  set lonI : Itv ℝ := ((lon.intervalBack lon.xit).1 0, (lon.intervalBack lon.xit).2 0) with hlonI
  set latI : Itv ℝ := ((lat.intervalBack lat.xit).1 0, (lat.intervalBack lat.xit).2 0) with hlatI
  set q := previous.position (middle lonI) (middle latI) with hq
  have hqlon : (previous.localCoordinates q).1 = middle lonI := by
    have := straight_localCoordinates_position previous a b (middle lonI) (middle latI) hl hab
    rw [hq, this]
  have hm := (middle_local previous target a b a' b' hl hl' lonI latI).1
  rw [← hp, ← hq] at hm
  refine ⟨q, ?_⟩
  have hd : middleVec (lon.intervalForth (Function.update (lon.intervalBack lon.xit).1 0 (Itv.absoluteToLocal i.position target).1.1,
      Function.update (lon.intervalBack lon.xit).2 0 (Itv.absoluteToLocal i.position target).1.2)) - middleVec lon.xit =
      ![(target.localCoordinates q).1 - (previous.localCoordinates q).1, 0, 0, 0] := by
    rw [hforth]
    rw [hqlon, hlonI, hback lon _ hc']
    unfold middle at hm ⊢
    ext k
    fin_cases k
    · show ((Function.update (lon.xit.1 + lon.center) 0 (Itv.absoluteToLocal i.position target).1.1 : Fin 4 → ℝ) 0 - lon.center 0 +
          ((Function.update (lon.xit.2 + lon.center) 0 (Itv.absoluteToLocal i.position target).1.2 : Fin 4 → ℝ) 0 - lon.center 0)) / 2 - (lon.xit.1 0 + lon.xit.2 0) / 2 =
        (target.localCoordinates q).1 - (lon.xit.1 0 + lon.center 0 + (lon.xit.2 0 + lon.center 0)) / 2
      rw [Function.update_self, Function.update_self, ← hm]
      ring
    all_goals
      simp [middleVec, Function.update]
  have hcen : (recentreLon target i lon).center = lon.center := rfl
  rw [hback _ _ hc', hback (recentreLon target i lon) _ hc', hcen]
  have hx : (recentreLon target i lon).xit = (lon.xit.1 + ![(target.localCoordinates q).1 - (previous.localCoordinates q).1, 0, 0, 0],
      lon.xit.2 + ![(target.localCoordinates q).1 - (previous.localCoordinates q).1, 0, 0, 0]) := by
    unfold recentreLon
    dsimp only
    rw [hd]
  rw [hx]
  exact Prod.ext (by simp only; abel) (by simp only; abel)

private theorem recentreLon_shift (previous target : Lane) (a b a' b' : Vec2) (hl : previous.shape = .straight a b) (hab : a ≠ b) (hl' : target.shape = .straight a' b')
    (dt : ℝ) (lon0 lon : LPV (Fin 4) (Fin 4) (Fin 1)) (lat0 lat : LPV (Fin 2) (Fin 2) (Fin 1)) (i : VehicleInterval) (h : predictorStep previous dt lon0 lat0 = .ok (lon, lat, i))
    (hc : FrameOk lon0) : ∃ q : Vec2, ∀ x, HoldsPossible (recentreLon target i lon)
      (x + ![(target.localCoordinates q).1 - (previous.localCoordinates q).1, 0, 0, 0]) ↔ HoldsPossible lon x := by
  obtain ⟨hc', _, hp, hh⟩ := predictor_parts h
  have hc'' : FrameOk lon := by unfold FrameOk at hc ⊢; rw [hc']; exact hc
  set lonI : Itv ℝ := ((lon.intervalBack lon.xit).1 0, (lon.intervalBack lon.xit).2 0) with hlonI
  set latI : Itv ℝ := ((lat.intervalBack lat.xit).1 0, (lat.intervalBack lat.xit).2 0) with hlatI
  set q := previous.position (middle lonI) (middle latI) with hq
  have hqlon : (previous.localCoordinates q).1 = middle lonI := by
    have := straight_localCoordinates_position previous a b (middle lonI) (middle latI) hl hab
    rw [hq, this]
  have hm := (middle_local previous target a b a' b' hl hl' lonI latI).1
  rw [← hp, ← hq] at hm
  refine ⟨q, fun x => possible_shift lon _ _ (by rfl) (by rfl) ?_ x⟩
  have hd := forth_shift lon hc'' (Function.update (lon.intervalBack lon.xit).1 0 (Itv.absoluteToLocal i.position target).1.1,
      Function.update (lon.intervalBack lon.xit).2 0 (Itv.absoluteToLocal i.position target).1.2)
      ![(target.localCoordinates q).1 - (previous.localCoordinates q).1, 0, 0, 0] (by
    unfold middle at hm hqlon
    ext k
    fin_cases k
    · show ((Function.update (lon.intervalBack lon.xit).1 0 (Itv.absoluteToLocal i.position target).1.1 : Fin 4 → ℝ) 0 +
          (Function.update (lon.intervalBack lon.xit).2 0 (Itv.absoluteToLocal i.position target).1.2 : Fin 4 → ℝ) 0) / 2 = (lonI.1 + lonI.2) / 2 +
        ((target.localCoordinates q).1 - (previous.localCoordinates q).1)
      rw [Function.update_self, Function.update_self, hm, hqlon]
      ring
    all_goals
      simp [middleVec, Function.update])
  unfold recentreLon
  dsimp only
  rw [hd]

/-- **C94, lane change, longitudinal part.**  When the target lane changes to a parallel one, the recentred predictor holds for possible the own abscissa along the new lane exactly
if it held the one along the previous lane for possible; speeds and, notably, the abscissa of the front vehicle are kept. -/
theorem recentre_longitudinal_exact (previous target : Lane) (a b a' b' : Vec2) (hl : previous.shape = .straight a b) (hab : a ≠ b) (hl' : target.shape = .straight a' b')
    (hab' : a' ≠ b') (hpar : target.headingAt 0 = previous.headingAt 0) (dt : ℝ) (lon0 lon : LPV (Fin 4) (Fin 4) (Fin 1)) (lat0 lat : LPV (Fin 2) (Fin 2) (Fin 1))
    (i : VehicleInterval) (h : predictorStep previous dt lon0 lat0 = .ok (lon, lat, i)) (hc : FrameOk lon0) (p : Vec2) (front v vf : ℝ) :
    HoldsPossible (recentreLon target i lon) ![(target.localCoordinates p).1, front, v, vf] ↔ HoldsPossible lon ![(previous.localCoordinates p).1, front, v, vf] := by
  obtain ⟨q, hq⟩ := recentreLon_shift previous target a b a' b' hl hab hl' dt lon0 lon lat0 lat i h hc
  rw [headingAt_straight target a' b' hl', headingAt_straight previous a b hl] at hpar
  have hdir : Lane.straightDir a' b' = Lane.straightDir a b := by rw [Lane.straightDir_eq_dir hab', Lane.straightDir_eq_dir hab, hpar]
  have hoff : (target.localCoordinates p).1 = (previous.localCoordinates p).1 + ((target.localCoordinates q).1 - (previous.localCoordinates q).1) := by
    rw [(local_affine target a' b' hl' p).1, (local_affine target a' b' hl' q).1, (local_affine previous a b hl p).1, (local_affine previous a b hl q).1, hdir]
    ring
  rw [← hq, hoff]
  simp

/-- The hypotheses on the predictors hold for those that the vehicle creates: the step is computed without error and the coordinates are usable if the eigenvectors are inverted
correctly. -/
example (E : Eigs) (hE : ∀ m t ti, E.four m = some (t, ti) → ti * t = 1) (hE' : ∀ m t ti, E.two m = some (t, ti) → ti * t = 1) (s : Matrix (Fin 4) (Fin 4) ℝ × (Fin 3 → Matrix (Fin 4) (Fin 4) ℝ))
    (x : Fin 4 → ℝ) (y : Fin 2 → ℝ) (dw tw v : ℝ) (theta : Itv (Fin 3 → ℝ)) (theta' : Itv (Fin 2 → ℝ)) (dt : ℝ) :
    FrameOk (longitudinalLpv E.four x dw tw v theta s) ∧ FrameOk (lateralLpv E.two y theta') ∧
    (∃ lon lat i, predictorStep (Sample.lane 0) dt (longitudinalLpv E.four x dw tw v theta s) (lateralLpv E.two y theta') = .ok (lon, lat, i)) ∧
    (Sample.lane 1).headingAt 0 = (Sample.lane 0).headingAt 0 := by
  have frameOk : ∀ {n : ℕ} (eig : Matrix (Fin n) (Fin n) ℝ → Option (Matrix (Fin n) (Fin n) ℝ × Matrix (Fin n) (Fin n) ℝ)) (_ : ∀ m t ti, eig m = some (t, ti) → ti * t = 1)
      (a0 : Matrix (Fin n) (Fin n) ℝ) t ti, LPV.frame eig a0 = some (t, ti) → ti * t = 1 := by
    intro n eig he a0 t ti h
    unfold LPV.frame at h
    split at h
    · cases h; simp
    · exact he _ _ _ h
  refine ⟨fun t ti h => frameOk _ hE _ t ti h, fun t ti h => frameOk _ hE' _ t ti h, ?_, ?_⟩
  · unfold predictorStep LPV.step
    have h1 : (longitudinalLpv E.four x dw tw v theta s).da ≠ [] := by
      unfold longitudinalLpv LPV.init
      dsimp only
      rw [Ne, List.map_eq_nil_iff]
      exact boxToPolytope_ne_nil _ _
    have h2 : (lateralLpv E.two y theta').da ≠ [] := by
      unfold lateralLpv LPV.init
      dsimp only
      rw [Ne, List.map_eq_nil_iff]
      exact boxToPolytope_ne_nil _ _
    rw [if_neg h1, if_neg h2]
    exact ⟨_, _, _, rfl⟩
  · simp [Sample.lane, Lane.headingAt, Lane.straightHeading]

/-- **C94, the front vehicle is forgotten by a lane change.**  If the target lane does not start beside the previous one, the abscissa of a front vehicle whose position was known
exactly is not in the recentred interval. -/
theorem recentre_front_wrong (previous target : Lane) (a b a' b' : Vec2) (hl : previous.shape = .straight a b) (hab : a ≠ b) (hl' : target.shape = .straight a' b')
    (hab' : a' ≠ b') (hpar : target.headingAt 0 = previous.headingAt 0) (hstart : (previous.localCoordinates a').1 ≠ 0) (dt : ℝ)
    (lon0 lon : LPV (Fin 4) (Fin 4) (Fin 1)) (lat0 lat : LPV (Fin 2) (Fin 2) (Fin 1))
    (i : VehicleInterval) (h : predictorStep previous dt lon0 lat0 = .ok (lon, lat, i)) (hc : lon0.coordinates = some (1, 1)) (f : Vec2)
    (hf : (lon.intervalBack lon.xit).1 1 = (previous.localCoordinates f).1 ∧ (lon.intervalBack lon.xit).2 1 = (previous.localCoordinates f).1) (x v vf : ℝ) :
    ¬ InItv ![x, (target.localCoordinates f).1, v, vf] ((recentreLon target i lon).intervalBack (recentreLon target i lon).xit) := by
  obtain ⟨q, hq⟩ := recentreLon_eq previous target a b a' b' hl hab hl' dt lon0 lon lat0 lat i h hc
  rw [headingAt_straight target a' b' hl', headingAt_straight previous a b hl] at hpar
  have hdir : Lane.straightDir a' b' = Lane.straightDir a b := by rw [Lane.straightDir_eq_dir hab', Lane.straightDir_eq_dir hab, hpar]
  have hne : (target.localCoordinates f).1 ≠ (previous.localCoordinates f).1 := by
    rw [(local_affine target a' b' hl' f).1, (local_affine previous a b hl f).1, hdir]
    rw [(local_affine previous a b hl a').1] at hstart
    intro e
    exact hstart (by linarith)
  rw [hq]
  rintro ⟨h1, h2⟩
  have e1 := h1 1
  have e2 := h2 1
  simp only [Pi.add_apply] at e1 e2
  rw [hf.1] at e1
  rw [hf.2] at e2
  simp at e1 e2
  exact hne (le_antisymm e2 e1)

end HighwayEnv.Props
