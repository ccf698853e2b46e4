import Verif.Props.InterMap
import Verif.Props.Lane
import Verif.Lemmas.Place

/-!
# C61: vehicles placed on an access of the intersection are attached to that access
-/

noncomputable section
open Classical
namespace HighwayEnv.Props
open HighwayEnv HighwayEnv.Spec Graph

private theorem turn_point {c : Vec2} {r a b : ℝ} {cw : Bool} {pr : Int} (hr : 0 < r) {p : Vec2} (h1 : ((turnLane c r a b cw pr).localCoordinates p).2 = 0)
    (h2 : 0 ≤ ((turnLane c r a b cw pr).localCoordinates p).1)
    (h3 : ((turnLane c r a b cw pr).localCoordinates p).1 ≤ (turnLane c r a b cw pr).length) :
    ∃ x : ℝ, 0 ≤ x ∧ x ≤ (if cw then 1 else -1) * (b - a) ∧ p.x = c.x + r * Real.cos ((a + (if cw then 1 else -1) * x) * (Real.pi / 180)) ∧
      p.y = c.y + r * Real.sin ((a + (if cw then 1 else -1) * x) * (Real.pi / 180)) := by
  have e := circular_position_localCoordinates (turnLane c r a b cw pr) c p r _ _ cw rfl hr
  rw [h1] at e
  set s := ((turnLane c r a b cw pr).localCoordinates p).1
  rw [turn_length] at h3
  have hpi := Real.pi_pos
  have e2 : (turnLane c r a b cw pr).position s 0 = c + r • Vec2.dir ((if cw then 1 else -1) * s / r + a * (Real.pi / 180)) := by
    simp only [turnLane, Lane.position, Lane.circDir, zero_mul, sub_zero]
  have e3 : (if cw then 1 else -1 : ℝ) * s / r + a * (Real.pi / 180) = (a + (if cw then 1 else -1) * (s / r * (180 / Real.pi))) * (Real.pi / 180) := by
    field_simp; ring
  rw [e2, e3] at e
  refine ⟨s / r * (180 / Real.pi), by positivity, ?_, by rw [← e]; simp [Vec2.dir], by rw [← e]; simp [Vec2.dir]⟩
  rw [div_mul_div_comm, div_le_iff₀ (by positivity)]
  have : r * ((b - a) * (Real.pi / 180)) * (if cw then 1 else -1) * 180 = (if cw then 1 else -1) * (b - a) * (r * Real.pi) := by ring
  linarith

private theorem quarter {x : ℝ} (h0 : 0 ≤ x) (h1 : x ≤ 90) : (0 ≤ Real.cos (x * (Real.pi / 180)) ∧ Real.cos (x * (Real.pi / 180)) ≤ 1) ∧
    (0 ≤ Real.sin (x * (Real.pi / 180)) ∧ Real.sin (x * (Real.pi / 180)) ≤ 1) := by
  have hpi := Real.pi_pos
  have a0 : 0 ≤ x * (Real.pi / 180) := by positivity
  have a1 : x * (Real.pi / 180) ≤ Real.pi / 2 := by nlinarith
  exact ⟨⟨Real.cos_nonneg_of_mem_Icc ⟨by linarith, a1⟩, Real.cos_le_one _⟩, Real.sin_nonneg_of_nonneg_of_le_pi a0 (by linarith), Real.sin_le_one _⟩

private theorem shift (x : ℝ) : Real.cos ((x + 90) * (Real.pi / 180)) = -Real.sin (x * (Real.pi / 180)) ∧
    Real.sin ((x + 90) * (Real.pi / 180)) = Real.cos (x * (Real.pi / 180)) := by
  have : (x + 90) * (Real.pi / 180) = x * (Real.pi / 180) + Real.pi / 2 := by ring
  rw [this, Real.cos_add_pi_div_two, Real.sin_add_pi_div_two]
  exact ⟨rfl, rfl⟩

/-- In each quadrant, cosine and sine have constant signs. -/
private theorem quadrants (n : ℤ) {x : ℝ} (h0 : 0 ≤ x) (h1 : x ≤ 90) :
    (∀ y, y = x + n * 360 → (0 ≤ Real.cos (y * (Real.pi / 180)) ∧ Real.cos (y * (Real.pi / 180)) ≤ 1) ∧
      (0 ≤ Real.sin (y * (Real.pi / 180)) ∧ Real.sin (y * (Real.pi / 180)) ≤ 1)) ∧
    (∀ y, y = x + 90 + n * 360 → (-1 ≤ Real.cos (y * (Real.pi / 180)) ∧ Real.cos (y * (Real.pi / 180)) ≤ 0) ∧
      (0 ≤ Real.sin (y * (Real.pi / 180)) ∧ Real.sin (y * (Real.pi / 180)) ≤ 1)) ∧
    (∀ y, y = x + 180 + n * 360 → (-1 ≤ Real.cos (y * (Real.pi / 180)) ∧ Real.cos (y * (Real.pi / 180)) ≤ 0) ∧
      (-1 ≤ Real.sin (y * (Real.pi / 180)) ∧ Real.sin (y * (Real.pi / 180)) ≤ 0)) ∧
    (∀ y, y = x + 270 + n * 360 → (0 ≤ Real.cos (y * (Real.pi / 180)) ∧ Real.cos (y * (Real.pi / 180)) ≤ 1) ∧
      (-1 ≤ Real.sin (y * (Real.pi / 180)) ∧ Real.sin (y * (Real.pi / 180)) ≤ 0)) := by
  obtain ⟨⟨c0, c1⟩, s0, s1⟩ := quarter h0 h1
  have turn : ∀ z : ℝ, Real.cos ((z + n * 360) * (Real.pi / 180)) = Real.cos (z * (Real.pi / 180)) ∧
      Real.sin ((z + n * 360) * (Real.pi / 180)) = Real.sin (z * (Real.pi / 180)) := by
    intro z
    have : (z + n * 360) * (Real.pi / 180) = z * (Real.pi / 180) + n * (2 * Real.pi) := by ring
    rw [this, Real.cos_add_int_mul_two_pi, Real.sin_add_int_mul_two_pi]
    exact ⟨rfl, rfl⟩
  obtain ⟨p1, q1⟩ := shift x
  obtain ⟨p2, q2⟩ := shift (x + 90)
  obtain ⟨p3, q3⟩ := shift (x + 90 + 90)
  rw [show x + 90 + 90 = x + 180 by ring] at p2 q2 p3 q3
  rw [show x + 180 + 90 = x + 270 by ring] at p3 q3
  refine ⟨?_, ?_, ?_, ?_⟩ <;> rintro y rfl <;> rw [(turn _).1, (turn _).2]
  · exact ⟨⟨c0, c1⟩, s0, s1⟩
  · rw [p1, q1]; exact ⟨⟨by linarith, by linarith⟩, by linarith, by linarith⟩
  · rw [p2, q2, p1, q1]; exact ⟨⟨by linarith, by linarith⟩, by linarith, by linarith⟩
  · rw [p3, q3, p2, q2, p1, q1]; exact ⟨⟨by linarith, by linarith⟩, by linarith, by linarith⟩

private theorem road_point {a b u : Vec2} {n : ℝ} (H : Along a b u n) {pr : Int} {p : Vec2} (h1 : ((roadLane a b pr).localCoordinates p).2 = 0)
    (h2 : 0 ≤ ((roadLane a b pr).localCoordinates p).1) (h3 : ((roadLane a b pr).localCoordinates p).1 ≤ (roadLane a b pr).length) :
    ∃ t, 0 ≤ t ∧ t ≤ n ∧ p.x = a.x + t * u.x ∧ p.y = a.y + t * u.y := by
  have hne : a ≠ b := by
    rintro rfl
    have e1 := H.x
    have e2 := H.y
    have := H.unit
    have hn := H.pos
    have x0 : u.x = 0 := by
      have : n * u.x = 0 := by linarith
      exact (mul_eq_zero.1 this).resolve_left hn.ne'
    have y0 : u.y = 0 := by
      have : n * u.y = 0 := by linarith
      exact (mul_eq_zero.1 this).resolve_left hn.ne'
    rw [x0, y0] at this
    norm_num at this
  have e := straight_position_localCoordinates (roadLane a b pr) a b p rfl hne
  rw [h1] at e
  refine ⟨_, h2, h3.trans (le_of_eq H.norm), ?_, ?_⟩
  · have := congrArg Vec2.x e
    rw [← this]
    change (Lane.straightPosition a b _ 0).x = _
    rw [H.straightPosition]; simp
  · have := congrArg Vec2.y e
    rw [← this]
    change (Lane.straightPosition a b _ 0).y = _
    rw [H.straightPosition]; simp

/-- The points of the centre lines: on the access of a side, on the exit of a side, or on the crossing. -/
private theorem spots {a b : String} {k : ℕ} {l : Lane} (h : HasLane interNet a b k l) {p : Vec2} {t : ℝ} (hd : l.distanceWithHeading p (some t) ≤ 0) :
    (|p.x| ≤ 11 ∧ |p.y| ≤ 11) ∨
    (a = "o0" ∧ b = "ir0" ∧ k = 0 ∧ p.x = 2) ∨ (a = "o1" ∧ b = "ir1" ∧ k = 0 ∧ p.y = 2 ∧ p.x ≤ 0) ∨ (a = "o2" ∧ b = "ir2" ∧ k = 0 ∧ p.x = -2) ∨
    (a = "o3" ∧ b = "ir3" ∧ k = 0 ∧ p.y = -2 ∧ 0 ≤ p.x) ∨
    (p.x = -2 ∧ 11 ≤ p.y) ∨ (p.y = -2 ∧ p.x ≤ -11) ∨ (p.x = 2 ∧ p.y ≤ -11) ∨ (p.y = 2 ∧ 11 ≤ p.x) := by
  obtain ⟨h1, h2, h3⟩ := Lane.near_zero hd
  rw [interNet_lanes] at h
  simp only [List.mem_cons, List.not_mem_nil, or_false, Prod.mk.injEq] at h
  rcases h with ⟨rfl, rfl, rfl, rfl⟩ | ⟨rfl, rfl, rfl, rfl⟩ | ⟨rfl, rfl, rfl, rfl⟩ | ⟨rfl, rfl, rfl, rfl⟩ | ⟨rfl, rfl, rfl, rfl⟩ | ⟨rfl, rfl, rfl, rfl⟩ |
    ⟨rfl, rfl, rfl, rfl⟩ | ⟨rfl, rfl, rfl, rfl⟩ | ⟨rfl, rfl, rfl, rfl⟩ | ⟨rfl, rfl, rfl, rfl⟩ | ⟨rfl, rfl, rfl, rfl⟩ | ⟨rfl, rfl, rfl, rfl⟩ |
    ⟨rfl, rfl, rfl, rfl⟩ | ⟨rfl, rfl, rfl, rfl⟩ | ⟨rfl, rfl, rfl, rfl⟩ | ⟨rfl, rfl, rfl, rfl⟩ | ⟨rfl, rfl, rfl, rfl⟩ | ⟨rfl, rfl, rfl, rfl⟩ |
    ⟨rfl, rfl, rfl, rfl⟩ | ⟨rfl, rfl, rfl, rfl⟩
  -- side 0
  · obtain ⟨t, t0, t1, e1, e2⟩ := road_point (u := ⟨0, -1⟩) (n := 100) (by constructor <;> norm_num) h1 h2 h3
    right; left; norm_num at e1; exact ⟨rfl, rfl, rfl, e1⟩
  · obtain ⟨x, x0, x1, e1, e2⟩ := turn_point (by norm_num) h1 h2 h3
    norm_num at x1
    obtain ⟨⟨a1, a2⟩, a3, a4⟩ := (quadrants 0 x0 x1).2.2.1 (180 + x) (by push_cast; ring)
    simp only [if_true, one_mul] at e1 e2
    left; rw [abs_le, abs_le, e1, e2]; exact ⟨⟨by linarith, by linarith⟩, by linarith, by linarith⟩
  · obtain ⟨x, x0, x1, e1, e2⟩ := turn_point (by norm_num) h1 h2 h3
    norm_num at x1
    obtain ⟨⟨a1, a2⟩, a3, a4⟩ := (quadrants (-1) (x := 90 - x) (by linarith) (by linarith)).2.2.2 (0 + -1 * x) (by push_cast; ring)
    simp only [Bool.false_eq_true, if_false] at e1 e2
    left; rw [abs_le, abs_le, e1, e2]; exact ⟨⟨by linarith, by linarith⟩, by linarith, by linarith⟩
  · obtain ⟨t, t0, t1, e1, e2⟩ := road_point (u := ⟨0, -1⟩) (n := 22) (by constructor <;> norm_num) h1 h2 h3
    left; norm_num at e1 e2; rw [abs_le, abs_le]; exact ⟨⟨by linarith, by linarith⟩, by linarith, by linarith⟩
  · obtain ⟨t, t0, t1, e1, e2⟩ := road_point (u := ⟨1, 0⟩) (n := 100) (by constructor <;> norm_num) h1 h2 h3
    iterate 8 right
    norm_num at e1 e2; exact ⟨e2, by linarith⟩
  -- side 1
  · obtain ⟨t, t0, t1, e1, e2⟩ := road_point (u := ⟨1, 0⟩) (n := 100) (by constructor <;> norm_num) h1 h2 h3
    right; right; left; norm_num at e1 e2; exact ⟨rfl, rfl, rfl, e2, by linarith⟩
  · obtain ⟨x, x0, x1, e1, e2⟩ := turn_point (by norm_num) h1 h2 h3
    norm_num at x1
    obtain ⟨⟨a1, a2⟩, a3, a4⟩ := (quadrants 0 x0 x1).2.2.2 (270 + x) (by push_cast; ring)
    simp only [if_true, one_mul] at e1 e2
    left; rw [abs_le, abs_le, e1, e2]; exact ⟨⟨by linarith, by linarith⟩, by linarith, by linarith⟩
  · obtain ⟨x, x0, x1, e1, e2⟩ := turn_point (by norm_num) h1 h2 h3
    norm_num at x1
    obtain ⟨⟨a1, a2⟩, a3, a4⟩ := (quadrants 0 (x := 90 - x) (by linarith) (by linarith)).1 (90 + -1 * x) (by push_cast; ring)
    simp only [Bool.false_eq_true, if_false] at e1 e2
    left; rw [abs_le, abs_le, e1, e2]; exact ⟨⟨by linarith, by linarith⟩, by linarith, by linarith⟩
  · obtain ⟨t, t0, t1, e1, e2⟩ := road_point (u := ⟨1, 0⟩) (n := 22) (by constructor <;> norm_num) h1 h2 h3
    left; norm_num at e1 e2; rw [abs_le, abs_le]; exact ⟨⟨by linarith, by linarith⟩, by linarith, by linarith⟩
  · obtain ⟨t, t0, t1, e1, e2⟩ := road_point (u := ⟨0, 1⟩) (n := 100) (by constructor <;> norm_num) h1 h2 h3
    iterate 5 right
    left; norm_num at e1 e2; exact ⟨e1, by linarith⟩
  -- side 2
  · obtain ⟨t, t0, t1, e1, e2⟩ := road_point (u := ⟨0, 1⟩) (n := 100) (by constructor <;> norm_num) h1 h2 h3
    right; right; right; left; norm_num at e1 e2; exact ⟨rfl, rfl, rfl, e1⟩
  · obtain ⟨x, x0, x1, e1, e2⟩ := turn_point (by norm_num) h1 h2 h3
    norm_num at x1
    obtain ⟨⟨a1, a2⟩, a3, a4⟩ := (quadrants 1 x0 x1).1 (360 + x) (by push_cast; ring)
    simp only [if_true, one_mul] at e1 e2
    left; rw [abs_le, abs_le, e1, e2]; exact ⟨⟨by linarith, by linarith⟩, by linarith, by linarith⟩
  · obtain ⟨x, x0, x1, e1, e2⟩ := turn_point (by norm_num) h1 h2 h3
    norm_num at x1
    obtain ⟨⟨a1, a2⟩, a3, a4⟩ := (quadrants 0 (x := 90 - x) (by linarith) (by linarith)).2.1 (180 + -1 * x) (by push_cast; ring)
    simp only [Bool.false_eq_true, if_false] at e1 e2
    left; rw [abs_le, abs_le, e1, e2]; exact ⟨⟨by linarith, by linarith⟩, by linarith, by linarith⟩
  · obtain ⟨t, t0, t1, e1, e2⟩ := road_point (u := ⟨0, 1⟩) (n := 22) (by constructor <;> norm_num) h1 h2 h3
    left; norm_num at e1 e2; rw [abs_le, abs_le]; exact ⟨⟨by linarith, by linarith⟩, by linarith, by linarith⟩
  · obtain ⟨t, t0, t1, e1, e2⟩ := road_point (u := ⟨-1, 0⟩) (n := 100) (by constructor <;> norm_num) h1 h2 h3
    iterate 6 right
    left; norm_num at e1 e2; exact ⟨e2, by linarith⟩
  -- side 3
  · obtain ⟨t, t0, t1, e1, e2⟩ := road_point (u := ⟨-1, 0⟩) (n := 100) (by constructor <;> norm_num) h1 h2 h3
    right; right; right; right; left; norm_num at e1 e2; exact ⟨rfl, rfl, rfl, e2, by linarith⟩
  · obtain ⟨x, x0, x1, e1, e2⟩ := turn_point (by norm_num) h1 h2 h3
    norm_num at x1
    obtain ⟨⟨a1, a2⟩, a3, a4⟩ := (quadrants 1 x0 x1).2.1 (450 + x) (by push_cast; ring)
    simp only [if_true, one_mul] at e1 e2
    left; rw [abs_le, abs_le, e1, e2]; exact ⟨⟨by linarith, by linarith⟩, by linarith, by linarith⟩
  · obtain ⟨x, x0, x1, e1, e2⟩ := turn_point (by norm_num) h1 h2 h3
    norm_num at x1
    obtain ⟨⟨a1, a2⟩, a3, a4⟩ := (quadrants 0 (x := 90 - x) (by linarith) (by linarith)).2.2.1 (270 + -1 * x) (by push_cast; ring)
    simp only [Bool.false_eq_true, if_false] at e1 e2
    left; rw [abs_le, abs_le, e1, e2]; exact ⟨⟨by linarith, by linarith⟩, by linarith, by linarith⟩
  · obtain ⟨t, t0, t1, e1, e2⟩ := road_point (u := ⟨-1, 0⟩) (n := 22) (by constructor <;> norm_num) h1 h2 h3
    left; norm_num at e1 e2; rw [abs_le, abs_le]; exact ⟨⟨by linarith, by linarith⟩, by linarith, by linarith⟩
  · obtain ⟨t, t0, t1, e1, e2⟩ := road_point (u := ⟨0, -1⟩) (n := 100) (by constructor <;> norm_num) h1 h2 h3
    iterate 7 right
    left; norm_num at e1 e2; exact ⟨e1, by linarith⟩

/-- The centre lines of the accesses, in coordinates. -/
theorem access_point (a : Fin 4) (s : ℝ) : (accessLane a).position s 0 =
    ([⟨2, 111 - s⟩, ⟨-111 + s, 2⟩, ⟨-2, -111 + s⟩, ⟨111 - s, -2⟩] : List Vec2)[a] ∧ (accessLane a).length = 100 ∧
    (accessLane a).headingAt s = ([-(Real.pi / 2), 0, Real.pi / 2, Real.pi] : List ℝ)[a] ∧ (accessLane a).speedLimit = 10 ∧
    (accessLane a).localCoordinates ((accessLane a).position s 0) = (s, 0) := by
  have go : ∀ {p q u : Vec2} {h : ℝ} {pr : Int}, Along p q u 100 → p ≠ q → arctan2 u.y u.x = h →
      (roadLane p q pr).position s 0 = ⟨p.x + s * u.x, p.y + s * u.y⟩ ∧ (roadLane p q pr).length = 100 ∧ (roadLane p q pr).headingAt s = h ∧
      (roadLane p q pr).speedLimit = 10 ∧ (roadLane p q pr).localCoordinates ((roadLane p q pr).position s 0) = (s, 0) := by
    intro p q u h pr H hne hh
    refine ⟨?_, H.norm, H.heading.trans hh, rfl, straight_localCoordinates_position _ p q s 0 rfl hne⟩
    change Lane.straightPosition p q s 0 = _
    rw [H.straightPosition]; simp
  have hfin : a = 0 ∨ a = 1 ∨ a = 2 ∨ a = 3 := by omega
  rcases hfin with rfl | rfl | rfl | rfl
  · obtain ⟨h1, h2⟩ := go (p := ⟨2, 111⟩) (q := ⟨2, 11⟩) (u := ⟨0, -1⟩) (pr := 1) (by constructor <;> norm_num) (by intro h; simp at h) arctan2_south
    refine ⟨h1.trans ?_, h2⟩
    ext <;> simp; ring
  · obtain ⟨h1, h2⟩ := go (p := ⟨-111, 2⟩) (q := ⟨-11, 2⟩) (u := ⟨1, 0⟩) (pr := 3) (by constructor <;> norm_num) (by intro h; simp at h) arctan2_east
    refine ⟨h1.trans ?_, h2⟩
    ext <;> simp
  · obtain ⟨h1, h2⟩ := go (p := ⟨-2, -111⟩) (q := ⟨-2, -11⟩) (u := ⟨0, 1⟩) (pr := 1) (by constructor <;> norm_num) (by intro h; simp at h) arctan2_north
    refine ⟨h1.trans ?_, h2⟩
    ext <;> simp
  · obtain ⟨h1, h2⟩ := go (p := ⟨111, -2⟩) (q := ⟨11, -2⟩) (u := ⟨-1, 0⟩) (pr := 3) (by constructor <;> norm_num) (by intro h; simp at h) arctan2_west
    refine ⟨h1.trans ?_, h2⟩
    ext <;> simp; ring

/-- The access of a side is a lane of the map. -/
theorem access_lane (a : Fin 4) : HasLane interNet (outer a) (ingress a) 0 (accessLane a) := by
  have hfin : a = 0 ∨ a = 1 ∨ a = 2 ∨ a = 3 := by omega
  rw [interNet_lanes]
  rcases hfin with rfl | rfl | rfl | rfl <;> simp [outer, ingress, accessLane]

/-- **C61, intersection**: a vehicle put on the access of a side before the crossing, in the direction of the road, is found on that access and on
no other lane. -/
theorem inter_here (a : Fin 4) (s : ℝ) (h0 : 0 ≤ s) (h1 : s < 100) :
    interNet.getClosestLaneIndex ((accessLane a).position s 0) (some ((accessLane a).headingAt s)) = .ok ⟨outer a, ingress a, 0⟩ := by
  refine closest_unique interNet_wf (k := 0) (access_lane a) ?_ ?_
  · obtain ⟨_, h2, _, _, h5⟩ := access_point a s
    have e : (accessLane a).headingAt s = (accessLane a).headingAt ((accessLane a).localCoordinates ((accessLane a).position s 0)).1 := by rw [h5]
    simp only [Lane.distanceWithHeading]
    rw [← e, h5, sub_self, wrap_zero, h2]
    rw [max_eq_right (by dsimp only; linarith), max_eq_right (by dsimp only; linarith)]
    simp
  · intro a' b' k' l h hd
    have hs := spots h hd
    obtain ⟨hp, _⟩ := access_point a s
    rw [hp] at hs
    have hfin : a = 0 ∨ a = 1 ∨ a = 2 ∨ a = 3 := by omega
    rcases hfin with rfl | rfl | rfl | rfl
    · change (|2| ≤ 11 ∧ |111 - s| ≤ 11) ∨ (_ ∧ _ ∧ _ ∧ (2 : ℝ) = 2) ∨ (_ ∧ _ ∧ _ ∧ 111 - s = 2 ∧ (2 : ℝ) ≤ 0) ∨ (_ ∧ _ ∧ _ ∧ (2 : ℝ) = -2) ∨
        (_ ∧ _ ∧ _ ∧ 111 - s = -2 ∧ (0 : ℝ) ≤ 2) ∨ ((2 : ℝ) = -2 ∧ 11 ≤ 111 - s) ∨ (111 - s = -2 ∧ (2 : ℝ) ≤ -11) ∨ ((2 : ℝ) = 2 ∧ 111 - s ≤ -11) ∨
        (111 - s = 2 ∧ (11 : ℝ) ≤ 2) at hs
      rw [abs_le, abs_le] at hs
      rcases hs with h | ⟨e1, e2, e3, _⟩ | ⟨_, _, _, h⟩ | ⟨_, _, _, h⟩ | ⟨_, _, _, h⟩ | h | h | h | h
      · linarith [h.2.2]
      · exact ⟨e1, e2, e3⟩
      all_goals (exfalso; first | linarith [h.1] | linarith [h.2] | linarith)
    · change (|-111 + s| ≤ 11 ∧ |2| ≤ 11) ∨ (_ ∧ _ ∧ _ ∧ -111 + s = 2) ∨ (_ ∧ _ ∧ _ ∧ (2 : ℝ) = 2 ∧ -111 + s ≤ 0) ∨ (_ ∧ _ ∧ _ ∧ -111 + s = -2) ∨
        (_ ∧ _ ∧ _ ∧ (2 : ℝ) = -2 ∧ 0 ≤ -111 + s) ∨ (-111 + s = -2 ∧ (11 : ℝ) ≤ 2) ∨ ((2 : ℝ) = -2 ∧ -111 + s ≤ -11) ∨ (-111 + s = 2 ∧ (2 : ℝ) ≤ -11) ∨
        ((2 : ℝ) = 2 ∧ 11 ≤ -111 + s) at hs
      rw [abs_le, abs_le] at hs
      rcases hs with h | ⟨_, _, _, h⟩ | ⟨e1, e2, e3, _⟩ | ⟨_, _, _, h⟩ | ⟨_, _, _, h⟩ | h | h | h | h
      · linarith [h.1.1]
      · exfalso; linarith
      · exact ⟨e1, e2, e3⟩
      all_goals (exfalso; first | linarith [h.1] | linarith [h.2] | linarith)
    · change (|-2| ≤ 11 ∧ |-111 + s| ≤ 11) ∨ (_ ∧ _ ∧ _ ∧ (-2 : ℝ) = 2) ∨ (_ ∧ _ ∧ _ ∧ -111 + s = 2 ∧ (-2 : ℝ) ≤ 0) ∨ (_ ∧ _ ∧ _ ∧ (-2 : ℝ) = -2) ∨
        (_ ∧ _ ∧ _ ∧ -111 + s = -2 ∧ (0 : ℝ) ≤ -2) ∨ ((-2 : ℝ) = -2 ∧ 11 ≤ -111 + s) ∨ (-111 + s = -2 ∧ (-2 : ℝ) ≤ -11) ∨ ((-2 : ℝ) = 2 ∧ -111 + s ≤ -11) ∨
        (-111 + s = 2 ∧ (11 : ℝ) ≤ -2) at hs
      rw [abs_le, abs_le] at hs
      rcases hs with h | ⟨_, _, _, h⟩ | ⟨_, _, _, h⟩ | ⟨e1, e2, e3, _⟩ | ⟨_, _, _, h⟩ | h | h | h | h
      · linarith [h.2.1]
      · exfalso; linarith
      · exfalso; linarith [h.1]
      · exact ⟨e1, e2, e3⟩
      all_goals (exfalso; first | linarith [h.1] | linarith [h.2] | linarith)
    · change (|111 - s| ≤ 11 ∧ |-2| ≤ 11) ∨ (_ ∧ _ ∧ _ ∧ 111 - s = 2) ∨ (_ ∧ _ ∧ _ ∧ (-2 : ℝ) = 2 ∧ 111 - s ≤ 0) ∨ (_ ∧ _ ∧ _ ∧ 111 - s = -2) ∨
        (_ ∧ _ ∧ _ ∧ (-2 : ℝ) = -2 ∧ 0 ≤ 111 - s) ∨ (111 - s = -2 ∧ (11 : ℝ) ≤ -2) ∨ ((-2 : ℝ) = -2 ∧ 111 - s ≤ -11) ∨ (111 - s = 2 ∧ (-2 : ℝ) ≤ -11) ∨
        ((-2 : ℝ) = 2 ∧ 11 ≤ 111 - s) at hs
      rw [abs_le, abs_le] at hs
      rcases hs with h | ⟨_, _, _, h⟩ | ⟨_, _, _, h⟩ | ⟨_, _, _, h⟩ | ⟨e1, e2, e3, _⟩ | h | h | h | h
      · linarith [h.1.2]
      · exfalso; linarith
      · exfalso; linarith [h.1]
      · exfalso; linarith
      · exact ⟨e1, e2, e3⟩
      all_goals (exfalso; first | linarith [h.1] | linarith [h.2] | linarith)

end HighwayEnv.Props
