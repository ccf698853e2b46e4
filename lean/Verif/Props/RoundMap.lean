import Verif.Spec.Roundabout
import Verif.Lemmas.Segment
import Verif.Lemmas.Listing
import Verif.Lemmas.Level

/-!
# C61: the map of the roundabout
-/

noncomputable section
open Classical
namespace HighwayEnv.Props
open HighwayEnv HighwayEnv.Spec Graph

private theorem circle_eq (k : ℕ) (hk : k = 0 ∨ k = 1) (a b : ℝ) : Roundabout.circle k a b = ringLane k a b := by
  unfold Roundabout.circle ringLane Roundabout.deg2rad
  rcases hk with rfl | rfl <;> norm_num

private theorem inner_ring : Roundabout.circleLanes [] 0 =
    [("se", [("ex", [ringLane 0 66 24])]), ("ex", [("ee", [ringLane 0 24 (-24)])]), ("ee", [("nx", [ringLane 0 (-24) (-66)])]),
     ("nx", [("ne", [ringLane 0 (-66) (-114)])]), ("ne", [("wx", [ringLane 0 (-114) (-156)])]), ("wx", [("we", [ringLane 0 (-156) (-204)])]),
     ("we", [("sx", [ringLane 0 156 114])]), ("sx", [("se", [ringLane 0 114 66])])] := by
  have n1 : (90 - 24 : ℝ) = 66 := by norm_num
  have n2 : (-90 + 24 : ℝ) = -66 := by norm_num
  have n3 : (-90 - 24 : ℝ) = -114 := by norm_num
  have n4 : (-180 + 24 : ℝ) = -156 := by norm_num
  have n5 : (-180 - 24 : ℝ) = -204 := by norm_num
  have n6 : (180 - 24 : ℝ) = 156 := by norm_num
  have n7 : (90 + 24 : ℝ) = 114 := by norm_num
  unfold Roundabout.circleLanes
  simp only [circle_eq 0 (.inl rfl), n1, n2, n3, n4, n5, n6, n7]
  simp [addLane, Dict.get?, Dict.setItem]

private theorem both_rings : Roundabout.circleLanes (Roundabout.circleLanes [] 0) 1 =
    [("se", [("ex", ringRoad 66 24)]), ("ex", [("ee", ringRoad 24 (-24))]), ("ee", [("nx", ringRoad (-24) (-66))]),
     ("nx", [("ne", ringRoad (-66) (-114))]), ("ne", [("wx", ringRoad (-114) (-156))]), ("wx", [("we", ringRoad (-156) (-204))]),
     ("we", [("sx", ringRoad 156 114)]), ("sx", [("se", ringRoad 114 66)])] := by
  rw [inner_ring]
  have n1 : (90 - 24 : ℝ) = 66 := by norm_num
  have n2 : (-90 + 24 : ℝ) = -66 := by norm_num
  have n3 : (-90 - 24 : ℝ) = -114 := by norm_num
  have n4 : (-180 + 24 : ℝ) = -156 := by norm_num
  have n5 : (-180 - 24 : ℝ) = -204 := by norm_num
  have n6 : (180 - 24 : ℝ) = 156 := by norm_num
  have n7 : (90 + 24 : ℝ) = 114 := by norm_num
  unfold Roundabout.circleLanes
  simp only [circle_eq 1 (.inr rfl), n1, n2, n3, n4, n5, n6, n7]
  simp [addLane, Dict.get?, Dict.setItem, ringRoad]

/-- **C61, roundabout.**  The network built by the environment is the documented map. -/
theorem round_network : Roundabout.network = roundNet := by
  have e1 : Roundabout.deltaSt = 17 := by norm_num [Roundabout.deltaSt, Roundabout.dev]
  have e2 : Roundabout.deltaEn = 68 := by rw [Roundabout.deltaEn, e1, Roundabout.dev]; norm_num
  have s1 : ∀ a b, Roundabout.straight a b = plainLane a b := fun _ _ => rfl
  have s2 : ∀ a b, Roundabout.entrySine a b = swerveLane a b entryPhase := fun _ _ => rfl
  have s3 : ∀ a b, Roundabout.exitSine a b = swerveLane a b exitPhase := fun _ _ => by
    unfold Roundabout.exitSine; rw [e2]; rfl
  unfold Roundabout.network
  rw [both_rings]
  unfold Roundabout.accessLanes
  have m1 : (85 / 2 : ℝ) = 42.5 := by norm_num
  have m2 : (42.5 - 17 : ℝ) = 25.5 := by norm_num
  have m3 : (-85 / 2 : ℝ) = -42.5 := by norm_num
  have m4 : (-42.5 + 68 : ℝ) = 25.5 := by norm_num
  have m5 : (42.5 - 68 : ℝ) = -25.5 := by norm_num
  have m6 : (-42.5 + 17 : ℝ) = -25.5 := by norm_num
  have m7 : (2 + 5 : ℝ) = 7 := by norm_num
  have m8 : (-2 - 5 : ℝ) = -7 := by norm_num
  simp only [s1, s2, s3, e1, e2, Roundabout.dev, Roundabout.amp, Roundabout.access, m1, m2, m3, m4, m5, m6, m7, m8]
  simp [addLane, Dict.get?, Dict.setItem, roundNet]

theorem roundNet_wf : WellFormed roundNet where
  outer := by simp [roundNet]
  inner := by simp [roundNet]
  nonemptyNode := by simp [roundNet]
  nonemptyEdge := by
    simp only [roundNet, ringRoad, List.mem_cons, List.not_mem_nil, or_false]
    rintro nd hnd kl hkl
    rcases hnd with rfl | rfl | rfl | rfl | rfl | rfl | rfl | rfl | rfl | rfl | rfl | rfl | rfl | rfl | rfl | rfl | rfl | rfl | rfl | rfl <;>
      simp only [List.mem_cons, List.not_mem_nil, or_false] at hkl <;> first | (subst hkl; simp) | (rcases hkl with rfl | rfl <;> simp)

/-- All lanes of the map. -/
theorem roundNet_lanes {a b : String} {k : ℕ} {l : Lane} : HasLane roundNet a b k l ↔ (a, b, k, l) ∈
    [("se", "ex", 0, ringLane 0 66 24), ("se", "ex", 1, ringLane 1 66 24), ("ex", "ee", 0, ringLane 0 24 (-24)), ("ex", "ee", 1, ringLane 1 24 (-24)),
     ("ex", "exs", 0, swerveLane ⟨25.5, 7⟩ ⟨42.5, 7⟩ exitPhase),
     ("ee", "nx", 0, ringLane 0 (-24) (-66)), ("ee", "nx", 1, ringLane 1 (-24) (-66)),
     ("nx", "ne", 0, ringLane 0 (-66) (-114)), ("nx", "ne", 1, ringLane 1 (-66) (-114)),
     ("nx", "nxs", 0, swerveLane ⟨7, -25.5⟩ ⟨7, -42.5⟩ exitPhase),
     ("ne", "wx", 0, ringLane 0 (-114) (-156)), ("ne", "wx", 1, ringLane 1 (-114) (-156)),
     ("wx", "we", 0, ringLane 0 (-156) (-204)), ("wx", "we", 1, ringLane 1 (-156) (-204)),
     ("wx", "wxs", 0, swerveLane ⟨-25.5, -7⟩ ⟨-42.5, -7⟩ exitPhase),
     ("we", "sx", 0, ringLane 0 156 114), ("we", "sx", 1, ringLane 1 156 114), ("sx", "se", 0, ringLane 0 114 66), ("sx", "se", 1, ringLane 1 114 66),
     ("sx", "sxs", 0, swerveLane ⟨-7, 25.5⟩ ⟨-7, 42.5⟩ exitPhase),
     ("ser", "ses", 0, plainLane ⟨2, 170⟩ ⟨2, 42.5⟩), ("ses", "se", 0, swerveLane ⟨7, 42.5⟩ ⟨7, 25.5⟩ entryPhase),
     ("sxs", "sxr", 0, plainLane ⟨-2, 42.5⟩ ⟨-2, 170⟩),
     ("eer", "ees", 0, plainLane ⟨170, -2⟩ ⟨42.5, -2⟩), ("ees", "ee", 0, swerveLane ⟨42.5, -7⟩ ⟨25.5, -7⟩ entryPhase),
     ("exs", "exr", 0, plainLane ⟨42.5, 2⟩ ⟨170, 2⟩),
     ("ner", "nes", 0, plainLane ⟨-2, -170⟩ ⟨-2, -42.5⟩), ("nes", "ne", 0, swerveLane ⟨-7, -42.5⟩ ⟨-7, -25.5⟩ entryPhase),
     ("nxs", "nxr", 0, plainLane ⟨2, -42.5⟩ ⟨2, -170⟩),
     ("wer", "wes", 0, plainLane ⟨-170, 2⟩ ⟨-42.5, 2⟩), ("wes", "we", 0, swerveLane ⟨-42.5, 7⟩ ⟨-25.5, 7⟩ entryPhase),
     ("wxs", "wxr", 0, plainLane ⟨-42.5, -2⟩ ⟨-170, -2⟩)] := Graph.hasLane_iff

/-! ### Geometry -/

theorem ring_length (k : ℕ) (a b : ℝ) : (ringLane k a b).length = (20 + 4 * k) * ((a - b) * (Real.pi / 180)) := by
  simp only [ringLane, Lane.length, Lane.circDir]
  norm_num; ring

theorem ring_position (k : ℕ) (a b s r : ℝ) : (ringLane k a b).position s r =
    (20 + 4 * (k : ℝ) + r) • Vec2.dir (a * (Real.pi / 180) - s / (20 + 4 * k)) := by
  simp only [ringLane, Lane.position, Lane.circDir, Bool.false_eq_true, if_false]
  have e1 : -1 * s / (20 + 4 * (k : ℝ)) + a * (Real.pi / 180) = a * (Real.pi / 180) - s / (20 + 4 * k) := by ring
  have e2 : 20 + 4 * (k : ℝ) - r * -1 = 20 + 4 * (k : ℝ) + r := by ring
  rw [e1, e2]
  ext <;> simp

theorem ring_heading (k : ℕ) (a b s : ℝ) : (ringLane k a b).headingAt s = a * (Real.pi / 180) - s / (20 + 4 * k) - Real.pi / 2 := by
  simp only [ringLane, Lane.headingAt, Lane.circDir, Bool.false_eq_true, if_false]
  ring

private theorem ring_end (k : ℕ) (a b : ℝ) : a * (Real.pi / 180) - (ringLane k a b).length / (20 + 4 * k) = b * (Real.pi / 180) := by
  have : (20 + 4 * (k : ℝ)) ≠ 0 := by positivity
  rw [ring_length, mul_div_cancel_left₀ _ this]
  ring

/-- The start of a piece of the circle, in degrees, from its first node. -/
private def startAngle : String → ℝ
  | "se" => 66 | "ex" => 24 | "ee" => -24 | "nx" => -66 | "ne" => -114 | "wx" => -156 | "we" => 156 | "sx" => 114 | _ => 0
/-- The end of a piece of the circle, in degrees, from its last node. -/
private def endAngle : String → ℝ
  | "se" => 66 | "ex" => 24 | "ee" => -24 | "nx" => -66 | "ne" => -114 | "wx" => -156 | "we" => -204 | "sx" => 114 | _ => 0

private theorem ring_piece {a b : String} {k : ℕ} {l : Lane} (ha : a ∈ ringNodes) (hb : b ∈ ringNodes) (h : HasLane roundNet a b k l) :
    (k = 0 ∨ k = 1) ∧ l = ringLane k (startAngle a) (endAngle b) := by
  rw [roundNet_lanes] at h
  simp only [List.mem_cons, List.not_mem_nil, or_false, Prod.mk.injEq] at h
  rcases h with ⟨rfl, rfl, rfl, rfl⟩ | ⟨rfl, rfl, rfl, rfl⟩ | ⟨rfl, rfl, rfl, rfl⟩ | ⟨rfl, rfl, rfl, rfl⟩ | ⟨rfl, rfl, rfl, rfl⟩ |
    ⟨rfl, rfl, rfl, rfl⟩ | ⟨rfl, rfl, rfl, rfl⟩ | ⟨rfl, rfl, rfl, rfl⟩ | ⟨rfl, rfl, rfl, rfl⟩ | ⟨rfl, rfl, rfl, rfl⟩ |
    ⟨rfl, rfl, rfl, rfl⟩ | ⟨rfl, rfl, rfl, rfl⟩ | ⟨rfl, rfl, rfl, rfl⟩ | ⟨rfl, rfl, rfl, rfl⟩ | ⟨rfl, rfl, rfl, rfl⟩ |
    ⟨rfl, rfl, rfl, rfl⟩ | ⟨rfl, rfl, rfl, rfl⟩ | ⟨rfl, rfl, rfl, rfl⟩ | ⟨rfl, rfl, rfl, rfl⟩ | ⟨rfl, rfl, rfl, rfl⟩ |
    ⟨rfl, rfl, rfl, rfl⟩ | ⟨rfl, rfl, rfl, rfl⟩ | ⟨rfl, rfl, rfl, rfl⟩ | ⟨rfl, rfl, rfl, rfl⟩ | ⟨rfl, rfl, rfl, rfl⟩ |
    ⟨rfl, rfl, rfl, rfl⟩ | ⟨rfl, rfl, rfl, rfl⟩ | ⟨rfl, rfl, rfl, rfl⟩ | ⟨rfl, rfl, rfl, rfl⟩ | ⟨rfl, rfl, rfl, rfl⟩ |
    ⟨rfl, rfl, rfl, rfl⟩ | ⟨rfl, rfl, rfl, rfl⟩ <;> first | exact ⟨.inl rfl, rfl⟩ | exact ⟨.inr rfl, rfl⟩ | (simp [ringNodes] at ha hb)

/-- **C61, roundabout**: each lane of the circle goes on, without a gap or a kink, in the lane of the same number of the next piece, all
around. -/
theorem round_ring_closed (a b c : String) (ha : a ∈ ringNodes) (hb : b ∈ ringNodes) (hc : c ∈ ringNodes) (k : ℕ) (l l' : Lane)
    (h : HasLane roundNet a b k l) (h' : HasLane roundNet b c k l') : JoinsTurn l l' := by
  obtain ⟨_, rfl⟩ := ring_piece ha hb h
  obtain ⟨_, rfl⟩ := ring_piece hb hc h'
  have key : ∃ n : ℤ, endAngle b * (Real.pi / 180) = startAngle b * (Real.pi / 180) + n * (2 * Real.pi) := by
    simp only [ringNodes, List.mem_cons, List.not_mem_nil, or_false] at hb
    rcases hb with rfl | rfl | rfl | rfl | rfl | rfl | rfl | rfl <;>
      first
        | (refine ⟨0, ?_⟩; simp only [endAngle, startAngle]; push_cast; ring; done)
        | (refine ⟨-1, ?_⟩; simp only [endAngle, startAngle]; push_cast; ring)
  obtain ⟨n, hn⟩ := key
  unfold JoinsTurn
  rw [ring_position, ring_position, ring_heading, ring_heading, ring_end, hn]
  refine ⟨?_, n, by ring⟩
  have e : startAngle b * (Real.pi / 180) - 0 / (20 + 4 * (k : ℝ)) = startAngle b * (Real.pi / 180) := by ring
  rw [e]
  unfold Vec2.dir
  rw [Real.cos_add_int_mul_two_pi, Real.sin_add_int_mul_two_pi]

/-! ### Accesses -/

private theorem swerve_position {a b u : Vec2} {n : ℝ} (h : Along a b u n) (ph s r : ℝ) : (swerveLane a b ph).position s r =
    ⟨a.x + s * u.x - (r + 5 * Real.sin (2 * Real.pi / 85 * s + ph)) * u.y, a.y + s * u.y + (r + 5 * Real.sin (2 * Real.pi / 85 * s + ph)) * u.x⟩ := by
  simp only [swerveLane, Lane.position]
  exact h.straightPosition s _

private theorem swerve_length {a b u : Vec2} {n : ℝ} (h : Along a b u n) (ph : ℝ) : (swerveLane a b ph).length = n := h.norm

private theorem swerve_heading {a b u : Vec2} {n : ℝ} (h : Along a b u n) (ph s : ℝ) : (swerveLane a b ph).headingAt s =
    arctan2 u.y u.x + Real.arctan (5 * (2 * Real.pi / 85) * Real.cos (2 * Real.pi / 85 * s + ph)) := by
  simp only [swerveLane, Lane.headingAt, h.heading]

private theorem plain_position {a b u : Vec2} {n : ℝ} (h : Along a b u n) (s r : ℝ) : (plainLane a b).position s r =
    ⟨a.x + s * u.x - r * u.y, a.y + s * u.y + r * u.x⟩ := h.straightPosition s r

private theorem plain_length {a b u : Vec2} {n : ℝ} (h : Along a b u n) : (plainLane a b).length = n := h.norm

private theorem plain_heading {a b u : Vec2} {n : ℝ} (h : Along a b u n) (s : ℝ) : (plainLane a b).headingAt s = arctan2 u.y u.x := h.heading

private theorem entry_joins {a b c d u : Vec2} {m n : ℝ} (h : Along a b u m) (h' : Along c d u n) (hx : c.x = b.x - 5 * u.y) (hy : c.y = b.y + 5 * u.x) :
    Joins (plainLane a b) (swerveLane c d entryPhase) := by
  have e1 : Real.sin (2 * Real.pi / 85 * 0 + entryPhase) = -1 := by
    unfold entryPhase; rw [mul_zero, zero_add, neg_div, Real.sin_neg, Real.sin_pi_div_two]
  have e2 : Real.cos (2 * Real.pi / 85 * 0 + entryPhase) = 0 := by
    unfold entryPhase; rw [mul_zero, zero_add, neg_div, Real.cos_neg, Real.cos_pi_div_two]
  unfold Joins
  rw [plain_length h, plain_position h, plain_heading h, swerve_position h', swerve_heading h', e1, e2, hx, hy, h.x, h.y]
  constructor
  · ext <;> simp only <;> ring
  · simp

private theorem exit_joins {a b c d u : Vec2} {m : ℝ} (h : Along c d u 17) (h' : Along a b u m) (hx : d.x = a.x - 5 * u.y) (hy : d.y = a.y + 5 * u.x) :
    Joins (swerveLane c d exitPhase) (plainLane a b) := by
  have e0 : 2 * Real.pi / 85 * 17 + exitPhase = -(Real.pi / 2) + 2 * Real.pi := by unfold exitPhase; ring
  have e1 : Real.sin (2 * Real.pi / 85 * 17 + exitPhase) = -1 := by
    rw [e0, Real.sin_add_two_pi, Real.sin_neg, Real.sin_pi_div_two]
  have e2 : Real.cos (2 * Real.pi / 85 * 17 + exitPhase) = 0 := by
    rw [e0, Real.cos_add_two_pi, Real.cos_neg, Real.cos_pi_div_two]
  have := h.x
  have := h.y
  unfold Joins
  rw [swerve_length h, plain_position h', plain_heading h', swerve_position h, swerve_heading h, e1, e2]
  constructor
  · ext <;> simp only <;> linarith
  · simp

/-- The nodes between the straight part and the swerving part of an access or an exit. -/
def bendNodes : List String := ["ses", "ees", "nes", "wes", "sxs", "exs", "nxs", "wxs"]

/-- **C61, roundabout**: the straight and swerving parts of the accesses and exits are joined without a gap or a kink. -/
theorem round_access_joined (a n c : String) (hn : n ∈ bendNodes) (k k' : ℕ) (l l' : Lane) (h : HasLane roundNet a n k l)
    (h' : HasLane roundNet n c k' l') : Joins l l' := by
  simp only [bendNodes, List.mem_cons, List.not_mem_nil, or_false] at hn
  rw [roundNet_lanes] at h h'
  rcases hn with rfl | rfl | rfl | rfl | rfl | rfl | rfl | rfl <;> simp at h h' <;>
    obtain ⟨rfl, rfl, rfl⟩ := h <;> obtain ⟨rfl, rfl, rfl⟩ := h'
  · exact entry_joins (u := ⟨0, -1⟩) (m := 127.5) (n := 17) (by constructor <;> norm_num) (by constructor <;> norm_num) (by norm_num) (by norm_num)
  · exact entry_joins (u := ⟨-1, 0⟩) (m := 127.5) (n := 17) (by constructor <;> norm_num) (by constructor <;> norm_num) (by norm_num) (by norm_num)
  · exact entry_joins (u := ⟨0, 1⟩) (m := 127.5) (n := 17) (by constructor <;> norm_num) (by constructor <;> norm_num) (by norm_num) (by norm_num)
  · exact entry_joins (u := ⟨1, 0⟩) (m := 127.5) (n := 17) (by constructor <;> norm_num) (by constructor <;> norm_num) (by norm_num) (by norm_num)
  · exact exit_joins (u := ⟨0, 1⟩) (m := 127.5) (by constructor <;> norm_num) (by constructor <;> norm_num) (by norm_num) (by norm_num)
  · exact exit_joins (u := ⟨1, 0⟩) (m := 127.5) (by constructor <;> norm_num) (by constructor <;> norm_num) (by norm_num) (by norm_num)
  · exact exit_joins (u := ⟨0, -1⟩) (m := 127.5) (by constructor <;> norm_num) (by constructor <;> norm_num) (by norm_num) (by norm_num)
  · exact exit_joins (u := ⟨-1, 0⟩) (m := 127.5) (by constructor <;> norm_num) (by constructor <;> norm_num) (by norm_num) (by norm_num)

/-- The direction in which the access or exit next to a node of the circle leaves the circle. -/
private def outward : String → Vec2
  | "se" => ⟨0, 1⟩ | "sx" => ⟨0, 1⟩ | "ee" => ⟨1, 0⟩ | "ex" => ⟨1, 0⟩ | "ne" => ⟨0, -1⟩ | "nx" => ⟨0, -1⟩ | "we" => ⟨-1, 0⟩ | "wx" => ⟨-1, 0⟩ | _ => ⟨1, 0⟩

private theorem ring_reach (k : ℕ) (hk : k = 0 ∨ k = 1) (a b s : ℝ) (n : String) : ((ringLane k a b).position s 0).dot (outward n) ≤ 24 := by
  rw [ring_position]
  have hr : (0 : ℝ) ≤ 20 + 4 * k + 0 ∧ 20 + 4 * (k : ℝ) + 0 ≤ 24 := by rcases hk with rfl | rfl <;> norm_num
  have key : ∀ t c : ℝ, |c| ≤ 1 → (20 + 4 * (k : ℝ) + 0) * c ≤ 24 ∧ -((20 + 4 * (k : ℝ) + 0) * c) ≤ 24 := by
    intro _ c hc
    obtain ⟨h1, h2⟩ := abs_le.1 hc
    constructor <;> nlinarith
  have h1 := key 0 _ (Real.abs_cos_le_one (a * (Real.pi / 180) - s / (20 + 4 * (k : ℝ))))
  have h2 := key 0 _ (Real.abs_sin_le_one (a * (Real.pi / 180) - s / (20 + 4 * (k : ℝ))))
  unfold outward
  split <;> simp only [Vec2.dot, Vec2.smul_x, Vec2.smul_y, Vec2.dir] <;> linarith [h1.1, h1.2, h2.1, h2.2]

private theorem swerve_reach {a b u w : Vec2} {n : ℝ} (h : Along a b u n) (ph s : ℝ) (x : ℝ) (hx : a.dot w + s * u.dot w = x) (hw : u.x * w.y = u.y * w.x) :
    ((swerveLane a b ph).position s 0).dot w = x := by
  rw [swerve_position h, ← hx]
  simp only [Vec2.dot]
  linear_combination (0 + 5 * Real.sin (2 * Real.pi / 85 * s + ph)) * hw

private theorem gap_of_reach {p q w : Vec2} (hw : w.x ^ 2 + w.y ^ 2 = 1) (hp : p.dot w ≤ 24) (hq : q.dot w = 25.5) : 3 / 2 ≤ (q - p).norm ∧ 3 / 2 ≤ (p - q).norm := by
  have : 3 / 2 ≤ (q - p).norm := by
    apply Real.le_sqrt_of_sq_le
    simp only [Vec2.sub_x, Vec2.sub_y]
    simp only [Vec2.dot] at hp hq
    have h1 : 3 / 2 ≤ (q.x - p.x) * w.x + (q.y - p.y) * w.y := by linarith
    have h2 : ((q.x - p.x) * w.x + (q.y - p.y) * w.y) ^ 2 ≤ ((q.x - p.x) ^ 2 + (q.y - p.y) ^ 2) * (w.x ^ 2 + w.y ^ 2) := by
      nlinarith [sq_nonneg ((q.x - p.x) * w.y - (q.y - p.y) * w.x)]
    rw [hw, mul_one] at h2
    nlinarith
  exact ⟨this, by rw [Vec2.norm_sub_comm]; exact this⟩

private theorem outward_unit (n : String) : (outward n).x ^ 2 + (outward n).y ^ 2 = 1 := by
  unfold outward; split <;> norm_num

/-- **C61, roundabout**: the accesses do *not* lead into the circle: each ends at least 1.5 m away from where any lane of the circle starts. -/
theorem round_entry_gap (a n c : String) (ha : a ∉ ringNodes) (hn : n ∈ ringNodes) (hc : c ∈ ringNodes) (k k' : ℕ) (l l' : Lane)
    (h : HasLane roundNet a n k l) (h' : HasLane roundNet n c k' l') : 3 / 2 ≤ gapBetween l l' := by
  obtain ⟨hk', rfl⟩ := ring_piece hn hc h'
  unfold gapBetween
  refine (gap_of_reach (outward_unit n) (ring_reach k' hk' _ _ 0 n) ?_).2
  simp only [ringNodes, List.mem_cons, List.not_mem_nil, or_false] at hn
  rw [roundNet_lanes] at h
  rcases hn with rfl | rfl | rfl | rfl | rfl | rfl | rfl | rfl <;> simp [ringNodes] at h ha <;> first
    | (obtain ⟨rfl, rfl, rfl⟩ := h; simp at ha; done)
    | (rcases h with ⟨rfl, rfl, rfl⟩ | ⟨rfl, rfl, rfl⟩ <;> simp at ha; done)
    | skip
  all_goals rcases h with ⟨rfl, rfl, rfl⟩ | ⟨rfl, rfl, rfl⟩ | ⟨rfl, rfl, rfl⟩ <;> simp at ha
  · have := swerve_length (u := ⟨0, -1⟩) (n := 17) (a := ⟨7, 42.5⟩) (b := ⟨7, 25.5⟩) (by constructor <;> norm_num) entryPhase
    rw [this]
    exact swerve_reach (u := ⟨0, -1⟩) (n := 17) (by constructor <;> norm_num) _ _ _ (by norm_num [outward, Vec2.dot]) (by norm_num [outward])
  · have := swerve_length (u := ⟨-1, 0⟩) (n := 17) (a := ⟨42.5, -7⟩) (b := ⟨25.5, -7⟩) (by constructor <;> norm_num) entryPhase
    rw [this]
    exact swerve_reach (u := ⟨-1, 0⟩) (n := 17) (by constructor <;> norm_num) _ _ _ (by norm_num [outward, Vec2.dot]) (by norm_num [outward])
  · have := swerve_length (u := ⟨0, 1⟩) (n := 17) (a := ⟨-7, -42.5⟩) (b := ⟨-7, -25.5⟩) (by constructor <;> norm_num) entryPhase
    rw [this]
    exact swerve_reach (u := ⟨0, 1⟩) (n := 17) (by constructor <;> norm_num) _ _ _ (by norm_num [outward, Vec2.dot]) (by norm_num [outward])
  · have := swerve_length (u := ⟨1, 0⟩) (n := 17) (a := ⟨-42.5, 7⟩) (b := ⟨-25.5, 7⟩) (by constructor <;> norm_num) entryPhase
    rw [this]
    exact swerve_reach (u := ⟨1, 0⟩) (n := 17) (by constructor <;> norm_num) _ _ _ (by norm_num [outward, Vec2.dot]) (by norm_num [outward])

/-- **C61, roundabout**: nor do the exits start on the circle. -/
theorem round_exit_gap (a n c : String) (ha : a ∈ ringNodes) (hn : n ∈ ringNodes) (hc : c ∉ ringNodes) (k k' : ℕ) (l l' : Lane)
    (h : HasLane roundNet a n k l) (h' : HasLane roundNet n c k' l') : 3 / 2 ≤ gapBetween l l' := by
  obtain ⟨hk, rfl⟩ := ring_piece ha hn h
  unfold gapBetween
  refine (gap_of_reach (outward_unit n) (ring_reach k hk _ _ _ n) ?_).1
  simp only [ringNodes, List.mem_cons, List.not_mem_nil, or_false] at hn
  rw [roundNet_lanes] at h'
  rcases hn with rfl | rfl | rfl | rfl | rfl | rfl | rfl | rfl <;> simp [ringNodes] at h' hc <;> first
    | (obtain ⟨rfl, rfl, rfl⟩ := h'; simp at hc; done)
    | (rcases h' with ⟨rfl, rfl, rfl⟩ | ⟨rfl, rfl, rfl⟩ <;> simp at hc; done)
    | skip
  all_goals rcases h' with ⟨rfl, rfl, rfl⟩ | ⟨rfl, rfl, rfl⟩ | ⟨rfl, rfl, rfl⟩ <;> simp at hc
  · exact swerve_reach (u := ⟨1, 0⟩) (n := 17) (by constructor <;> norm_num) _ _ _ (by norm_num [outward, Vec2.dot]) (by norm_num [outward])
  · exact swerve_reach (u := ⟨0, -1⟩) (n := 17) (by constructor <;> norm_num) _ _ _ (by norm_num [outward, Vec2.dot]) (by norm_num [outward])
  · exact swerve_reach (u := ⟨-1, 0⟩) (n := 17) (by constructor <;> norm_num) _ _ _ (by norm_num [outward, Vec2.dot]) (by norm_num [outward])
  · exact swerve_reach (u := ⟨0, 1⟩) (n := 17) (by constructor <;> norm_num) _ _ _ (by norm_num [outward, Vec2.dot]) (by norm_num [outward])

/-- Every lane of the map has a positive length. -/
theorem round_lengths (a b : String) (k : ℕ) (l : Lane) (h : HasLane roundNet a b k l) : 0 < l.length := by
  have hr : ∀ (k : ℕ) (a b : ℝ), b < a → 0 < (ringLane k a b).length := fun k a b hab => by
    rw [ring_length]
    have := Real.pi_pos
    have : 0 < a - b := by linarith
    positivity
  have hs : ∀ (a b : Vec2), a ≠ b → 0 < (b - a).norm := fun a b hab => by
    rcases lt_or_eq_of_le (Vec2.norm_nonneg (b - a)) with h | h
    · exact h
    · have := Vec2.norm_eq_zero.1 h.symm
      exact absurd (by ext <;> [have := congrArg Vec2.x this; have := congrArg Vec2.y this] <;> simp at this <;> linarith) hab
  rw [roundNet_lanes] at h
  simp only [List.mem_cons, List.not_mem_nil, or_false, Prod.mk.injEq] at h
  rcases h with ⟨rfl, rfl, rfl, rfl⟩ | ⟨rfl, rfl, rfl, rfl⟩ | ⟨rfl, rfl, rfl, rfl⟩ | ⟨rfl, rfl, rfl, rfl⟩ | ⟨rfl, rfl, rfl, rfl⟩ |
    ⟨rfl, rfl, rfl, rfl⟩ | ⟨rfl, rfl, rfl, rfl⟩ | ⟨rfl, rfl, rfl, rfl⟩ | ⟨rfl, rfl, rfl, rfl⟩ | ⟨rfl, rfl, rfl, rfl⟩ |
    ⟨rfl, rfl, rfl, rfl⟩ | ⟨rfl, rfl, rfl, rfl⟩ | ⟨rfl, rfl, rfl, rfl⟩ | ⟨rfl, rfl, rfl, rfl⟩ | ⟨rfl, rfl, rfl, rfl⟩ |
    ⟨rfl, rfl, rfl, rfl⟩ | ⟨rfl, rfl, rfl, rfl⟩ | ⟨rfl, rfl, rfl, rfl⟩ | ⟨rfl, rfl, rfl, rfl⟩ | ⟨rfl, rfl, rfl, rfl⟩ |
    ⟨rfl, rfl, rfl, rfl⟩ | ⟨rfl, rfl, rfl, rfl⟩ | ⟨rfl, rfl, rfl, rfl⟩ | ⟨rfl, rfl, rfl, rfl⟩ | ⟨rfl, rfl, rfl, rfl⟩ |
    ⟨rfl, rfl, rfl, rfl⟩ | ⟨rfl, rfl, rfl, rfl⟩ | ⟨rfl, rfl, rfl, rfl⟩ | ⟨rfl, rfl, rfl, rfl⟩ | ⟨rfl, rfl, rfl, rfl⟩ |
    ⟨rfl, rfl, rfl, rfl⟩ | ⟨rfl, rfl, rfl, rfl⟩ <;> first
    | exact hr _ _ _ (by norm_num)
    | exact hs _ _ (by simp only [ne_eq, Vec2.mk.injEq]; norm_num)

/-! ### The trip of the ego vehicle -/

/-- The ego vehicle starts on the access from the south and on no other lane. -/
theorem round_ego_lane : roundNet.getClosestLaneIndex ⟨2, 45⟩ (some (-(Real.pi / 2))) = .ok ⟨"ser", "ses", 0⟩ := by
  have hser : Along ⟨2, 170⟩ ⟨2, 42.5⟩ ⟨0, -1⟩ 127.5 := by constructor <;> norm_num
  refine closest_unique roundNet_wf (k := 0) (roundNet_lanes.2 (by simp)) ?_ ?_ (l := plainLane ⟨2, 170⟩ ⟨2, 42.5⟩)
  · have hl : (plainLane ⟨2, 170⟩ ⟨2, 42.5⟩).localCoordinates ⟨2, 45⟩ = (125, 0) := by
      have := hser.straightLocal ⟨2, 45⟩
      simp only [plainLane, Lane.localCoordinates, this]
      norm_num
    simp only [Lane.distanceWithHeading, hl, plain_length hser, plain_heading hser, arctan2_south, sub_self]
    rw [wrap_zero]
    norm_num
  · intro a b k l h hd
    obtain ⟨h1, h2, h3⟩ := Lane.near_zero hd
    have hr : ∀ (k : ℕ) (hk : k = 0 ∨ k = 1) (a b : ℝ), ((ringLane k a b).localCoordinates ⟨2, 45⟩).2 ≠ 0 := by
      intro k hk a b he
      simp only [ringLane, Lane.localCoordinates, Lane.circDir, Bool.false_eq_true, if_false] at he
      have hn : ((⟨2, 45⟩ : Vec2) - ⟨0, 0⟩).norm = 20 + 4 * k := by linarith
      have hn2 := Vec2.norm_sq ((⟨2, 45⟩ : Vec2) - ⟨0, 0⟩)
      rw [hn] at hn2
      rcases hk with rfl | rfl <;> norm_num at hn2
    have hs : ∀ {a b u : Vec2} {n : ℝ} (ph : ℝ), Along a b u n → ((swerveLane a b ph).localCoordinates ⟨2, 45⟩).1 = (2 - a.x) * u.x + (45 - a.y) * u.y := by
      intro a b u n ph h
      simp only [swerveLane, Lane.localCoordinates, h.straightLocal]
    have hp : ∀ {a b u : Vec2} {n : ℝ}, Along a b u n → (plainLane a b).localCoordinates ⟨2, 45⟩ =
        ((2 - a.x) * u.x + (45 - a.y) * u.y, (45 - a.y) * u.x - (2 - a.x) * u.y) := by
      intro a b u n h
      simp only [plainLane, Lane.localCoordinates, h.straightLocal]
    rw [roundNet_lanes] at h
    simp only [List.mem_cons, List.not_mem_nil, or_false, Prod.mk.injEq] at h
    rcases h with ⟨rfl, rfl, rfl, rfl⟩ | ⟨rfl, rfl, rfl, rfl⟩ | ⟨rfl, rfl, rfl, rfl⟩ | ⟨rfl, rfl, rfl, rfl⟩ | ⟨rfl, rfl, rfl, rfl⟩ |
      ⟨rfl, rfl, rfl, rfl⟩ | ⟨rfl, rfl, rfl, rfl⟩ | ⟨rfl, rfl, rfl, rfl⟩ | ⟨rfl, rfl, rfl, rfl⟩ | ⟨rfl, rfl, rfl, rfl⟩ |
      ⟨rfl, rfl, rfl, rfl⟩ | ⟨rfl, rfl, rfl, rfl⟩ | ⟨rfl, rfl, rfl, rfl⟩ | ⟨rfl, rfl, rfl, rfl⟩ | ⟨rfl, rfl, rfl, rfl⟩ |
      ⟨rfl, rfl, rfl, rfl⟩ | ⟨rfl, rfl, rfl, rfl⟩ | ⟨rfl, rfl, rfl, rfl⟩ | ⟨rfl, rfl, rfl, rfl⟩ | ⟨rfl, rfl, rfl, rfl⟩ |
      ⟨rfl, rfl, rfl, rfl⟩ | ⟨rfl, rfl, rfl, rfl⟩ | ⟨rfl, rfl, rfl, rfl⟩ | ⟨rfl, rfl, rfl, rfl⟩ | ⟨rfl, rfl, rfl, rfl⟩ |
      ⟨rfl, rfl, rfl, rfl⟩ | ⟨rfl, rfl, rfl, rfl⟩ | ⟨rfl, rfl, rfl, rfl⟩ | ⟨rfl, rfl, rfl, rfl⟩ | ⟨rfl, rfl, rfl, rfl⟩ |
      ⟨rfl, rfl, rfl, rfl⟩ | ⟨rfl, rfl, rfl, rfl⟩ <;> first
      | exact ⟨rfl, rfl, rfl⟩
      | exact absurd h1 (hr _ (.inl rfl) _ _)
      | exact absurd h1 (hr _ (.inr rfl) _ _)
      | exfalso
    · have e : Along ⟨25.5, 7⟩ ⟨42.5, 7⟩ ⟨1, 0⟩ 17 := by constructor <;> norm_num
      rw [hs _ e] at h2; norm_num at h2
    · have e : Along ⟨7, -25.5⟩ ⟨7, -42.5⟩ ⟨0, -1⟩ 17 := by constructor <;> norm_num
      rw [hs _ e] at h2; norm_num at h2
    · have e : Along ⟨-25.5, -7⟩ ⟨-42.5, -7⟩ ⟨-1, 0⟩ 17 := by constructor <;> norm_num
      rw [hs _ e] at h2; norm_num at h2
    · have e : Along ⟨-7, 25.5⟩ ⟨-7, 42.5⟩ ⟨0, 1⟩ 17 := by constructor <;> norm_num
      rw [hs _ e, swerve_length e] at h3; norm_num at h3
    · have e : Along ⟨7, 42.5⟩ ⟨7, 25.5⟩ ⟨0, -1⟩ 17 := by constructor <;> norm_num
      rw [hs _ e] at h2; norm_num at h2
    · have e : Along ⟨-2, 42.5⟩ ⟨-2, 170⟩ ⟨0, 1⟩ 127.5 := by constructor <;> norm_num
      rw [hp e] at h1; norm_num at h1
    · have e : Along ⟨170, -2⟩ ⟨42.5, -2⟩ ⟨-1, 0⟩ 127.5 := by constructor <;> norm_num
      rw [hp e] at h1; norm_num at h1
    · have e : Along ⟨42.5, -7⟩ ⟨25.5, -7⟩ ⟨-1, 0⟩ 17 := by constructor <;> norm_num
      rw [hs _ e, swerve_length e] at h3; norm_num at h3
    · have e : Along ⟨42.5, 2⟩ ⟨170, 2⟩ ⟨1, 0⟩ 127.5 := by constructor <;> norm_num
      rw [hp e] at h1; norm_num at h1
    · have e : Along ⟨-2, -170⟩ ⟨-2, -42.5⟩ ⟨0, 1⟩ 127.5 := by constructor <;> norm_num
      rw [hp e] at h1; norm_num at h1
    · have e : Along ⟨-7, -42.5⟩ ⟨-7, -25.5⟩ ⟨0, 1⟩ 17 := by constructor <;> norm_num
      rw [hs _ e, swerve_length e] at h3; norm_num at h3
    · have e : Along ⟨2, -42.5⟩ ⟨2, -170⟩ ⟨0, -1⟩ 127.5 := by constructor <;> norm_num
      rw [hp e] at h2; norm_num at h2
    · have e : Along ⟨-170, 2⟩ ⟨-42.5, 2⟩ ⟨1, 0⟩ 127.5 := by constructor <;> norm_num
      rw [hp e] at h1; norm_num at h1
    · have e : Along ⟨-42.5, 7⟩ ⟨-25.5, 7⟩ ⟨1, 0⟩ 17 := by constructor <;> norm_num
      rw [hs _ e, swerve_length e] at h3; norm_num at h3
    · have e : Along ⟨-42.5, -2⟩ ⟨-170, -2⟩ ⟨-1, 0⟩ 127.5 := by constructor <;> norm_num
      rw [hp e] at h1; norm_num at h1

end HighwayEnv.Props
