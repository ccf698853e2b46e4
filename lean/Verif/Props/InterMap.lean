import Verif.Spec.Intersection
import Verif.Lemmas.Segment
import Verif.Lemmas.Listing
import Verif.Lemmas.Level

/-!
# C61: the map of the intersection
-/

noncomputable section
open Classical
namespace HighwayEnv.Props
open HighwayEnv HighwayEnv.Spec Graph

private theorem rot0 (v : Vec2) : Intersection.rotate (Intersection.radians (90 * ((0 : ℕ) : ℝ))) v = v := by
  unfold Intersection.rotate Intersection.radians
  simp
private theorem rot1 (v : Vec2) : Intersection.rotate (Intersection.radians (90 * ((1 : ℕ) : ℝ))) v = ⟨-v.y, v.x⟩ := by
  unfold Intersection.rotate Intersection.radians
  have : (90 * ((1 : ℕ) : ℝ) * (Real.pi / 180)) = Real.pi / 2 := by push_cast; ring
  rw [this]; simp
private theorem rot2 (v : Vec2) : Intersection.rotate (Intersection.radians (90 * ((2 : ℕ) : ℝ))) v = ⟨-v.x, -v.y⟩ := by
  unfold Intersection.rotate Intersection.radians
  have : (90 * ((2 : ℕ) : ℝ) * (Real.pi / 180)) = Real.pi := by push_cast; ring
  rw [this]; simp
private theorem rot3 (v : Vec2) : Intersection.rotate (Intersection.radians (90 * ((3 : ℕ) : ℝ))) v = ⟨v.y, -v.x⟩ := by
  unfold Intersection.rotate Intersection.radians
  have : (90 * ((3 : ℕ) : ℝ) * (Real.pi / 180)) = Real.pi / 2 + Real.pi := by push_cast; ring
  rw [this]
  simp [Real.sin_add, Real.cos_add]

/-- The lanes added by one corner, with the numbers worked out. -/
private theorem corner_eq (g : Graph) (k : ℕ) (p : Int) (f : Vec2 → Vec2) (hp : (if k % 2 ≠ 0 then 3 else 1 : Int) = p)
    (hf : ∀ v, Intersection.rotate (Intersection.radians (90 * (k : ℝ))) v = f v) {a b c d e h : String} (ha : Intersection.node "o" k = a)
    (hb : Intersection.node "ir" k = b) (hc : Intersection.node "il" ((k + 3) % 4) = c) (hd : Intersection.node "il" ((k + 1) % 4) = d)
    (he : Intersection.node "il" ((k + 2) % 4) = e) (hh : Intersection.node "o" ((k + 3) % 4) = h) : Intersection.cornerLanes g k =
    ((((g.addLane a b (roadLane (f ⟨2, 111⟩) (f ⟨2, 11⟩) p)).addLane b c (turnLane (f ⟨11, 11⟩) 9 (90 * k + 180) (90 * k + 270) true p)).addLane b d
      (turnLane (f ⟨-11, 11⟩) 13 (90 * k) (90 * k - 90) false (p - 1))).addLane b e (roadLane (f ⟨2, 11⟩) (f ⟨2, -11⟩) p)).addLane c h
      (roadLane (f ⟨11, 2⟩) (f ⟨111, 2⟩) p) := by
  unfold Intersection.cornerLanes
  dsimp only
  rw [ha, hb, hc, hd, he, hh, hp]
  have m1 : Lane.DEFAULT_WIDTH / 2 = 2 := by norm_num [Lane.DEFAULT_WIDTH]
  have m2 : Intersection.outerDistance = 11 := by norm_num [Intersection.outerDistance, Intersection.rightTurnRadius, Lane.DEFAULT_WIDTH]
  have m3 : Intersection.leftTurnRadius = 13 := by norm_num [Intersection.leftTurnRadius, Intersection.rightTurnRadius, Lane.DEFAULT_WIDTH]
  have m4 : Intersection.rightTurnRadius = 9 := by norm_num [Intersection.rightTurnRadius, Lane.DEFAULT_WIDTH]
  have m5 : Intersection.accessLength = 100 := by norm_num [Intersection.accessLength]
  have m6 : (100 + 11 : ℝ) = 111 := by norm_num
  have m7 : (-13 + 2 : ℝ) = -11 := by norm_num
  have m8 : (13 - 2 : ℝ) = 11 := by norm_num
  have r1 : Intersection.radians (90 * (k : ℝ)) + Intersection.radians 180 = (90 * k + 180) * (Real.pi / 180) := by unfold Intersection.radians; ring
  have r2 : Intersection.radians (90 * (k : ℝ)) + Intersection.radians 270 = (90 * k + 270) * (Real.pi / 180) := by unfold Intersection.radians; ring
  have r3 : Intersection.radians (90 * (k : ℝ)) + Intersection.radians 0 = (90 * k) * (Real.pi / 180) := by unfold Intersection.radians; ring
  have r4 : Intersection.radians (90 * (k : ℝ)) + Intersection.radians (-90) = (90 * k - 90) * (Real.pi / 180) := by unfold Intersection.radians; ring
  simp only [r1, r2, r3, r4, m1, m2, m3, m4, m5, m6, m7, m8, hf]
  rfl

private def stage0 : Graph :=
  [("o0", [("ir0", [roadLane ⟨2, 111⟩ ⟨2, 11⟩ 1])]),
   ("ir0", [("il3", [turnLane ⟨11, 11⟩ 9 180 270 true 1]), ("il1", [turnLane ⟨-11, 11⟩ 13 0 (-90) false 0]), ("il2", [roadLane ⟨2, 11⟩ ⟨2, -11⟩ 1])]),
   ("il3", [("o3", [roadLane ⟨11, 2⟩ ⟨111, 2⟩ 1])])]
private theorem stage0_eq : Intersection.cornerLanes [] 0 = stage0 := by
  rw [corner_eq [] 0 1 (fun v => v) rfl rot0
    (a := "o0") (b := "ir0") (c := "il3") (d := "il1") (e := "il2") (h := "o3") rfl rfl rfl rfl rfl rfl]
  simp only [Nat.cast_ofNat, Nat.cast_zero, Nat.cast_one]
  norm_num
  simp [addLane, Dict.get?, Dict.setItem, stage0]

private def stage1 : Graph :=
  [("o0", [("ir0", [roadLane ⟨2, 111⟩ ⟨2, 11⟩ 1])]),
   ("ir0", [("il3", [turnLane ⟨11, 11⟩ 9 180 270 true 1]), ("il1", [turnLane ⟨-11, 11⟩ 13 0 (-90) false 0]), ("il2", [roadLane ⟨2, 11⟩ ⟨2, -11⟩ 1])]),
   ("il3", [("o3", [roadLane ⟨11, 2⟩ ⟨111, 2⟩ 1])]),
   ("o1", [("ir1", [roadLane ⟨-111, 2⟩ ⟨-11, 2⟩ 3])]),
   ("ir1", [("il0", [turnLane ⟨-11, 11⟩ 9 270 360 true 3]), ("il2", [turnLane ⟨-11, -11⟩ 13 90 0 false 2]), ("il3", [roadLane ⟨-11, 2⟩ ⟨11, 2⟩ 3])]),
   ("il0", [("o0", [roadLane ⟨-2, 11⟩ ⟨-2, 111⟩ 3])])]
private theorem stage1_eq : Intersection.cornerLanes stage0 1 = stage1 := by
  rw [corner_eq stage0 1 3 (fun v => ⟨-v.y, v.x⟩) rfl rot1
    (a := "o1") (b := "ir1") (c := "il0") (d := "il2") (e := "il3") (h := "o0") rfl rfl rfl rfl rfl rfl]
  simp only [Nat.cast_ofNat, Nat.cast_zero, Nat.cast_one]
  norm_num
  simp [addLane, Dict.get?, Dict.setItem, stage1, stage0]

private def stage2 : Graph :=
  [("o0", [("ir0", [roadLane ⟨2, 111⟩ ⟨2, 11⟩ 1])]),
   ("ir0", [("il3", [turnLane ⟨11, 11⟩ 9 180 270 true 1]), ("il1", [turnLane ⟨-11, 11⟩ 13 0 (-90) false 0]), ("il2", [roadLane ⟨2, 11⟩ ⟨2, -11⟩ 1])]),
   ("il3", [("o3", [roadLane ⟨11, 2⟩ ⟨111, 2⟩ 1])]),
   ("o1", [("ir1", [roadLane ⟨-111, 2⟩ ⟨-11, 2⟩ 3])]),
   ("ir1", [("il0", [turnLane ⟨-11, 11⟩ 9 270 360 true 3]), ("il2", [turnLane ⟨-11, -11⟩ 13 90 0 false 2]), ("il3", [roadLane ⟨-11, 2⟩ ⟨11, 2⟩ 3])]),
   ("il0", [("o0", [roadLane ⟨-2, 11⟩ ⟨-2, 111⟩ 3])]),
   ("o2", [("ir2", [roadLane ⟨-2, -111⟩ ⟨-2, -11⟩ 1])]),
   ("ir2", [("il1", [turnLane ⟨-11, -11⟩ 9 360 450 true 1]), ("il3", [turnLane ⟨11, -11⟩ 13 180 90 false 0]), ("il0", [roadLane ⟨-2, -11⟩ ⟨-2, 11⟩ 1])]),
   ("il1", [("o1", [roadLane ⟨-11, -2⟩ ⟨-111, -2⟩ 1])])]
private theorem stage2_eq : Intersection.cornerLanes stage1 2 = stage2 := by
  rw [corner_eq stage1 2 1 (fun v => ⟨-v.x, -v.y⟩) rfl rot2
    (a := "o2") (b := "ir2") (c := "il1") (d := "il3") (e := "il0") (h := "o1") rfl rfl rfl rfl rfl rfl]
  simp only [Nat.cast_ofNat, Nat.cast_zero, Nat.cast_one]
  norm_num
  simp [addLane, Dict.get?, Dict.setItem, stage2, stage1]

private def stage3 : Graph :=
  [("o0", [("ir0", [roadLane ⟨2, 111⟩ ⟨2, 11⟩ 1])]),
   ("ir0", [("il3", [turnLane ⟨11, 11⟩ 9 180 270 true 1]), ("il1", [turnLane ⟨-11, 11⟩ 13 0 (-90) false 0]), ("il2", [roadLane ⟨2, 11⟩ ⟨2, -11⟩ 1])]),
   ("il3", [("o3", [roadLane ⟨11, 2⟩ ⟨111, 2⟩ 1])]),
   ("o1", [("ir1", [roadLane ⟨-111, 2⟩ ⟨-11, 2⟩ 3])]),
   ("ir1", [("il0", [turnLane ⟨-11, 11⟩ 9 270 360 true 3]), ("il2", [turnLane ⟨-11, -11⟩ 13 90 0 false 2]), ("il3", [roadLane ⟨-11, 2⟩ ⟨11, 2⟩ 3])]),
   ("il0", [("o0", [roadLane ⟨-2, 11⟩ ⟨-2, 111⟩ 3])]),
   ("o2", [("ir2", [roadLane ⟨-2, -111⟩ ⟨-2, -11⟩ 1])]),
   ("ir2", [("il1", [turnLane ⟨-11, -11⟩ 9 360 450 true 1]), ("il3", [turnLane ⟨11, -11⟩ 13 180 90 false 0]), ("il0", [roadLane ⟨-2, -11⟩ ⟨-2, 11⟩ 1])]),
   ("il1", [("o1", [roadLane ⟨-11, -2⟩ ⟨-111, -2⟩ 1])]),
   ("o3", [("ir3", [roadLane ⟨111, -2⟩ ⟨11, -2⟩ 3])]),
   ("ir3", [("il2", [turnLane ⟨11, -11⟩ 9 450 540 true 3]), ("il0", [turnLane ⟨11, 11⟩ 13 270 180 false 2]), ("il1", [roadLane ⟨11, -2⟩ ⟨-11, -2⟩ 3])]),
   ("il2", [("o2", [roadLane ⟨2, -11⟩ ⟨2, -111⟩ 3])])]
private theorem stage3_eq : Intersection.cornerLanes stage2 3 = stage3 := by
  rw [corner_eq stage2 3 3 (fun v => ⟨v.y, -v.x⟩) rfl rot3
    (a := "o3") (b := "ir3") (c := "il2") (d := "il0") (e := "il1") (h := "o2") rfl rfl rfl rfl rfl rfl]
  simp only [Nat.cast_ofNat, Nat.cast_zero, Nat.cast_one]
  norm_num
  simp [addLane, Dict.get?, Dict.setItem, stage3, stage2]

/-- **C61, intersection.**  The network built by the environment is the documented map. -/
theorem inter_network : Intersection.network = interNet := by
  unfold Intersection.network
  rw [show List.range 4 = [0, 1, 2, 3] from rfl]
  simp only [List.foldl_cons, List.foldl_nil, stage0_eq, stage1_eq, stage2_eq, stage3_eq]
  rfl

theorem interNet_wf : WellFormed interNet where
  outer := by simp [interNet]
  inner := by simp [interNet]
  nonemptyNode := by simp [interNet]
  nonemptyEdge := by
    simp only [interNet, List.mem_cons, List.not_mem_nil, or_false]
    rintro nd hnd kl hkl
    rcases hnd with rfl | rfl | rfl | rfl | rfl | rfl | rfl | rfl | rfl | rfl | rfl | rfl <;>
      simp only [List.mem_cons, List.not_mem_nil, or_false] at hkl <;> first | (subst hkl; simp; done) | (rcases hkl with rfl | rfl | rfl <;> simp)

/-- All lanes of the map. -/
theorem interNet_lanes {a b : String} {k : ℕ} {l : Lane} : HasLane interNet a b k l ↔ (a, b, k, l) ∈
    [("o0", "ir0", 0, roadLane ⟨2, 111⟩ ⟨2, 11⟩ 1), ("ir0", "il3", 0, turnLane ⟨11, 11⟩ 9 180 270 true 1),
     ("ir0", "il1", 0, turnLane ⟨-11, 11⟩ 13 0 (-90) false 0), ("ir0", "il2", 0, roadLane ⟨2, 11⟩ ⟨2, -11⟩ 1),
     ("il3", "o3", 0, roadLane ⟨11, 2⟩ ⟨111, 2⟩ 1),
     ("o1", "ir1", 0, roadLane ⟨-111, 2⟩ ⟨-11, 2⟩ 3), ("ir1", "il0", 0, turnLane ⟨-11, 11⟩ 9 270 360 true 3),
     ("ir1", "il2", 0, turnLane ⟨-11, -11⟩ 13 90 0 false 2), ("ir1", "il3", 0, roadLane ⟨-11, 2⟩ ⟨11, 2⟩ 3),
     ("il0", "o0", 0, roadLane ⟨-2, 11⟩ ⟨-2, 111⟩ 3),
     ("o2", "ir2", 0, roadLane ⟨-2, -111⟩ ⟨-2, -11⟩ 1), ("ir2", "il1", 0, turnLane ⟨-11, -11⟩ 9 360 450 true 1),
     ("ir2", "il3", 0, turnLane ⟨11, -11⟩ 13 180 90 false 0), ("ir2", "il0", 0, roadLane ⟨-2, -11⟩ ⟨-2, 11⟩ 1),
     ("il1", "o1", 0, roadLane ⟨-11, -2⟩ ⟨-111, -2⟩ 1),
     ("o3", "ir3", 0, roadLane ⟨111, -2⟩ ⟨11, -2⟩ 3), ("ir3", "il2", 0, turnLane ⟨11, -11⟩ 9 450 540 true 3),
     ("ir3", "il0", 0, turnLane ⟨11, 11⟩ 13 270 180 false 2), ("ir3", "il1", 0, roadLane ⟨11, -2⟩ ⟨-11, -2⟩ 3),
     ("il2", "o2", 0, roadLane ⟨2, -11⟩ ⟨2, -111⟩ 3)] := Graph.hasLane_iff

/-! ### Geometry -/

theorem turn_length (c : Vec2) (r a b : ℝ) (cw : Bool) (p : Int) :
    (turnLane c r a b cw p).length = r * ((b - a) * (Real.pi / 180)) * (if cw then 1 else -1) := by
  simp only [turnLane, Lane.length, Lane.circDir]
  ring

/-- Where an arc starts and ends, and its directions there. -/
private theorem turn_ends (c : Vec2) (r a b : ℝ) (hr : r ≠ 0) (cw : Bool) (p : Int) :
    (turnLane c r a b cw p).position 0 0 = c + r • Vec2.dir (a * (Real.pi / 180)) ∧
    (turnLane c r a b cw p).position (turnLane c r a b cw p).length 0 = c + r • Vec2.dir (b * (Real.pi / 180)) ∧
    (turnLane c r a b cw p).headingAt 0 = a * (Real.pi / 180) + Real.pi / 2 * (if cw then 1 else -1) ∧
    (turnLane c r a b cw p).headingAt (turnLane c r a b cw p).length = b * (Real.pi / 180) + Real.pi / 2 * (if cw then 1 else -1) := by
  have h1 : ∀ s : ℝ, (turnLane c r a b cw p).position s 0 = c + r • Vec2.dir ((if cw then 1 else -1) * s / r + a * (Real.pi / 180)) := by
    intro s
    simp only [turnLane, Lane.position, Lane.circDir, zero_mul, sub_zero]
  have h2 : ∀ s : ℝ, (turnLane c r a b cw p).headingAt s = (if cw then 1 else -1) * s / r + a * (Real.pi / 180) + Real.pi / 2 * (if cw then 1 else -1) := by
    intro s
    simp only [turnLane, Lane.headingAt, Lane.circDir]
  have h3 : (if cw then 1 else -1 : ℝ) * (turnLane c r a b cw p).length / r + a * (Real.pi / 180) = b * (Real.pi / 180) := by
    rw [turn_length]
    cases cw <;> simp <;> field_simp <;> ring
  refine ⟨by rw [h1]; simp, by rw [h1, h3], by rw [h2]; simp, by rw [h2, h3]⟩

/-! ### The gates of the crossing -/

/-- The lane starts at `p` in direction `h` (degrees, up to whole turns). -/
private def Starts (l : Lane) (p : Vec2) (h : ℝ) : Prop := l.position 0 0 = p ∧ ∃ n : ℤ, l.headingAt 0 = h * (Real.pi / 180) + n * (2 * Real.pi)
/-- The lane ends at `p` in direction `h` (degrees, up to whole turns). -/
private def Ends (l : Lane) (p : Vec2) (h : ℝ) : Prop :=
  l.position l.length 0 = p ∧ ∃ n : ℤ, l.headingAt l.length = h * (Real.pi / 180) + n * (2 * Real.pi)

private theorem road_starts {a b u : Vec2} {n h : ℝ} (H : Along a b u n) (hh : arctan2 u.y u.x = h * (Real.pi / 180)) (p : Int) :
    Starts (roadLane a b p) a h ∧ Ends (roadLane a b p) b h := by
  have e : (roadLane a b p).length = n := H.norm
  refine ⟨⟨?_, 0, ?_⟩, ?_, 0, ?_⟩
  · change Lane.straightPosition a b 0 0 = a
    rw [H.straightPosition]; ext <;> simp
  · change Lane.straightHeading a b = _
    rw [H.heading, hh]; simp
  · rw [e]
    change Lane.straightPosition a b n 0 = b
    rw [H.straightPosition]; ext <;> simp [H.x, H.y]
  · change Lane.straightHeading a b = _
    rw [H.heading, hh]; simp

private theorem turn_starts (c : Vec2) (r a b : ℝ) (hr : r ≠ 0) (cw : Bool) (p : Int) {q q' : Vec2} {h h' : ℝ} (n n' : ℤ)
    (hq : c + r • Vec2.dir (a * (Real.pi / 180)) = q) (hq' : c + r • Vec2.dir (b * (Real.pi / 180)) = q')
    (hh : a + 90 * (if cw then 1 else -1) = h + n * 360) (hh' : b + 90 * (if cw then 1 else -1) = h' + n' * 360) :
    Starts (turnLane c r a b cw p) q h ∧ Ends (turnLane c r a b cw p) q' h' := by
  obtain ⟨h1, h2, h3, h4⟩ := turn_ends c r a b hr cw p
  refine ⟨⟨h1.trans hq, n, ?_⟩, h2.trans hq', n', ?_⟩
  · rw [h3]
    linear_combination (Real.pi / 180) * hh
  · rw [h4]
    linear_combination (Real.pi / 180) * hh'

private theorem dirs (n : ℤ) : Vec2.dir (((0 : ℝ) + n * 360) * (Real.pi / 180)) = ⟨1, 0⟩ ∧ Vec2.dir (((90 : ℝ) + n * 360) * (Real.pi / 180)) = ⟨0, 1⟩ ∧
    Vec2.dir (((180 : ℝ) + n * 360) * (Real.pi / 180)) = ⟨-1, 0⟩ ∧ Vec2.dir (((270 : ℝ) + n * 360) * (Real.pi / 180)) = ⟨0, -1⟩ := by
  have e0 : ((0 : ℝ) + n * 360) * (Real.pi / 180) = 0 + n * (2 * Real.pi) := by ring
  have e1 : ((90 : ℝ) + n * 360) * (Real.pi / 180) = Real.pi / 2 + n * (2 * Real.pi) := by ring
  have e2 : ((180 : ℝ) + n * 360) * (Real.pi / 180) = Real.pi + n * (2 * Real.pi) := by ring
  have e3 : ((270 : ℝ) + n * 360) * (Real.pi / 180) = Real.pi / 2 + Real.pi + n * (2 * Real.pi) := by ring
  unfold Vec2.dir
  rw [e0, e1, e2, e3]
  simp only [Real.cos_add_int_mul_two_pi, Real.sin_add_int_mul_two_pi]
  refine ⟨?_, ?_, ?_, ?_⟩ <;> ext <;> simp [Real.cos_add, Real.sin_add]

/-- Where the lanes of the crossing meet, and in which direction. -/
private def gate : String → Vec2 × ℝ
  | "ir0" => (⟨2, 11⟩, -90) | "ir1" => (⟨-11, 2⟩, 0) | "ir2" => (⟨-2, -11⟩, 90) | "ir3" => (⟨11, -2⟩, 180)
  | "il0" => (⟨-2, 11⟩, 90) | "il1" => (⟨-11, -2⟩, 180) | "il2" => (⟨2, -11⟩, -90) | "il3" => (⟨11, 2⟩, 0)
  | _ => (⟨0, 0⟩, 0)
private def first : String → Vec2 × ℝ
  | "o0" => (⟨2, 111⟩, -90) | "o1" => (⟨-111, 2⟩, 0) | "o2" => (⟨-2, -111⟩, 90) | "o3" => (⟨111, -2⟩, 180) | s => gate s
private def last : String → Vec2 × ℝ
  | "o0" => (⟨-2, 111⟩, 90) | "o1" => (⟨-111, -2⟩, 180) | "o2" => (⟨2, -111⟩, -90) | "o3" => (⟨111, 2⟩, 0) | s => gate s

private theorem lane_ends {a b : String} {k : ℕ} {l : Lane} (h : HasLane interNet a b k l) :
    Starts l (first a).1 (first a).2 ∧ Ends l (last b).1 (last b).2 := by
  have hE : arctan2 0 1 = (0 : ℝ) * (Real.pi / 180) := by rw [arctan2_east]; ring
  have hN : arctan2 1 0 = (90 : ℝ) * (Real.pi / 180) := by rw [arctan2_north]; ring
  have hW : arctan2 0 (-1) = (180 : ℝ) * (Real.pi / 180) := by rw [arctan2_west]; ring
  have hS : arctan2 (-1) 0 = (-90 : ℝ) * (Real.pi / 180) := by rw [arctan2_south]; ring
  have d : ∀ x (c : ℝ), (∃ n : ℤ, c = x + n * 360) → Vec2.dir (c * (Real.pi / 180)) = Vec2.dir (x * (Real.pi / 180)) := by
    rintro x c ⟨n, rfl⟩
    have : (x + n * 360) * (Real.pi / 180) = x * (Real.pi / 180) + n * (2 * Real.pi) := by ring
    unfold Vec2.dir
    rw [this, Real.cos_add_int_mul_two_pi, Real.sin_add_int_mul_two_pi]
  have D := dirs 0
  simp only [Int.cast_zero, zero_mul, add_zero] at D
  obtain ⟨D0, D1, D2, D3⟩ := D
  have D4 : Vec2.dir ((-90 : ℝ) * (Real.pi / 180)) = ⟨0, -1⟩ := (d 270 (-90) ⟨-1, by norm_num⟩).trans D3
  have D5 : Vec2.dir ((360 : ℝ) * (Real.pi / 180)) = ⟨1, 0⟩ := (d 0 360 ⟨1, by norm_num⟩).trans (by rw [zero_mul] ; exact D0)
  have D6 : Vec2.dir ((450 : ℝ) * (Real.pi / 180)) = ⟨0, 1⟩ := (d 90 450 ⟨1, by norm_num⟩).trans D1
  have D7 : Vec2.dir ((540 : ℝ) * (Real.pi / 180)) = ⟨-1, 0⟩ := (d 180 540 ⟨1, by norm_num⟩).trans D2
  have D8 : Vec2.dir ((0 : ℝ) * (Real.pi / 180)) = ⟨1, 0⟩ := by rw [zero_mul] ; exact D0
  rw [interNet_lanes] at h
  simp only [List.mem_cons, List.not_mem_nil, or_false, Prod.mk.injEq] at h
  rcases h with ⟨rfl, rfl, rfl, rfl⟩ | ⟨rfl, rfl, rfl, rfl⟩ | ⟨rfl, rfl, rfl, rfl⟩ | ⟨rfl, rfl, rfl, rfl⟩ | ⟨rfl, rfl, rfl, rfl⟩ | ⟨rfl, rfl, rfl, rfl⟩ | ⟨rfl, rfl, rfl, rfl⟩ | ⟨rfl, rfl, rfl, rfl⟩ | ⟨rfl, rfl, rfl, rfl⟩ | ⟨rfl, rfl, rfl, rfl⟩ | ⟨rfl, rfl, rfl, rfl⟩ | ⟨rfl, rfl, rfl, rfl⟩ | ⟨rfl, rfl, rfl, rfl⟩ | ⟨rfl, rfl, rfl, rfl⟩ | ⟨rfl, rfl, rfl, rfl⟩ | ⟨rfl, rfl, rfl, rfl⟩ | ⟨rfl, rfl, rfl, rfl⟩ | ⟨rfl, rfl, rfl, rfl⟩ | ⟨rfl, rfl, rfl, rfl⟩ | ⟨rfl, rfl, rfl, rfl⟩
  · exact road_starts (u := ⟨0, -1⟩) (n := 100) (by constructor <;> norm_num) hS _
  · exact turn_starts (q := ⟨2, 11⟩) (q' := ⟨11, 2⟩) (h := -90) (h' := 0) _ _ _ _ (by norm_num) _ _ 1 1 (by rw [D2]; ext <;> norm_num) (by rw [D3]; ext <;> norm_num) (by norm_num) (by norm_num)
  · exact turn_starts (q := ⟨2, 11⟩) (q' := ⟨-11, -2⟩) (h := -90) (h' := 180) _ _ _ _ (by norm_num) _ _ 0 (-1) (by rw [D8]; ext <;> norm_num) (by rw [D4]; ext <;> norm_num) (by norm_num) (by norm_num)
  · exact road_starts (u := ⟨0, -1⟩) (n := 22) (by constructor <;> norm_num) hS _
  · exact road_starts (u := ⟨1, 0⟩) (n := 100) (by constructor <;> norm_num) hE _
  · exact road_starts (u := ⟨1, 0⟩) (n := 100) (by constructor <;> norm_num) hE _
  · exact turn_starts (q := ⟨-11, 2⟩) (q' := ⟨-2, 11⟩) (h := 0) (h' := 90) _ _ _ _ (by norm_num) _ _ 1 1 (by rw [D3]; ext <;> norm_num) (by rw [D5]; ext <;> norm_num) (by norm_num) (by norm_num)
  · exact turn_starts (q := ⟨-11, 2⟩) (q' := ⟨2, -11⟩) (h := 0) (h' := -90) _ _ _ _ (by norm_num) _ _ 0 0 (by rw [D1]; ext <;> norm_num) (by rw [D8]; ext <;> norm_num) (by norm_num) (by norm_num)
  · exact road_starts (u := ⟨1, 0⟩) (n := 22) (by constructor <;> norm_num) hE _
  · exact road_starts (u := ⟨0, 1⟩) (n := 100) (by constructor <;> norm_num) hN _
  · exact road_starts (u := ⟨0, 1⟩) (n := 100) (by constructor <;> norm_num) hN _
  · exact turn_starts (q := ⟨-2, -11⟩) (q' := ⟨-11, -2⟩) (h := 90) (h' := 180) _ _ _ _ (by norm_num) _ _ 1 1 (by rw [D5]; ext <;> norm_num) (by rw [D6]; ext <;> norm_num) (by norm_num) (by norm_num)
  · exact turn_starts (q := ⟨-2, -11⟩) (q' := ⟨11, 2⟩) (h := 90) (h' := 0) _ _ _ _ (by norm_num) _ _ 0 0 (by rw [D2]; ext <;> norm_num) (by rw [D1]; ext <;> norm_num) (by norm_num) (by norm_num)
  · exact road_starts (u := ⟨0, 1⟩) (n := 22) (by constructor <;> norm_num) hN _
  · exact road_starts (u := ⟨-1, 0⟩) (n := 100) (by constructor <;> norm_num) hW _
  · exact road_starts (u := ⟨-1, 0⟩) (n := 100) (by constructor <;> norm_num) hW _
  · exact turn_starts (q := ⟨11, -2⟩) (q' := ⟨2, -11⟩) (h := 180) (h' := -90) _ _ _ _ (by norm_num) _ _ 1 2 (by rw [D6]; ext <;> norm_num) (by rw [D7]; ext <;> norm_num) (by norm_num) (by norm_num)
  · exact turn_starts (q := ⟨11, -2⟩) (q' := ⟨-2, 11⟩) (h := 180) (h' := 90) _ _ _ _ (by norm_num) _ _ 0 0 (by rw [D3]; ext <;> norm_num) (by rw [D2]; ext <;> norm_num) (by norm_num) (by norm_num)
  · exact road_starts (u := ⟨-1, 0⟩) (n := 22) (by constructor <;> norm_num) hW _
  · exact road_starts (u := ⟨0, -1⟩) (n := 100) (by constructor <;> norm_num) hS _

/-- **C61, intersection**: wherever two lanes follow each other at the crossing, the second one starts exactly where the first one ends, in
the same direction. -/
theorem inter_continuous (a b c : String) (hb : ∀ k : Fin 4, b ≠ outer k) (k k' : ℕ) (l l' : Lane) (h : HasLane interNet a b k l)
    (h' : HasLane interNet b c k' l') : JoinsTurn l l' := by
  have e : first b = gate b ∧ last b = gate b := by
    have h0 := hb 0
    have h1 := hb 1
    have h2 := hb 2
    have h3 := hb 3
    rw [interNet_lanes] at h
    simp only [List.mem_cons, List.not_mem_nil, or_false, Prod.mk.injEq] at h
    rcases h with ⟨_, rfl, _⟩ | ⟨_, rfl, _⟩ | ⟨_, rfl, _⟩ | ⟨_, rfl, _⟩ | ⟨_, rfl, _⟩ | ⟨_, rfl, _⟩ | ⟨_, rfl, _⟩ | ⟨_, rfl, _⟩ | ⟨_, rfl, _⟩ | ⟨_, rfl, _⟩ | ⟨_, rfl, _⟩ | ⟨_, rfl, _⟩ | ⟨_, rfl, _⟩ | ⟨_, rfl, _⟩ | ⟨_, rfl, _⟩ | ⟨_, rfl, _⟩ | ⟨_, rfl, _⟩ | ⟨_, rfl, _⟩ | ⟨_, rfl, _⟩ | ⟨_, rfl, _⟩ <;>
      first | exact ⟨rfl, rfl⟩ | exact absurd rfl h0 | exact absurd rfl h1 | exact absurd rfl h2 | exact absurd rfl h3
  obtain ⟨_, p1, n, q1⟩ := lane_ends h
  obtain ⟨⟨p2, m, q2⟩, _⟩ := lane_ends h'
  rw [e.2] at p1 q1
  rw [e.1] at p2 q2
  refine ⟨p1.trans p2.symm, n - m, ?_⟩
  rw [q1, q2]
  push_cast
  ring

/-- At the outer end of a side the map is not continuous: the access starts 4 m beside the end of the exit, in the opposite direction (a vehicle that got
so far turns around). -/
theorem inter_uturn (a : Fin 4) (l l' : Lane) (h : HasLane interNet (leave a) (outer a) 0 l) (h' : HasLane interNet (outer a) (ingress a) 0 l') :
    gapBetween l l' = 4 ∧ ∃ n : ℤ, l'.headingAt 0 = l.headingAt l.length + Real.pi + n * (2 * Real.pi) := by
  obtain ⟨_, p1, n, q1⟩ := lane_ends h
  obtain ⟨⟨p2, m, q2⟩, _⟩ := lane_ends h'
  unfold gapBetween
  rw [p1, p2, q1, q2]
  have hfin : a = 0 ∨ a = 1 ∨ a = 2 ∨ a = 3 := by omega
  have e2 : ∀ x y : ℝ, Vec2.norm ⟨x, y⟩ = Real.sqrt (x ^ 2 + y ^ 2) := fun _ _ => rfl
  rcases hfin with rfl | rfl | rfl | rfl
  · refine ⟨?_, m - n - 1, ?_⟩
    · change Vec2.norm ((⟨2, 111⟩ : Vec2) - ⟨-2, 111⟩) = 4
      rw [show ((⟨2, 111⟩ : Vec2) - ⟨-2, 111⟩) = ⟨4, 0⟩ by ext <;> norm_num, e2, show ((4 : ℝ) ^ 2 + 0 ^ 2) = 4 ^ 2 by norm_num, Real.sqrt_sq (by norm_num)]
    · change (-90 : ℝ) * (Real.pi / 180) + m * (2 * Real.pi) = 90 * (Real.pi / 180) + n * (2 * Real.pi) + Real.pi + _
      push_cast; ring
  · refine ⟨?_, m - n - 1, ?_⟩
    · change Vec2.norm ((⟨-111, 2⟩ : Vec2) - ⟨-111, -2⟩) = 4
      rw [show ((⟨-111, 2⟩ : Vec2) - ⟨-111, -2⟩) = ⟨0, 4⟩ by ext <;> norm_num, e2, show ((0 : ℝ) ^ 2 + 4 ^ 2) = 4 ^ 2 by norm_num, Real.sqrt_sq (by norm_num)]
    · change (0 : ℝ) * (Real.pi / 180) + m * (2 * Real.pi) = 180 * (Real.pi / 180) + n * (2 * Real.pi) + Real.pi + _
      push_cast; ring
  · refine ⟨?_, m - n, ?_⟩
    · change Vec2.norm ((⟨-2, -111⟩ : Vec2) - ⟨2, -111⟩) = 4
      rw [show ((⟨-2, -111⟩ : Vec2) - ⟨2, -111⟩) = ⟨-4, 0⟩ by ext <;> norm_num, e2, show ((-4 : ℝ) ^ 2 + 0 ^ 2) = 4 ^ 2 by norm_num, Real.sqrt_sq (by norm_num)]
    · change (90 : ℝ) * (Real.pi / 180) + m * (2 * Real.pi) = -90 * (Real.pi / 180) + n * (2 * Real.pi) + Real.pi + _
      push_cast; ring
  · refine ⟨?_, m - n, ?_⟩
    · change Vec2.norm ((⟨111, -2⟩ : Vec2) - ⟨111, 2⟩) = 4
      rw [show ((⟨111, -2⟩ : Vec2) - ⟨111, 2⟩) = ⟨0, -4⟩ by ext <;> norm_num, e2, show ((0 : ℝ) ^ 2 + (-4) ^ 2) = 4 ^ 2 by norm_num, Real.sqrt_sq (by norm_num)]
    · change (180 : ℝ) * (Real.pi / 180) + m * (2 * Real.pi) = 0 * (Real.pi / 180) + n * (2 * Real.pi) + Real.pi + _
      push_cast; ring

/-- Non-vacuity: entering the crossing from the south and turning right. -/
example : JoinsTurn (roadLane ⟨2, 111⟩ ⟨2, 11⟩ 1) (turnLane ⟨11, 11⟩ 9 180 270 true 1) :=
  inter_continuous "o0" "ir0" "il3" (by decide) 0 0 _ _ (by rw [interNet_lanes]; simp) (by rw [interNet_lanes]; simp)

end HighwayEnv.Props
