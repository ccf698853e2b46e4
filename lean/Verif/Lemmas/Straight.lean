import Verif.Spec.Highway
import Verif.Props.NoRaise

/-! Facts about the straight highway network. -/

noncomputable section
namespace HighwayEnv
open Spec Graph

theorem straightLane_local {len : ℝ} (hl : 0 < len) (k : ℕ) (p : Vec2) :
    (straightLane len k).localCoordinates p = (p.x, p.y - 4 * k) := by
  have : √(len ^ 2) = len := Real.sqrt_sq hl.le
  simp [straightLane, Lane.localCoordinates, Lane.straightLocal, Lane.straightDir, Vec2.norm, Vec2.dot, this, hl.ne']

theorem straightLane_length {len : ℝ} (hl : 0 < len) (k : ℕ) : (straightLane len k).length = len := by
  have : √(len ^ 2) = len := Real.sqrt_sq hl.le
  simp [straightLane, Lane.length, Vec2.norm, this]

theorem straightLane_position {len : ℝ} (hl : 0 < len) (k : ℕ) (s r : ℝ) :
    (straightLane len k).position s r = ⟨s, 4 * k + r⟩ := by
  have : √(len ^ 2) = len := Real.sqrt_sq hl.le
  simp [straightLane, Lane.position, Lane.straightPosition, Lane.straightDir, Vec2.norm, this, hl.ne']

theorem straightLane_heading {len : ℝ} (hl : 0 < len) (k : ℕ) (s : ℝ) : (straightLane len k).headingAt s = 0 := by
  simp only [straightLane, Lane.headingAt, Lane.straightHeading, arctan2, sub_self, sub_zero]
  exact Complex.arg_ofReal_of_nonneg hl.le

/-- The network built by `straight_road_network`. -/
theorem straightRoadNetwork_eq (n : ℕ) (hn : 0 < n) (len : ℝ) : straightRoadNetwork n len 0 = straightNet n len := by
  obtain ⟨m, rfl⟩ : ∃ m, n = m + 1 := ⟨n - 1, by omega⟩
  clear hn
  induction m with
  | zero =>
    simp [straightRoadNetwork, straightNet, straightLane, addLane, Dict.get?, Dict.setItem, Lane.DEFAULT_WIDTH]
  | succ m ih =>
    unfold straightRoadNetwork at ih ⊢
    rw [List.range_succ, List.foldl_append, ih]
    simp only [List.foldl_cons, List.foldl_nil, straightNet]
    rw [List.range_succ (n := m + 1), List.map_append]
    simp [straightLane, addLane, Dict.get?, Dict.setItem, Lane.DEFAULT_WIDTH, mul_comm]

theorem straightNet_wf {n : ℕ} (hn : 0 < n) (len : ℝ) : WellFormed (straightNet n len) where
  outer := by simp [straightNet]
  inner := by simp [straightNet]
  nonemptyNode := by simp [straightNet]
  nonemptyEdge := by simp [straightNet]; omega

theorem straightNet_lanesOf (n : ℕ) (len : ℝ) : (straightNet n len).lanesOf "0" "1" = .ok ((List.range n).map (straightLane len)) := by
  simp [straightNet, lanesOf, Dict.getItem, Dict.get?, bind, Except.bind]

theorem straightNet_roadLanes {n : ℕ} {len : ℝ} {a b : String} {ls : List Lane} :
    RoadLanes (straightNet n len) a b ls ↔ a = "0" ∧ b = "1" ∧ ls = (List.range n).map (straightLane len) := by
  unfold RoadLanes straightNet
  constructor
  · rintro ⟨d, h1, h2⟩
    simp only [List.mem_singleton, Prod.mk.injEq] at h1
    obtain ⟨rfl, rfl⟩ := h1
    simp only [List.mem_singleton, Prod.mk.injEq] at h2
    exact ⟨rfl, h2.1, h2.2⟩
  · rintro ⟨rfl, rfl, rfl⟩
    exact ⟨_, List.mem_singleton.2 rfl, List.mem_singleton.2 rfl⟩

theorem straightNet_hasLane {n : ℕ} {len : ℝ} {a b : String} {k : ℕ} {l : Lane} :
    HasLane (straightNet n len) a b k l ↔ a = "0" ∧ b = "1" ∧ k < n ∧ l = straightLane len k := by
  unfold HasLane
  constructor
  · rintro ⟨ls, h1, h2⟩
    obtain ⟨rfl, rfl, rfl⟩ := straightNet_roadLanes.1 h1
    rw [List.getElem?_map, Option.map_eq_some_iff] at h2
    obtain ⟨j, h3, rfl⟩ := h2
    obtain ⟨h4, rfl⟩ := List.getElem?_eq_some_iff.1 h3
    simp only [List.length_range] at h4
    exact ⟨rfl, rfl, h4, by simp⟩
  · rintro ⟨rfl, rfl, hk, rfl⟩
    exact ⟨_, straightNet_roadLanes.2 ⟨rfl, rfl, rfl⟩, by simp [hk]⟩

theorem straightNet_valid {n : ℕ} {len : ℝ} {i : LaneIndex} :
    ValidIndex (straightNet n len) i ↔ i.src = "0" ∧ i.dst = "1" ∧ 0 ≤ i.id ∧ i.id < n := by
  unfold ValidIndex
  constructor
  · rintro ⟨k, l, hk, h⟩
    obtain ⟨h1, h2, h3, h4⟩ := straightNet_hasLane.1 h
    exact ⟨h1, h2, by omega, by omega⟩
  · rintro ⟨h1, h2, h3, h4⟩
    exact ⟨i.id.toNat, straightLane len i.id.toNat, by omega, straightNet_hasLane.2 ⟨h1, h2, by omega, rfl⟩⟩

theorem straightNet_getLane {n : ℕ} (hn : 0 < n) {len : ℝ} {k : ℕ} (hk : k < n) :
    (straightNet n len).getLane ⟨"0", "1", (k : Int)⟩ = .ok (straightLane len k) :=
  getLane_of_hasLane (straightNet_wf hn len).toIsPyGraph rfl (straightNet_hasLane.2 ⟨rfl, rfl, hk, rfl⟩)

/-- On the centre line of lane `k`, heading along the road, the closest lane is lane `k` — however far along the road. -/
theorem straightNet_closest {n : ℕ} (hn : 0 < n) {len : ℝ} (hl : 0 < len) {k : ℕ} (hk : k < n) (x : ℝ) :
    (straightNet n len).getClosestLaneIndex ⟨x, 4 * k⟩ (some 0) = .ok ⟨"0", "1", (k : Int)⟩ := by
  obtain ⟨i, hi⟩ := closest_ok_of_exists (straightNet_hasLane (len := len).2 ⟨rfl, rfl, hk, rfl⟩) ⟨x, 4 * k⟩ (some 0)
  rw [hi]
  obtain ⟨hv, l, hgl, hmin⟩ := Props.closestLane_minimal _ (straightNet_wf hn len).toIsPyGraph _ _ _ hi
  obtain ⟨h1, h2, h3, h4⟩ := straightNet_valid.1 hv
  obtain ⟨j, hj⟩ : ∃ j : ℕ, i.id = (j : Int) := ⟨i.id.toNat, by omega⟩
  have hij : i = ⟨"0", "1", (j : Int)⟩ := by ext <;> simp [h1, h2, hj]
  rw [hij, straightNet_getLane hn (by omega)] at hgl
  cases hgl
  have := hmin _ _ (straightNet_getLane hn hk)
  simp only [Lane.distanceWithHeading, straightLane_local hl, straightLane_length hl, straightLane_heading hl] at this
  have h5 : |(4 * (k : ℝ) - 4 * j)| ≤ |(4 * (k : ℝ) - 4 * k)| := by linarith
  rw [sub_self, abs_zero, abs_nonpos_iff] at h5
  have h6 : (j : ℝ) = k := by linarith
  have h7 : j = k := by exact_mod_cast h6
  rw [hij, h7]

/-- A vehicle built on the centre line of lane `k`, heading along the road. -/
theorem straightNet_build {n : ℕ} (hn : 0 < n) {len : ℝ} (hl : 0 < len) {k : ℕ} (hk : k < n) (G : Globals) (uid : ℕ) (kind : VKind)
    (x speed : ℝ) : ∃ v, Vehicle.mk' G (straightNet n len) uid kind ⟨x, 4 * k⟩ 0 speed = .ok v ∧ v.uid = uid ∧ v.kind = kind ∧
      v.pos = ⟨x, 4 * k⟩ ∧ v.heading = 0 ∧ v.speed = speed ∧ v.laneIndex = ⟨"0", "1", (k : Int)⟩ ∧ v.lane = straightLane len k ∧
      v.targetLane = ⟨"0", "1", (k : Int)⟩ ∧ v.route = none ∧ v.crashed = false ∧ v.isYielding = false := by
  unfold Vehicle.mk'
  simp only [straightNet_closest hn hl hk, straightNet_getLane hn hk, bind, Except.bind]
  exact ⟨_, rfl, rfl, rfl, rfl, rfl, rfl, rfl, rfl, rfl, rfl, rfl, rfl⟩

end HighwayEnv
