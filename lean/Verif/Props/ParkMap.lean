import Verif.Spec.Parking
import Verif.Lemmas.Straight
import Verif.Lemmas.Segment
import Verif.Props.Routes

/-!
# C61: the maps of the parking and summon environments
-/

noncomputable section
open Classical
namespace HighwayEnv.Props
open HighwayEnv Spec Graph

private theorem spots_step (y0 limit : ℝ) (spots k : ℕ) (A B : List Lane) :
    Parking.addSpots y0 8 limit spots [("a", [("b", A)]), ("b", [("c", B)])] k =
      [("a", [("b", A ++ [spotLane y0 limit spots k true])]), ("b", [("c", B ++ [spotLane y0 limit spots k false])])] := by
  have hx : ((k : ℝ) - ((spots / 2 : ℕ) : ℝ)) * (4 + 0) - 4 / 2 = 4 * ((k : ℝ) - ((spots / 2 : ℕ) : ℝ)) - 2 := by ring
  unfold Parking.addSpots spotLane
  dsimp only
  rw [hx]
  simp [addLane, Dict.get?, Dict.setItem]

private theorem spots_first (y0 limit : ℝ) (spots : ℕ) :
    Parking.addSpots y0 8 limit spots [] 0 = [("a", [("b", [spotLane y0 limit spots 0 true])]), ("b", [("c", [spotLane y0 limit spots 0 false])])] := by
  have hx : (((0 : ℕ) : ℝ) - ((spots / 2 : ℕ) : ℝ)) * (4 + 0) - 4 / 2 = 4 * (((0 : ℕ) : ℝ) - ((spots / 2 : ℕ) : ℝ)) - 2 := by ring
  unfold Parking.addSpots spotLane
  dsimp only
  rw [hx]
  simp [addLane, Dict.get?, Dict.setItem]

private theorem spots_all (y0 limit : ℝ) (spots m : ℕ) : (List.range (m + 1)).foldl (Parking.addSpots y0 8 limit spots) [] =
    [("a", [("b", (List.range (m + 1)).map fun k => spotLane y0 limit spots k true)]),
     ("b", [("c", (List.range (m + 1)).map fun k => spotLane y0 limit spots k false)])] := by
  induction m with
  | zero => exact spots_first y0 limit spots
  | succ m ih =>
    rw [List.range_succ, List.foldl_append, ih, List.foldl_cons, List.foldl_nil, spots_step, List.map_append, List.map_append]
    rfl

/-- **C61, parking**: the map, for any positive number of spots. -/
theorem parking_network (n : ℕ) (hn : 0 < n) : Parking.network n = parkingNet n := by
  obtain ⟨m, rfl⟩ := Nat.exists_eq_succ_of_ne_zero hn.ne'
  exact spots_all 10 20 _ m

/-- **C61, summon**: the map with the 15 spots of the environment. -/
theorem summon_network : Summon.network 15 = summonNet := by
  have hy : Summon.middles = [-8, -4, 0, 4, 8] := by
    unfold Summon.middles
    rw [show List.range 5 = [0, 1, 2, 3, 4] from rfl]
    norm_num
  have hx : Summon.xRange 15 = 32 := by
    unfold Summon.xRange
    norm_num
  unfold Summon.network summonNet
  rw [spots_all 12 5 15 14, hy]
  simp only [List.foldl_cons, List.foldl_nil, Summon.addMiddle, hx]
  simp [addLane, Dict.get?, Dict.setItem, alleyLane, side]

theorem parkingNet_wf (n : ℕ) (hn : 0 < n) : WellFormed (parkingNet n) where
  outer := by simp [parkingNet]
  inner := by simp [parkingNet]
  nonemptyNode := by simp [parkingNet]
  nonemptyEdge := by
    simp only [parkingNet, List.mem_cons, List.not_mem_nil, or_false]
    rintro nd hnd kl hkl
    rcases hnd with rfl | rfl <;> simp only [List.mem_cons, List.not_mem_nil, or_false] at hkl <;> subst hkl <;> simp [side, hn.ne']

theorem summonNet_wf : WellFormed summonNet where
  outer := by simp [summonNet]
  inner := by simp [summonNet]
  nonemptyNode := by simp [summonNet]
  nonemptyEdge := by
    simp only [summonNet, List.mem_cons, List.not_mem_nil, or_false]
    rintro nd hnd kl hkl
    rcases hnd with rfl | rfl | rfl <;> simp only [List.mem_cons, List.not_mem_nil, or_false] at hkl <;> subst hkl <;> simp [side]

private theorem side_get (y0 limit : ℝ) (n k : ℕ) (up : Bool) (l : Lane) :
    (side y0 limit n up)[k]? = some l ↔ k < n ∧ l = spotLane y0 limit n k up := by
  unfold side
  rw [List.getElem?_map]
  by_cases h : k < n
  · rw [List.getElem?_range h]
    simp [h, eq_comm]
  · rw [List.getElem?_eq_none (by simpa using h)]
    simp [h]

/-- All lanes of the parking: the spots. -/
theorem parkingNet_lanes {n : ℕ} {a b : String} {k : ℕ} {l : Lane} : HasLane (parkingNet n) a b k l ↔
    k < n ∧ ((a = "a" ∧ b = "b" ∧ l = spotLane 10 20 n k true) ∨ (a = "b" ∧ b = "c" ∧ l = spotLane 10 20 n k false)) := by
  unfold HasLane RoadLanes parkingNet
  constructor
  · rintro ⟨ls, ⟨d, h1, h2⟩, h3⟩
    simp only [List.mem_cons, Prod.mk.injEq, List.not_mem_nil, or_false] at h1
    rcases h1 with ⟨rfl, rfl⟩ | ⟨rfl, rfl⟩ <;>
    · simp only [List.mem_cons, Prod.mk.injEq, List.not_mem_nil, or_false] at h2
      obtain ⟨rfl, rfl⟩ := h2
      obtain ⟨q1, rfl⟩ := (side_get _ _ _ _ _ _).1 h3
      simp [q1]
  · rintro ⟨hk, ⟨rfl, rfl, rfl⟩ | ⟨rfl, rfl, rfl⟩⟩
    · exact ⟨_, ⟨_, List.mem_cons_self, List.mem_cons_self⟩, (side_get _ _ _ _ _ _).2 ⟨hk, rfl⟩⟩
    · exact ⟨_, ⟨_, List.mem_cons_of_mem _ List.mem_cons_self, List.mem_cons_self⟩, (side_get _ _ _ _ _ _).2 ⟨hk, rfl⟩⟩

/-- All lanes of the summon parking: the spots and the five alleys. -/
theorem summonNet_lanes {a b : String} {k : ℕ} {l : Lane} : HasLane summonNet a b k l ↔
    (k < 15 ∧ ((a = "a" ∧ b = "b" ∧ l = spotLane 12 5 15 k true) ∨ (a = "b" ∧ b = "c" ∧ l = spotLane 12 5 15 k false))) ∨
    (k < 5 ∧ a = "d" ∧ b = "e" ∧ l = alleyLane 32 (4 * k - 8)) := by
  have halley : ∀ (k : ℕ) (l : Lane), [alleyLane 32 (-8), alleyLane 32 (-4), alleyLane 32 0, alleyLane 32 4, alleyLane 32 8][k]? = some l ↔
      k < 5 ∧ l = alleyLane 32 (4 * k - 8) := by
    intro k l
    rcases k with _ | _ | _ | _ | _ | k
    · norm_num [eq_comm]
    · norm_num [eq_comm]
    · norm_num [eq_comm]
    · norm_num [eq_comm]
    · norm_num [eq_comm]
    · simp
  unfold HasLane RoadLanes summonNet
  constructor
  · rintro ⟨ls, ⟨d, h1, h2⟩, h3⟩
    simp only [List.mem_cons, Prod.mk.injEq, List.not_mem_nil, or_false] at h1
    rcases h1 with ⟨rfl, rfl⟩ | ⟨rfl, rfl⟩ | ⟨rfl, rfl⟩
    · simp only [List.mem_cons, Prod.mk.injEq, List.not_mem_nil, or_false] at h2
      obtain ⟨rfl, rfl⟩ := h2
      obtain ⟨q1, rfl⟩ := (side_get _ _ _ _ _ _).1 h3
      simp [q1]
    · simp only [List.mem_cons, Prod.mk.injEq, List.not_mem_nil, or_false] at h2
      obtain ⟨rfl, rfl⟩ := h2
      obtain ⟨q1, rfl⟩ := (side_get _ _ _ _ _ _).1 h3
      simp [q1]
    · simp only [List.mem_cons, Prod.mk.injEq, List.not_mem_nil, or_false] at h2
      obtain ⟨rfl, rfl⟩ := h2
      exact .inr ⟨((halley k l).1 h3).1, rfl, rfl, ((halley k l).1 h3).2⟩
  · rintro (⟨hk, ⟨rfl, rfl, rfl⟩ | ⟨rfl, rfl, rfl⟩⟩ | ⟨hk, rfl, rfl, rfl⟩)
    · exact ⟨_, ⟨_, List.mem_cons_self, List.mem_cons_self⟩, (side_get _ _ _ _ _ _).2 ⟨hk, rfl⟩⟩
    · exact ⟨_, ⟨_, List.mem_cons_of_mem _ List.mem_cons_self, List.mem_cons_self⟩, (side_get _ _ _ _ _ _).2 ⟨hk, rfl⟩⟩
    · exact ⟨_, ⟨_, List.mem_cons_of_mem _ (List.mem_cons_of_mem _ List.mem_cons_self), List.mem_cons_self⟩, (halley k _).2 ⟨hk, rfl⟩⟩

/-! ## Spots -/

/-- The abscissa of spot `k` out of `n`. -/
def spotX (n k : ℕ) : ℝ := 4 * ((k : ℝ) - ((n / 2 : ℕ) : ℝ)) - 2

/-- The spots: 8 m long, heading away from the middle of the parking. -/
theorem spot_geometry (y0 limit : ℝ) (n k : ℕ) (up : Bool) (s r : ℝ) :
    (spotLane y0 limit n k up).length = 8 ∧
    (spotLane y0 limit n k up).position s r = (if up then ⟨spotX n k - r, y0 + s⟩ else ⟨spotX n k + r, -y0 - s⟩) ∧
    (spotLane y0 limit n k up).headingAt s = (if up then Real.pi / 2 else -(Real.pi / 2)) ∧
    ∀ p : Vec2, (spotLane y0 limit n k up).localCoordinates p = (if up then (p.y - y0, spotX n k - p.x) else (-y0 - p.y, p.x - spotX n k)) := by
  cases up
  · have h : Along ⟨spotX n k, -y0⟩ ⟨spotX n k, -y0 - 8⟩ ⟨0, -1⟩ 8 := by constructor <;> norm_num <;> ring
    refine ⟨h.norm, ?_, ?_, ?_⟩
    · change Lane.straightPosition _ _ s r = _
      rw [if_neg (by simp)]
      refine (h.straightPosition s r).trans ?_
      ext <;> norm_num <;> ring
    · change Lane.straightHeading _ _ = _
      rw [if_neg (by simp)]
      exact h.heading.trans arctan2_south
    · intro p
      change Lane.straightLocal _ _ p = _
      rw [if_neg (by simp)]
      refine (h.straightLocal p).trans ?_
      ext <;> norm_num <;> ring
  · have h : Along ⟨spotX n k, y0⟩ ⟨spotX n k, y0 + 8⟩ ⟨0, 1⟩ 8 := by constructor <;> norm_num
    refine ⟨h.norm, ?_, ?_, ?_⟩
    · change Lane.straightPosition _ _ s r = _
      rw [if_pos rfl]
      refine (h.straightPosition s r).trans ?_
      ext <;> norm_num
    · change Lane.straightHeading _ _ = _
      rw [if_pos rfl]
      exact h.heading.trans arctan2_north
    · intro p
      change Lane.straightLocal _ _ p = _
      rw [if_pos rfl]
      refine (h.straightLocal p).trans ?_
      ext <;> norm_num <;> ring

/-- **C61, parking**: the spots of a side cover it without a gap, and meet only at their borders. -/
theorem spots_tile (y0 limit : ℝ) (n : ℕ) (up : Bool) (p : Vec2) (hx : spotX n 0 - 2 ≤ p.x ∧ p.x < spotX n n - 2)
    (hy : y0 ≤ (if up then p.y else -p.y) ∧ (if up then p.y else -p.y) ≤ y0 + 8) :
    ∃ k < n, (∀ s r, (spotLane y0 limit n k up).localCoordinates p = (s, r) → 0 ≤ s ∧ s ≤ 8 ∧ |r| ≤ 2) ∧
      ∀ j s r, j ≠ k → (spotLane y0 limit n j up).localCoordinates p = (s, r) → 2 ≤ |r| := by
  have h0 : 0 ≤ (p.x - (spotX n 0 - 2)) / 4 := by
    have := hx.1
    apply div_nonneg <;> linarith
  have hk := Nat.floor_le h0
  have hk' := Nat.lt_floor_add_one ((p.x - (spotX n 0 - 2)) / 4)
  set k := ⌊(p.x - (spotX n 0 - 2)) / 4⌋₊ with hkdef
  have hspot : ∀ j : ℕ, spotX n j = spotX n 0 + 4 * j := by
    intro j
    unfold spotX
    push_cast
    ring
  have hkn : k < n := by
    have h1 := hx.2
    rw [hspot n] at h1
    have : (k : ℝ) < n := by linarith
    exact_mod_cast this
  refine ⟨k, hkn, ?_, ?_⟩
  · intro s r h
    rw [(spot_geometry y0 limit n k up 0 0).2.2.2 p] at h
    rw [hspot k] at h
    cases up <;> simp only [if_true, Bool.false_eq_true, if_false, Prod.mk.injEq] at h hy <;> obtain ⟨rfl, rfl⟩ := h <;>
      refine ⟨by linarith, by linarith, abs_le.2 ⟨by linarith, by linarith⟩⟩
  · intro j s r hj h
    rw [(spot_geometry y0 limit n j up 0 0).2.2.2 p] at h
    rw [hspot j] at h
    have hcases : (j : ℝ) + 1 ≤ k ∨ (k : ℝ) + 1 ≤ j := by
      rcases Nat.lt_or_gt_of_ne hj with h | h
      · left; exact_mod_cast h
      · right; exact_mod_cast h
    cases up <;> simp only [if_true, Bool.false_eq_true, if_false, Prod.mk.injEq] at h <;> obtain ⟨rfl, rfl⟩ := h <;>
      rw [le_abs] <;> rcases hcases with h | h <;> first | (left; linarith; done) | (right; linarith; done)

/-- The lanes of the parking do not chain: the spots of the second row do not start where those of the first row end. -/
theorem parking_not_chained (n j k : ℕ) :
    (spotLane 10 20 n j true).position 8 0 ≠ (spotLane 10 20 n k false).position 0 0 := by
  rw [(spot_geometry _ _ _ _ _ _ _).2.1, (spot_geometry _ _ _ _ _ _ _).2.1, if_pos rfl, if_neg (by simp)]
  intro h
  have := congrArg Vec2.y h
  norm_num at this

/-- Two vehicles standing in the middle of different spots do not touch each other. -/
theorem spots_disjoint (y0 limit : ℝ) (hy0 : 0 < y0) (n j k : ℕ) (up up' : Bool) (hne : j ≠ k ∨ up ≠ up') :
    ¬ Meet (rectSet ((spotLane y0 limit n j up).position 4 0) 5 2 ((spotLane y0 limit n j up).headingAt 4))
      (rectSet ((spotLane y0 limit n k up').position 4 0) 5 2 ((spotLane y0 limit n k up').headingAt 4)) := by
  have near : ∀ (k : ℕ) (up : Bool) (p : Vec2),
      p ∈ rectSet ((spotLane y0 limit n k up).position 4 0) 5 2 ((spotLane y0 limit n k up).headingAt 4) →
      |p.x - spotX n k| ≤ 1 ∧ (if up then y0 + 1 ≤ p.y else p.y ≤ -y0 - 1) := by
    intro k up p hp
    obtain ⟨_, g2, g3, _⟩ := spot_geometry y0 limit n k up 4 0
    rw [g2, g3] at hp
    obtain ⟨s, t, hs, ht, e1, e2⟩ := hp
    rw [abs_le] at hs ht
    cases up
    · simp only [Bool.false_eq_true, if_false, Real.cos_neg, Real.sin_neg, Real.cos_pi_div_two, Real.sin_pi_div_two] at e1 e2 ⊢
      rw [abs_le]
      refine ⟨⟨by linarith, by linarith⟩, by linarith⟩
    · simp only [if_true, Real.cos_pi_div_two, Real.sin_pi_div_two] at e1 e2 ⊢
      rw [abs_le]
      refine ⟨⟨by linarith, by linarith⟩, by linarith⟩
  rintro ⟨p, h1, h2⟩
  obtain ⟨a1, a2⟩ := near j up p h1
  obtain ⟨b1, b2⟩ := near k up' p h2
  have hx : spotX n j - spotX n k = 4 * ((j : ℝ) - k) := by unfold spotX; ring
  rw [abs_le] at a1 b1
  by_cases hjk : j = k
  · subst hjk
    have hup : up ≠ up' := by simpa using hne
    cases up <;> cases up' <;> simp only [if_true, Bool.false_eq_true, if_false] at a2 b2
    · exact hup rfl
    · linarith
    · linarith
    · exact hup rfl
  · have hcases : (j : ℝ) + 1 ≤ k ∨ (k : ℝ) + 1 ≤ j := by
      rcases Nat.lt_or_gt_of_ne hjk with h | h
      · left; exact_mod_cast h
      · right; exact_mod_cast h
    rcases hcases with h | h <;> linarith

/-- Non-vacuity: the fourth of 15 spots, and a point in it. -/
example : spotX 15 3 = -18 ∧ (spotLane 10 20 15 3 true).position 4 0 = ⟨-18, 14⟩ := by
  have h : spotX 15 3 = -18 := by unfold spotX; norm_num
  refine ⟨h, ?_⟩
  rw [(spot_geometry _ _ _ _ _ _ _).2.1, if_pos rfl, h]
  norm_num

end HighwayEnv.Props
