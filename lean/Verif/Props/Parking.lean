import Verif.Spec.Parking
import Verif.Props.Observation
import Verif.Props.Intersection
import Verif.Props.ParkMap

/-!
# C60, C61: the parking environment
-/

noncomputable section
open Classical
namespace HighwayEnv.Props
open HighwayEnv Spec Graph

/-! ## C60 — the reward as a function of two goals -/

/-- The reward of any pair of goals (each made of six numbers): minus a power of a weighted sum of the gaps, in which the third and fourth components
(speeds) do not count. -/
theorem parking_reward_eq (a d : Fin 6 → ℝ) (p : ℝ) :
    Parking.computeReward (List.ofFn a) (List.ofFn d) p =
      .ok (-(|a 0 - d 0| + 3 / 10 * |a 1 - d 1| + 2 / 100 * |a 4 - d 4| + 2 / 100 * |a 5 - d 5|) ^ p) := by
  have e : ∀ f : Fin 6 → ℝ, List.ofFn f = [f 0, f 1, f 2, f 3, f 4, f 5] := by
    intro f
    simp [List.ofFn_succ]
  rw [e a, e d]
  unfold Parking.computeReward
  rw [if_pos ⟨rfl, rfl⟩]
  congr 3
  simp only [Parking.weightedGap, Parking.REWARD_WEIGHTS, List.zipWith_cons_cons, List.zipWith_nil_right, List.sum_cons, List.sum_nil]
  ring

/-- Goals of another size are refused. -/
theorem parking_reward_size (a d : List ℝ) (p x : ℝ) (h : Parking.computeReward a d p = .ok x) : a.length = 6 ∧ d.length = 6 := by
  unfold Parking.computeReward at h
  split at h
  · rename_i hl
    have : Parking.REWARD_WEIGHTS.length = 6 := rfl
    omega
  · cases h

/-- **C60.**  The reward is never positive, and it is 0 exactly when positions and directions are those of the goal. -/
theorem parking_reward_zero (a d : Fin 6 → ℝ) (p : ℝ) (hp : 0 < p) :
    ∃ x, Parking.computeReward (List.ofFn a) (List.ofFn d) p = .ok x ∧ x ≤ 0 ∧ (x = 0 ↔ a 0 = d 0 ∧ a 1 = d 1 ∧ a 4 = d 4 ∧ a 5 = d 5) := by
  refine ⟨_, parking_reward_eq a d p, ?_, ?_⟩
  · have : 0 ≤ (|a 0 - d 0| + 3 / 10 * |a 1 - d 1| + 2 / 100 * |a 4 - d 4| + 2 / 100 * |a 5 - d 5|) ^ p := Real.rpow_nonneg (by positivity) _
    linarith
  · rw [neg_eq_zero, Real.rpow_eq_zero (by positivity) hp.ne']
    constructor
    · intro h
      have h0 := abs_nonneg (a 0 - d 0)
      have h1 := abs_nonneg (a 1 - d 1)
      have h4 := abs_nonneg (a 4 - d 4)
      have h5 := abs_nonneg (a 5 - d 5)
      refine ⟨sub_eq_zero.1 (abs_eq_zero.1 ?_), sub_eq_zero.1 (abs_eq_zero.1 ?_), sub_eq_zero.1 (abs_eq_zero.1 ?_), sub_eq_zero.1 (abs_eq_zero.1 ?_)⟩ <;>
        linarith
    · rintro ⟨h0, h1, h4, h5⟩
      simp [h0, h1, h4, h5]

/-- **C60, monotony.**  A state that is closer to the goal in every weighted feature has a reward at least as large; if it is strictly closer in one of
them, a larger one. -/
theorem parking_reward_mono (a b d : Fin 6 → ℝ) (p : ℝ) (hp : 0 < p) (h : ∀ i, i ≠ 2 → i ≠ 3 → |a i - d i| ≤ |b i - d i|) :
    ∃ x y, Parking.computeReward (List.ofFn a) (List.ofFn d) p = .ok x ∧ Parking.computeReward (List.ofFn b) (List.ofFn d) p = .ok y ∧ y ≤ x ∧
      ((∃ i, i ≠ 2 ∧ i ≠ 3 ∧ |a i - d i| < |b i - d i|) → y < x) := by
  refine ⟨_, _, parking_reward_eq a d p, parking_reward_eq b d p, ?_, ?_⟩
  · rw [neg_le_neg_iff]
    refine Real.rpow_le_rpow (by positivity) ?_ hp.le
    have h0 := h 0 (by decide) (by decide)
    have h1 := h 1 (by decide) (by decide)
    have h4 := h 4 (by decide) (by decide)
    have h5 := h 5 (by decide) (by decide)
    linarith
  · rintro ⟨i, i2, i3, hi⟩
    rw [neg_lt_neg_iff]
    refine Real.rpow_lt_rpow (by positivity) ?_ hp
    have h0 := h 0 (by decide) (by decide)
    have h1 := h 1 (by decide) (by decide)
    have h4 := h 4 (by decide) (by decide)
    have h5 := h 5 (by decide) (by decide)
    have : i = 0 ∨ i = 1 ∨ i = 4 ∨ i = 5 := by omega
    rcases this with rfl | rfl | rfl | rfl <;> linarith

/-- **C60, success.**  It is a threshold on the reward: the weighted gap is below 0.12² = 0.0144. -/
theorem parking_success_iff (a d : Fin 6 → ℝ) :
    ∃ b, Parking.isSuccessWith (fun a d => Parking.computeReward a d) (List.ofFn a) (List.ofFn d) = .ok b ∧
      (b = true ↔ |a 0 - d 0| + 3 / 10 * |a 1 - d 1| + 2 / 100 * |a 4 - d 4| + 2 / 100 * |a 5 - d 5| < 144 / 10000) ∧
      ∃ x, Parking.computeReward (List.ofFn a) (List.ofFn d) = .ok x ∧ (b = true ↔ -(12 / 100) < x) := by
  refine ⟨_, by unfold Parking.isSuccessWith; dsimp only; rw [parking_reward_eq]; rfl, ?_, _, parking_reward_eq a d _, ?_⟩
  · rw [decide_eq_true_eq, Parking.SUCCESS_GOAL_REWARD, neg_lt_neg_iff, ← Real.sqrt_eq_rpow, Real.sqrt_lt' (by norm_num)]
    norm_num
  · rw [decide_eq_true_eq, Parking.SUCCESS_GOAL_REWARD]

/-! ## The reward of a state -/

private theorem free_direction (g : Graph) (v : Vehicle) (h : v.kind.isControlled = false) : v.destinationDirection g = .ok ⟨0, 0⟩ := by
  have e : v.destination g = .ok v.pos := by unfold Vehicle.destination; simp [h]
  unfold Vehicle.destinationDirection
  rw [e]
  simp only [bind, Except.bind, ne_eq, not_true_eq_false, if_false]
  rfl

/-- What an observer of the parking sees, and how it is weighed. -/
theorem goal_seen (cfg : ParkingConfig) (hc : ParkingOk cfg) (g : Graph) (v : Vehicle) (o : RoadObject) (h : v.kind.isControlled = false) :
    ∃ a d : Fin 6 → ℝ, goalObservation g cfg.features cfg.scales v o = .ok (List.ofFn a, List.ofFn a, List.ofFn d) ∧
      |a 0 - d 0| + 3 / 10 * |a 1 - d 1| + 2 / 100 * |a 4 - d 4| + 2 / 100 * |a 5 - d 5| = parkingGap v o := by
  refine ⟨![v.pos.x / 100, v.pos.y / 100, v.velocity.x / 5, v.velocity.y / 5, v.direction.x / 1, v.direction.y / 1],
    ![o.pos.x / 100, o.pos.y / 100, 0 / 5, 0 / 5, Real.cos o.heading / 1, Real.sin o.heading / 1], ?_, ?_⟩
  · rw [hc.features, hc.scales]
    unfold goalObservation Vehicle.toDict Vehicle.absDict
    rw [free_direction g v h]
    rfl
  · have e : ∀ x y : ℝ, |x / 100 - y / 100| = |x - y| / 100 := by
      intro x y
      rw [← sub_div, abs_div]; norm_num
    simp only [parkingGap]
    change |v.pos.x / 100 - o.pos.x / 100| + 3 / 10 * |v.pos.y / 100 - o.pos.y / 100| + 2 / 100 * |Real.cos v.heading / 1 - Real.cos o.heading / 1| +
      2 / 100 * |Real.sin v.heading / 1 - Real.sin o.heading / 1| = _
    rw [e, e, div_one, div_one, div_one, div_one]

theorem gap_nonneg (v : Vehicle) (o : RoadObject) : 0 ≤ parkingGap v o := by
  unfold parkingGap; positivity

/-- The gap is 0 exactly at the position and in the direction of the goal. -/
theorem parking_gap_zero (v : Vehicle) (o : RoadObject) :
    parkingGap v o = 0 ↔ v.pos = o.pos ∧ Real.cos v.heading = Real.cos o.heading ∧ Real.sin v.heading = Real.sin o.heading := by
  unfold parkingGap
  have h0 := abs_nonneg (v.pos.x - o.pos.x)
  have h1 := abs_nonneg (v.pos.y - o.pos.y)
  have h4 := abs_nonneg (Real.cos v.heading - Real.cos o.heading)
  have h5 := abs_nonneg (Real.sin v.heading - Real.sin o.heading)
  constructor
  · intro h
    refine ⟨?_, sub_eq_zero.1 (abs_eq_zero.1 ?_), sub_eq_zero.1 (abs_eq_zero.1 ?_)⟩
    · ext
      · exact sub_eq_zero.1 (abs_eq_zero.1 (by linarith))
      · exact sub_eq_zero.1 (abs_eq_zero.1 (by linarith))
    all_goals linarith
  · rintro ⟨h, h2, h3⟩
    rw [h, h2, h3]
    simp

/-- There is somebody to watch. -/
theorem watched_ok {cfg : ParkingConfig} {e : Env} (h : Manned e) : ∃ vs, Watched cfg e vs ∧ vs ≠ [] := by
  obtain ⟨vs, _, h1, h2⟩ := egos_ok h.onRoad
  have hne : vs ≠ [] := by
    intro h0
    apply h.someone
    rw [← h1, h0]; rfl
  by_cases hs : cfg.severalObservers = true
  · exact ⟨vs, ⟨by rw [if_pos hs]; exact h1, h2⟩, hne⟩
  · refine ⟨vs.take 1, ⟨by rw [if_neg hs, ← h1, List.map_take], fun v hv => h2 v (List.mem_of_mem_take hv)⟩, ?_⟩
    cases vs with
    | nil => exact absurd rfl hne
    | cons v vs => simp

private theorem find_uid {e : Env} (h : Manned e) {v : Vehicle} (hv : v ∈ e.road.vehicles) : e.road.vehicle? v.uid = some v := by
  obtain ⟨w, h1, h2, h3⟩ := agents_find (r := e.road) (uid := v.uid) ⟨v, hv, rfl⟩
  rw [h1]
  congr 1
  exact List.inj_on_of_nodup_map h.distinct h2 hv h3

private theorem mapM_forall {α β : Type} {f : α → Py β} {P : α → β → Prop} (l : List α) (h : ∀ a ∈ l, ∃ b, f a = .ok b ∧ P a b) :
    ∃ bs, l.mapM f = .ok bs ∧ List.Forall₂ P l bs := by
  induction l with
  | nil => exact ⟨[], rfl, .nil⟩
  | cons a l ih =>
    obtain ⟨b, h1, h2⟩ := h a List.mem_cons_self
    obtain ⟨bs, h3, h4⟩ := ih fun x hx => h x (List.mem_cons_of_mem _ hx)
    refine ⟨b :: bs, ?_, .cons h2 h4⟩
    rw [List.mapM_cons, h1]
    simp only [bind, Except.bind]
    rw [h3]
    rfl

/-- What is known of one observation in a parking. -/
private def Sees (o : RoadObject) (v : Vehicle) (x : List ℝ × List ℝ × List ℝ) : Prop :=
  ∃ a d : Fin 6 → ℝ, x.2.1 = List.ofFn a ∧ x.2.2 = List.ofFn d ∧
    |a 0 - d 0| + 3 / 10 * |a 1 - d 1| + 2 / 100 * |a 4 - d 4| + 2 / 100 * |a 5 - d 5| = parkingGap v o

private theorem observe_ok {cfg : ParkingConfig} (hc : ParkingOk cfg) {net : Graph} {o : RoadObject} {e : Env} (h : Ready cfg.sim e)
    (hI : ParkingScene net o e) {vs : List Vehicle} (hw : Watched cfg e vs) :
    ∃ obs, Parking.observations cfg e = .ok obs ∧ List.Forall₂ (Sees o) vs obs := by
  obtain ⟨hit, ho⟩ := hI.goal
  have hgoal : Parking.goal e = .ok { o with hit := hit } := by
    unfold Parking.goal
    rw [ho, hI.pointer]
    simp
  have one : ∀ v ∈ e.road.vehicles, v.uid ∈ e.controlled → ∃ x, Parking.observeOne cfg e v.uid = .ok x ∧ Sees o v x := by
    intro v hv hu
    obtain ⟨c, hact, _⟩ := hc.action
    have hk : v.kind.isControlled = false := by
      rw [h.fitted v hv hu]
      rcases hact with hact | hact <;> rw [hact] <;> simp only [agentOf, AgentType.vehicleClass] <;> split <;> rfl
    obtain ⟨a, d, h1, h2⟩ := goal_seen cfg hc e.road.network v { o with hit := hit } hk
    refine ⟨(List.ofFn a, List.ofFn a, List.ofFn d), ?_, a, d, rfl, rfl, h2⟩
    unfold Parking.observeOne
    rw [find_uid h.manned hv]
    simp only [hgoal, bind, Except.bind]
    exact h1
  obtain ⟨h1, h2⟩ := hw
  unfold Parking.observations
  by_cases hs : cfg.severalObservers = true
  · rw [if_pos hs] at h1 ⊢
    obtain ⟨bs, e1, e2⟩ := mapM_forall (f := fun v : Vehicle => Parking.observeOne cfg e v.uid) (P := Sees o) vs
      (fun v hv => one v (h2 v hv) (by rw [← h1]; exact List.mem_map.2 ⟨v, hv, rfl⟩))
    refine ⟨bs, ?_, e2⟩
    rw [← h1, List.mapM_map]
    exact e1
  · rw [if_neg hs] at h1 ⊢
    cases hctl : e.controlled with
    | nil => exact absurd hctl h.manned.someone
    | cons u us =>
      rw [hctl] at h1
      obtain ⟨v, rfl⟩ := List.length_eq_one_iff.1 (by rw [← List.length_map (f := (·.uid)), h1]; simp : vs.length = 1)
      have hu : v.uid = u := by simpa using h1
      obtain ⟨x, x1, x2⟩ := one v (h2 v (by simp)) (by rw [hctl, hu]; simp)
      refine ⟨[x], ?_, .cons x2 .nil⟩
      dsimp only
      rw [← hu, x1]
      rfl

/-- A way of scoring pairs of goals that subtracts a constant from the parking reward. -/
def GoalScore (f : List ℝ → List ℝ → Py ℝ) (c : ℝ) : Prop := ∀ a d : Fin 6 → ℝ, f (List.ofFn a) (List.ofFn d) =
  .ok (-Real.sqrt (|a 0 - d 0| + 3 / 10 * |a 1 - d 1| + 2 / 100 * |a 4 - d 4| + 2 / 100 * |a 5 - d 5|) - c)

private theorem sum_ok {f : List ℝ → List ℝ → Py ℝ} {c : ℝ} (hf : GoalScore f c) {o : RoadObject} {vs : List Vehicle}
    {obs : List (List ℝ × List ℝ × List ℝ)} (h : List.Forall₂ (Sees o) vs obs) :
    obs.mapM (fun x => f x.2.1 x.2.2) = .ok (vs.map fun v => -Real.sqrt (parkingGap v o) - c) := by
  induction h with
  | nil => rfl
  | cons h _ ih =>
    obtain ⟨a, d, h1, h2, h3⟩ := h
    rw [List.mapM_cons, h1, h2, hf, h3]
    simp only [bind, Except.bind]
    rw [ih]
    rfl

private theorem success_ok {f : List ℝ → List ℝ → Py ℝ} {c : ℝ} (hf : GoalScore f c) {o : RoadObject} {v : Vehicle}
    {x : List ℝ × List ℝ × List ℝ} (h : Sees o v x) : Parking.isSuccessWith f x.2.1 x.2.2 = .ok (decide (Real.sqrt (parkingGap v o) + c < 12 / 100)) := by
  obtain ⟨a, d, h1, h2, h3⟩ := h
  unfold Parking.isSuccessWith
  rw [h1, h2, hf, h3]
  simp only [bind, Except.bind, pure, Except.pure]
  congr 1
  refine decide_eq_decide.2 ?_
  unfold Parking.SUCCESS_GOAL_REWARD
  constructor <;> intro h <;> linarith

private theorem all_ok {f : List ℝ → List ℝ → Py ℝ} {c : ℝ} (hf : GoalScore f c) {o : RoadObject} {vs : List Vehicle}
    {obs : List (List ℝ × List ℝ × List ℝ)} (h : List.Forall₂ (Sees o) vs obs) :
    Parking.allSuccessWith f obs = .ok (decide (∀ v ∈ vs, Real.sqrt (parkingGap v o) + c < 12 / 100)) := by
  induction h with
  | nil => simp [Parking.allSuccessWith]
  | @cons v x vs obs h _ ih =>
    unfold Parking.allSuccessWith
    rw [success_ok hf h]
    simp only [bind, Except.bind]
    by_cases hb : Real.sqrt (parkingGap v o) + c < 12 / 100
    · rw [if_pos (by simpa using hb), ih]
      simp [hb]
    · rw [if_neg (by simpa using hb)]
      simp [hb]

private theorem each_ok {f : List ℝ → List ℝ → Py ℝ} {c : ℝ} (hf : GoalScore f c) {o : RoadObject} {vs : List Vehicle}
    {obs : List (List ℝ × List ℝ × List ℝ)} (h : List.Forall₂ (Sees o) vs obs) :
    obs.mapM (fun x => Parking.isSuccessWith f x.2.1 x.2.2) = .ok (vs.map fun v => decide (Real.sqrt (parkingGap v o) + c < 12 / 100)) := by
  induction h with
  | nil => rfl
  | cons h _ ih =>
    rw [List.mapM_cons, success_ok hf h]
    simp only [bind, Except.bind]
    rw [ih]
    rfl

private theorem scores_parking : GoalScore (fun a d => Parking.computeReward a d) 0 := by
  intro a d
  dsimp only
  rw [parking_reward_eq, ← Real.sqrt_eq_rpow, sub_zero]

/-- Reward, success and termination in a reachable state, for a way of scoring. -/
theorem state_ok {f : List ℝ → List ℝ → Py ℝ} {c : ℝ} (hf : GoalScore f c) {cfg : ParkingConfig} (hc : ParkingOk cfg) {net : Graph}
    {o : RoadObject} {e : Env} (h : Ready cfg.sim e) (hI : ParkingScene net o e) {vs ws : List Vehicle} (hw : Watched cfg e vs) (ha : Agents e ws) :
    Parking.rewardWith f cfg e = .ok (vs.map fun v => -Real.sqrt (parkingGap v o) - c).sum ∧
    Parking.infoSuccessWith f cfg e = .ok (vs.map fun v => decide (Real.sqrt (parkingGap v o) + c < 12 / 100)) ∧
    ∃ b, Parking.terminalWith f cfg e = .ok b ∧ (b = true ↔ cfg.duration ≤ e.steps ∨ (∃ v ∈ ws, v.crashed = true) ∨
      ∀ v ∈ vs, Real.sqrt (parkingGap v o) + c < 12 / 100) := by
  obtain ⟨obs, h1, h2⟩ := observe_ok hc h hI hw
  obtain ⟨ws', h3, h4⟩ := egos_ok h.manned.onRoad
  have := agents_unique h.manned.distinct h4 ha
  subst this
  refine ⟨?_, ?_, ?_⟩
  · unfold Parking.rewardWith
    rw [h1]
    simp only [bind, Except.bind, pure, Except.pure]
    rw [sum_ok hf h2]
  · unfold Parking.infoSuccessWith
    rw [h1]
    simp only [bind, Except.bind]
    rw [each_ok hf h2]
  · unfold Parking.terminalWith
    have h3' : Parking.egos e = .ok ws' := h3
    rw [h3', h1]
    simp only [bind, Except.bind, pure, Except.pure]
    rw [all_ok hf h2]
    refine ⟨_, rfl, ?_⟩
    simp [or_assoc]

theorem sum_nonpos' (l : List Vehicle) (g : Vehicle → ℝ) (h : ∀ v ∈ l, g v ≤ 0) : (l.map g).sum ≤ 0 := by
  induction l with
  | nil => simp
  | cons v l ih =>
    rw [List.map_cons, List.sum_cons]
    have h1 := h v List.mem_cons_self
    have h2 := ih fun w hw => h w (List.mem_cons_of_mem _ hw)
    linarith

theorem parked_iff (v : Vehicle) (o : RoadObject) : Real.sqrt (parkingGap v o) + 0 < 12 / 100 ↔ Parked v o := by
  rw [add_zero, Real.sqrt_lt' (by norm_num), Parked]
  norm_num

/-- **C60, in a reachable state.**  The reward is the sum, over the watched vehicles, of minus the square root of the gap to the goal; it is never
positive, and 0 exactly when all of them are at the position and in the direction of the goal; `is_success` tells for each of them whether it is
parked (at any speed); the episode is over exactly when the time is over, an agent has crashed, or all watched vehicles are parked. -/
theorem parking_state (cfg : ParkingConfig) (hc : ParkingOk cfg) (net : Graph) (o : RoadObject) (e : Env) (h : Ready cfg.sim e)
    (hI : ParkingScene net o e) (a : Option AgentAction) :
    ∃ vs ws x b, Watched cfg e vs ∧ vs ≠ [] ∧ Agents e ws ∧ (Parking.cls cfg).reward e a = .ok x ∧ (Parking.cls cfg).terminal e = .ok b ∧
      x = (vs.map fun v => -Real.sqrt (parkingGap v o)).sum ∧ x ≤ 0 ∧
      (x = 0 ↔ ∀ v ∈ vs, v.pos = o.pos ∧ Real.cos v.heading = Real.cos o.heading ∧ Real.sin v.heading = Real.sin o.heading) ∧
      Parking.infoSuccessWith (fun a d => Parking.computeReward a d) cfg e = .ok (vs.map fun v => decide (Parked v o)) ∧
      (b = true ↔ cfg.duration ≤ e.steps ∨ (∃ v ∈ ws, v.crashed = true) ∨ ∀ v ∈ vs, Parked v o) := by
  obtain ⟨vs, hw, hne⟩ := watched_ok (cfg := cfg) h.manned
  obtain ⟨ws, _, ha⟩ := egos_ok h.manned.onRoad
  obtain ⟨h1, h2, b, h3, h4⟩ := state_ok scores_parking hc h hI hw ha
  refine ⟨vs, ws, _, b, hw, hne, ha, h1, h3, by simp, ?_, ?_, ?_, ?_⟩
  · refine sum_nonpos' _ _ ?_
    intro v _
    have := Real.sqrt_nonneg (parkingGap v o)
    linarith
  · have : ∀ l : List Vehicle, (l.map fun v => -Real.sqrt (parkingGap v o) - 0).sum = 0 ↔ ∀ v ∈ l, parkingGap v o = 0 := by
      intro l
      induction l with
      | nil => simp
      | cons v l ih =>
        have hl : (l.map fun v => -Real.sqrt (parkingGap v o) - 0).sum ≤ 0 := by
          refine sum_nonpos' _ _ ?_
          intro v _
          have := Real.sqrt_nonneg (parkingGap v o)
          linarith
        have hv := Real.sqrt_nonneg (parkingGap v o)
        rw [List.map_cons, List.sum_cons, List.forall_mem_cons, ← ih, ← Real.sqrt_eq_zero (gap_nonneg v o)]
        constructor
        · intro h; exact ⟨by linarith, by linarith⟩
        · rintro ⟨h, h'⟩; linarith
    rw [this]
    simp only [parking_gap_zero]
  · rw [h2]
    simp only [parked_iff]
  · rw [h4]
    simp only [parked_iff]

/-! ## What lasts -/

private theorem objects_run {G : Globals} {r r' : Road} (h : RoadRun G r r') : Road.OsEvolves r.objects r'.objects := by
  induction h with
  | refl => exact Road.OsEvolves.refl _
  | tail _ hev ih =>
    refine ih.trans ?_
    cases hev with
    | actAt i a h => rw [(Road.actAt_frame h).2.objects]; exact Road.OsEvolves.refl _
    | act h => rw [(Road.act_frame h).2.objects]; exact Road.OsEvolves.refl _
    | step dt h => exact (Road.step_frame h).2.2.2.2.2

/-- The parking and its goal never change: only the `hit` flag of the goal does. -/
theorem parking_lasting (G : Globals) (net : Graph) (o : RoadObject) : Lasting G (ParkingScene net o) := by
  intro e r t s h hr
  refine ⟨(run_network hr).trans h.network, ?_, h.landmark, h.pointer⟩
  obtain ⟨hit, ho⟩ := h.goal
  have := objects_run hr
  rw [ho] at this
  unfold Road.OsEvolves at this
  change ∃ hit, r.objects = _
  generalize r.objects = os at this
  cases this with
  | cons h1 h2 =>
    cases h2
    obtain ⟨b, rfl, _⟩ := h1
    exact ⟨b, rfl⟩

/-- A vehicle alone on a road without obstacles never crashes, whatever it does. -/
theorem alone_never_crashes (G : Globals) (r r' : Road) (h : RoadRun G r r') (v : Vehicle) (hv : r.vehicles = [v]) (hc : v.crashed = false)
    (ho : ∀ o ∈ r.objects, o.kind ≠ .obstacle) : ∃ v', r'.vehicles = [v'] ∧ v'.uid = v.uid ∧ v'.crashed = false := by
  have one : ∀ {us : List Vehicle} {R : Vehicle → Vehicle → Prop} {u : Vehicle}, Pointwise R [u] us → ∃ w, us = [w] ∧ R u w := by
    intro us R u hp
    obtain ⟨w, h1, h2⟩ := hp.2 0 u rfl
    have hl := hp.1
    obtain ⟨x, rfl⟩ := List.length_eq_one_iff.1 (by simpa using hl)
    simp only [List.getElem?_cons_zero, Option.some.injEq] at h1
    subst h1
    exact ⟨x, rfl, h2⟩
  induction h with
  | refl => exact ⟨v, hv, rfl, hc⟩
  | @tail r1 r2 hrun hev ih =>
    obtain ⟨u, hu, huid, hcr⟩ := ih
    cases hev with
    | actAt i a h =>
      obtain ⟨w, h1, h2⟩ := one (hu ▸ (Road.actAt_frame h).1)
      exact ⟨w, h1, h2.uid.trans huid, h2.crashed.trans hcr⟩
    | act h =>
      obtain ⟨w, h1, h2⟩ := one (hu ▸ (Road.act_frame h).1)
      exact ⟨w, h1, h2.uid.trans huid, h2.crashed.trans hcr⟩
    | step dt h =>
      obtain ⟨w, h1, x, hx, hs⟩ := one (hu ▸ (Road.step_frame h).1)
      refine ⟨w, h1, (hs.mind.1.trans hx.body.uid).trans huid, ?_⟩
      obtain ⟨moved, hm, hiff⟩ := step_crashed_iff _ _ dt h
      obtain ⟨m, rfl, _⟩ := one (hu ▸ hm)
      obtain ⟨w', q1, q2⟩ := hiff 0 u (by rw [hu]; rfl)
      rw [h1] at q1
      simp only [List.getElem?_cons_zero, Option.some.injEq] at q1
      subst q1
      rw [← Bool.not_eq_true, q2]
      rintro (q | ⟨y, q3, _, ⟨j, z, hj, hz, _⟩ | ⟨o, ho', hk, _⟩⟩)
      · rw [hcr] at q; cases q
      · cases j with
        | zero => exact hj rfl
        | succ j => simp at hz
      · exact no_obstacle_run hrun ho o ho' hk

/-! ## Reset -/

private theorem egos_placed (G : Globals) {cfg : ParkingConfig} {g : Graph} (hwf : WellFormed g) (hne : g ≠ []) (r : Road) (hr : r.network = g)
    (h0 : r.vehicles = []) (m : ℕ) :
    ∃ vs rng, (List.range m).foldlM (Parking.addEgo G cfg) r = .ok { r with vehicles := vs, rng := rng } ∧ vs.length = m ∧
      ∀ (i : ℕ) (v : Vehicle), vs[i]? = some v → ParkingStart cfg.sim.action.agent.vehicleClass i v ∧ Attached g v ∧ v.route = none := by
  induction m with
  | zero => exact ⟨[], r.rng, by rw [List.range_zero, List.foldlM_nil, ← h0]; rfl, rfl, by simp⟩
  | succ m ih =>
    obtain ⟨vs, rng, h1, h2, h3⟩ := ih
    obtain ⟨v, q1, q2, q3, _⟩ := mk'_total G hwf hne m cfg.sim.action.agent.vehicleClass ⟨(m : ℝ) * 20, 0⟩ (2 * Real.pi * rng.uniform01.1) 0
    refine ⟨vs ++ [v], rng.uniform01.2, ?_, by simp [h2], ?_⟩
    · rw [List.range_succ, List.foldlM_append, h1]
      simp only [bind, Except.bind, List.foldlM_cons, List.foldlM_nil]
      unfold Parking.addEgo
      simp only [hr, q1, bind, Except.bind, pure, Except.pure]
    · intro i w hw
      by_cases hi : i < m
      · rw [List.getElem?_append_left (by omega)] at hw
        exact h3 i w hw
      · have him : i = m := by
          have := (List.getElem?_eq_some_iff.1 hw).1
          simp at this; omega
        subst him
        rw [← h2, List.getElem?_concat_length] at hw
        cases hw
        have hu := uniform_range rng (a := 0) (b := 1) (by norm_num)
        have hu' : 0 ≤ rng.uniform01.1 ∧ rng.uniform01.1 < 1 := by
          unfold Rng.uniform at hu
          simpa using hu
        have hpi := Real.pi_pos
        refine ⟨⟨q2.uid, q2.kind, ?_, ?_, q2.speed, q2.crashed⟩, q3, q2.route⟩
        · rw [q2.pos]; ext
          · exact mul_comm _ _
          · rfl
        · rw [q2.heading]
          constructor
          · have := hu'.1; positivity
          · nlinarith [hu'.2]

theorem parking_lanesList {l : Lane} (h : l ∈ (parkingNet 15).lanesList) : ∃ k < 15, ∃ up, l = spotLane 10 20 15 k up := by
  unfold lanesList parkingNet at h
  simp only [List.flatMap_cons, List.flatMap_nil, List.append_nil, List.mem_append, side, List.mem_map, List.mem_range] at h
  rcases h with ⟨k, hk, rfl⟩ | ⟨k, hk, rfl⟩
  · exact ⟨k, hk, true, rfl⟩
  · exact ⟨k, hk, false, rfl⟩

/-- **Reset of the parking**, with any positive number of agents and any seed: the agents stand still every 20 m along the middle of the parking, in random
directions, without touching each other; the goal is the middle of one of the 30 spots, in the direction of the spot. -/
theorem parking_reset (G : Globals) (cfg : ParkingConfig) (hc : ParkingOk cfg) (hn : 0 < cfg.controlledVehicles) (rng : Rng) :
    ∃ e o k up, Parking.reset G cfg rng = .ok e ∧ Ready cfg.sim e ∧ ParkingScene (parkingNet 15) o e ∧ e.steps = 0 ∧ e.time = 0 ∧ e.done = false ∧
      e.controlled = List.range cfg.controlledVehicles ∧ e.road.vehicles.length = cfg.controlledVehicles ∧
      (∀ (i : ℕ) (v : Vehicle), e.road.vehicles[i]? = some v → ParkingStart cfg.sim.action.agent.vehicleClass i v) ∧
      (∀ (i j : ℕ) (v w : Vehicle), e.road.vehicles[i]? = some v → e.road.vehicles[j]? = some w → i ≠ j →
        ¬ Meet (rectSet v.pos 5 2 v.heading) (rectSet w.pos 5 2 w.heading)) ∧
      k < 15 ∧ o.pos = (spotLane 10 20 15 k up).position 4 0 ∧ o.heading = (if up then Real.pi / 2 else -(Real.pi / 2)) := by
  obtain ⟨c, hact, hlola⟩ := hc.action
  have hagent : cfg.sim.action.agent = .continuous c := by rcases hact with h | h <;> rw [h] <;> rfl
  have hinit : AgentType.init (.continuous c) = .ok (.continuous c) := by
    unfold AgentType.init
    rcases hlola with h | h <;> simp [h]
  have hfree : cfg.sim.action.agent.vehicleClass.isControlled = false ∧ cfg.sim.action.agent.vehicleClass.isLinear = false := by
    rw [hagent]
    unfold AgentType.vehicleClass
    dsimp only
    split <;> exact ⟨rfl, rfl⟩
  have hwf := parkingNet_wf 15 (by norm_num)
  have hnet : (Parking.makeRoad cfg rng).network = parkingNet 15 := parking_network 15 (by norm_num)
  obtain ⟨vs, rng1, h1, h2, h3⟩ := egos_placed G (cfg := cfg) hwf (by simp [parkingNet]) (Parking.makeRoad cfg rng) hnet rfl cfg.controlledVehicles
  obtain ⟨l, rng2, h4, h5⟩ := choice_ok rng1 (l := (parkingNet 15).lanesList) (by
    intro h
    have : spotLane 10 20 15 0 true ∈ (parkingNet 15).lanesList := by
      unfold lanesList parkingNet
      simp only [side, List.flatMap_cons, List.flatMap_nil, List.append_nil, List.mem_append, List.mem_map, List.mem_range]
      exact .inl ⟨0, by norm_num, rfl⟩
    rw [h] at this
    cases this)
  obtain ⟨k, hk, up, rfl⟩ := parking_lanesList h5
  obtain ⟨g1, _, g3, _⟩ := spot_geometry 10 20 15 k up 0 0
  set o : RoadObject := { uid := cfg.controlledVehicles, kind := .landmark, pos := (spotLane 10 20 15 k up).position ((spotLane 10 20 15 k up).length / 2) 0,
                          heading := Parking.laneHeading (spotLane 10 20 15 k up) } with ho
  set r : Road := { Parking.makeRoad cfg rng with vehicles := vs, objects := [o], rng := rng2 } with hr
  have huids : vs.map (·.uid) = List.range cfg.controlledVehicles := by
    refine List.ext_getElem? fun i => ?_
    rw [List.getElem?_map]
    by_cases hi : i < cfg.controlledVehicles
    · rw [List.getElem?_range hi, List.getElem?_eq_getElem (by omega)]
      exact congrArg some (h3 i _ (List.getElem?_eq_getElem (by omega))).1.uid
    · rw [List.getElem?_eq_none (by omega), List.getElem?_eq_none (by simpa using hi)]
      rfl
  have hmem : ∀ {P : Vehicle → Prop}, (∀ (i : ℕ) v, vs[i]? = some v → P v) → ∀ v ∈ vs, P v := by
    intro P hP v hv
    obtain ⟨i, hi⟩ := List.getElem?_of_mem hv
    exact hP i v hi
  refine ⟨{ road := r, controlled := List.range cfg.controlledVehicles, goal := cfg.controlledVehicles, nextUid := cfg.controlledVehicles + 1 }, o, k, up, ?_,
    ⟨⟨?_, ?_, ?_, ?_⟩, ⟨?_, ?_, ?_⟩, ?_, ?_, ?_⟩, ⟨hnet, ⟨false, rfl⟩, rfl, rfl⟩, rfl, rfl, rfl, rfl, h2, fun i v hv => (h3 i v hv).1, ?_, hk, ?_, ?_⟩
  · unfold Parking.reset Parking.makeVehicles
    rw [hagent, hinit]
    simp only [bind, Except.bind]
    rw [h1]
    dsimp only
    have h4' : rng1.choice (Parking.makeRoad cfg rng).network.lanesList = .ok (spotLane 10 20 15 k up, rng2) := by rw [hnet]; exact h4
    rw [h4']
    rfl
  · change WellFormed (Parking.makeRoad cfg rng).network
    rw [hnet]; exact hwf
  · change ∀ v ∈ vs, Attached (Parking.makeRoad cfg rng).network v ∧ RouteExists (Parking.makeRoad cfg rng).network v.route
    rw [hnet]
    refine hmem fun i v hv => ⟨(h3 i v hv).2.1, ?_⟩
    rw [(h3 i v hv).2.2]
    intro s hs
    simp at hs
  · rintro ⟨v, hv, hl⟩
    exfalso
    revert hl
    refine hmem (P := fun v => ¬ v.kind.isLinear = true) ?_ v hv
    intro i v hv
    rw [(h3 i v hv).1.kind, hfree.2]
    simp
  · intro h; cases h
  · change (vs.map (·.uid)).Nodup
    rw [huids]; exact List.nodup_range
  · intro uid hu
    rw [← huids] at hu
    obtain ⟨v, hv, rfl⟩ := List.mem_map.1 hu
    exact ⟨v, hv, rfl⟩
  · intro h
    have := congrArg List.length h
    simp at this; omega
  · change ∀ v ∈ vs, _
    refine hmem fun i v hv _ => ?_
    rw [(h3 i v hv).1.kind, agentOf_agent]
  · rw [agentOf_agent, hagent]; exact ⟨_, hinit⟩
  · intro h; cases h
  · intro i j v w hv hw hij
    have near : ∀ (c : Vec2) (a : ℝ) (p : Vec2), p ∈ rectSet c 5 2 a → |p.x - c.x| ≤ 7 / 2 := by
      rintro c a p ⟨s, t, hs, ht, e1, _⟩
      have hcos := Real.abs_cos_le_one a
      have hsin := Real.abs_sin_le_one a
      have : p.x - c.x = s * Real.cos a - t * Real.sin a := by rw [e1]; ring
      rw [this]
      calc |s * Real.cos a - t * Real.sin a| ≤ |s * Real.cos a| + |t * Real.sin a| := abs_sub _ _
        _ = |s| * |Real.cos a| + |t| * |Real.sin a| := by rw [abs_mul, abs_mul]
        _ ≤ |s| * 1 + |t| * 1 := by gcongr
        _ ≤ 7 / 2 := by linarith
    rintro ⟨p, p1, p2⟩
    have a1 := near _ _ _ p1
    have a2 := near _ _ _ p2
    rw [(h3 i v hv).1.pos] at a1
    rw [(h3 j w hw).1.pos] at a2
    dsimp only at a1 a2
    rw [abs_le] at a1 a2
    have hcases : (i : ℝ) + 1 ≤ j ∨ (j : ℝ) + 1 ≤ i := by
      rcases Nat.lt_or_gt_of_ne hij with h | h
      · left; exact_mod_cast h
      · right; exact_mod_cast h
    rcases hcases with h | h <;> linarith
  · change (spotLane 10 20 15 k up).position ((spotLane 10 20 15 k up).length / 2) 0 = _
    rw [g1]; norm_num
  · exact g3

/-! ## Episodes -/

/-- The methods of the parking raise nothing. -/
theorem parking_reliable (G : Globals) (cfg : ParkingConfig) (hc : ParkingOk cfg) (net : Graph) (o : RoadObject) :
    Reliable G cfg.sim (Parking.cls cfg) (ParkingScene net o) where
  lasting := parking_lasting G net o
  terminal := fun e h hI => by
    obtain ⟨_, _, _, b, _, _, _, _, hb, _⟩ := parking_state cfg hc net o e h hI none
    exact ⟨b, hb⟩
  reward := fun e a h hI _ => by
    obtain ⟨_, _, x, _, _, _, _, hx, _⟩ := parking_state cfg hc net o e h hI (some a)
    exact ⟨x, hx⟩
  cost := fun e h _ => .inr rfl
  after := fun e h hI => ⟨e, rfl, h, hI⟩

/-- **C60, whole episodes.**  From a reset with any positive number of agents and any seed, any sequence of continuous actions can be played without an
exception; the parking and its goal never move; each reward is the sum, over the watched vehicles in one state, of minus the square root of the gap
to the goal (never positive); the episode is over exactly when the time is over, an agent has crashed or all watched vehicles are parked. -/
theorem parking_episode (G : Globals) (cfg : ParkingConfig) (hc : ParkingOk cfg) (hn : 0 < cfg.controlledVehicles) (hp : cfg.sim.policyFrequency ≠ 0)
    (rng : Rng) (as : List AgentAction) (ha : ∀ a ∈ as, InEnvSpace cfg.sim.action a) :
    ∃ e o rs e', Parking.reset G cfg rng = .ok e ∧ Episode G cfg.sim (Parking.cls cfg) e as rs e' ∧ rs.length = as.length ∧
      ParkingScene (parkingNet 15) o e ∧ ParkingScene (parkingNet 15) o e' ∧
      ∀ (i : ℕ) (res : StepResult), rs[i]? = some res → ∃ f vs ws, ParkingScene (parkingNet 15) o f ∧ f.controlled = List.range cfg.controlledVehicles ∧
        Watched cfg f vs ∧ vs ≠ [] ∧ Agents f ws ∧ res.reward = (vs.map fun v => -Real.sqrt (parkingGap v o)).sum ∧ res.reward ≤ 0 ∧
        (res.terminal = true ↔ cfg.duration ≤ (i + 1 : ℕ) ∨ (∃ v ∈ ws, v.crashed = true) ∨ ∀ v ∈ vs, Parked v o) ∧ res.cost = none := by
  obtain ⟨e, o, _, _, h1, h2, h3, h4, _, _, h7, _⟩ := parking_reset G cfg hc hn rng
  have hrel := parking_reliable G cfg hc (parkingNet 15) o
  obtain ⟨rs, e', hep, hlen, _, _⟩ := episode_never_raises _ cfg.sim _ _ hrel hp e h2 h3 as ha
  obtain ⟨_, o2, _, _, _, hout⟩ := episode_outcomes _ cfg.sim _ _ hrel (tidy_default rfl) hp e e' h2 h3 as rs ha hep
  refine ⟨e, o, rs, e', h1, hep, hlen, h3, o2, ?_⟩
  intro i res hres
  have hi : i < as.length := by rw [← hlen]; exact (List.getElem?_eq_some_iff.1 hres).1
  obtain ⟨f, v, q1, q2, q3, q4, q5, q6, _, _, _, q10⟩ := hout i _ res (List.getElem?_eq_getElem hi) hres
  obtain ⟨vs, ws, x, b, a1, a2, a3, a4, a5, a6, a7, _, _, a10⟩ := parking_state cfg hc _ o f q1 q2 (some as[i])
  rw [q5] at a4
  rw [q6] at a5
  cases a4
  cases a5
  refine ⟨f, vs, ws, q2, q4.trans h7, a1, a2, a3, a6, a7, ?_, ?_⟩
  · rw [a10, q3, h4]
    simp
  · cases hcst : res.cost with
    | none => rfl
    | some y =>
      have := (q10 y).1 hcst
      cases this

/-- **C60, one agent.**  With one agent (the default), no episode ends by a crash: the reward is minus the square root of the gap to the goal, and the
episode is over exactly when the agent is parked, at any speed, or the time is over. -/
theorem parking_single (G : Globals) (cfg : ParkingConfig) (hc : ParkingOk cfg) (hn : cfg.controlledVehicles = 1) (hp : cfg.sim.policyFrequency ≠ 0)
    (rng : Rng) (as : List AgentAction) (ha : ∀ a ∈ as, InEnvSpace cfg.sim.action a) :
    ∃ e o rs e', Parking.reset G cfg rng = .ok e ∧ Episode G cfg.sim (Parking.cls cfg) e as rs e' ∧ rs.length = as.length ∧ IsGoal e o ∧
      ∀ (i : ℕ) (res : StepResult), rs[i]? = some res → ∃ v : Vehicle, v.uid = 0 ∧ v.crashed = false ∧ res.crashed = false ∧ res.speed = v.speed ∧
        res.reward = -Real.sqrt (parkingGap v o) ∧ (res.terminal = true ↔ cfg.duration ≤ (i + 1 : ℕ) ∨ Parked v o) := by
  obtain ⟨e, o, _, _, h1, h2, h3, h4, _, _, h7, h8, h9, _⟩ := parking_reset G cfg hc (by omega) rng
  obtain ⟨v0, hv0⟩ := List.length_eq_one_iff.1 (h8.trans hn)
  have hs0 := h9 0 v0 (by rw [hv0]; rfl)
  set I : Env → Prop := fun f => ParkingScene (parkingNet 15) o f ∧ f.controlled = [0] ∧ ∃ v, f.road.vehicles = [v] ∧ v.uid = 0 ∧ v.crashed = false with hI
  have base := parking_reliable G cfg hc (parkingNet 15) o
  have hrel : Reliable G cfg.sim (Parking.cls cfg) I := {
    lasting := by
      rintro f r t s ⟨i1, i2, v, i3, i4, i5⟩ hr
      refine ⟨base.lasting f r t s i1 hr, i2, ?_⟩
      obtain ⟨v', w1, w2, w3⟩ := alone_never_crashes G _ _ hr v i3 i5 (by
        obtain ⟨hit, hg⟩ := i1.goal
        rw [hg]
        intro x hx
        rw [List.mem_singleton] at hx
        subst hx
        change o.kind ≠ _
        rw [i1.landmark]; simp)
      exact ⟨v', w1, w2.trans i4, w3⟩
    terminal := fun f h hI => base.terminal f h hI.1
    reward := fun f a h hI ha => base.reward f a h hI.1 ha
    cost := fun f h hI => base.cost f h hI.1
    after := fun f h hI => ⟨f, rfl, h, hI⟩ }
  have hI0 : I e := ⟨h3, by rw [h7, hn]; rfl, v0, hv0, hs0.uid, hs0.crashed⟩
  obtain ⟨rs, e', hep, hlen, _, _⟩ := episode_never_raises _ cfg.sim _ _ hrel hp e h2 hI0 as ha
  obtain ⟨_, _, _, _, _, hout⟩ := episode_outcomes _ cfg.sim _ _ hrel (tidy_default rfl) hp e e' h2 hI0 as rs ha hep
  obtain ⟨hit, hg⟩ := h3.goal
  refine ⟨e, { o with hit := hit }, rs, e', h1, hep, hlen, ⟨by rw [hg]; simp, h3.pointer.symm⟩, ?_⟩
  intro i res hres
  have hi : i < as.length := by rw [← hlen]; exact (List.getElem?_eq_some_iff.1 hres).1
  obtain ⟨f, v, q1, ⟨q2, q2', w, w1, w2, w3⟩, q3, _, q5, q6, q7, q8, q9, _⟩ := hout i _ res (List.getElem?_eq_getElem hi) hres
  obtain ⟨vs, ws, x, b, a1, a2, a3, a4, a5, a6, _, _, _, a10⟩ := parking_state cfg hc _ o f q1 q2 (some as[i])
  rw [q5] at a4
  rw [q6] at a5
  cases a4
  cases a5
  have hvw : v = w := by
    unfold Env.vehicle at q7
    rw [q2'] at q7
    have : f.road.vehicle? 0 = some w := by
      unfold Road.vehicle?
      rw [w1]
      simp [w2]
    dsimp only at q7
    rw [this] at q7
    cases q7; rfl
  subst hvw
  have only : ∀ us : List Vehicle, us.map (·.uid) = [0] → (∀ u ∈ us, u ∈ f.road.vehicles) → us = [v] := by
    intro us hu hm
    obtain ⟨u, rfl⟩ := List.length_eq_one_iff.1 (by rw [← List.length_map (f := (·.uid)), hu]; rfl : us.length = 1)
    have := hm u (by simp)
    rw [w1, List.mem_singleton] at this
    rw [this]
  have hvs := only vs (by rw [a1.1, q2']; simp) a1.2
  have hws := only ws (by rw [a3.1, q2']) a3.2
  subst hvs hws
  refine ⟨v, w2, w3, q9.trans w3, q8, ?_, ?_⟩
  · rw [a6]; simp; rfl
  · rw [a10, q3, h4]
    simp [w3]
    rfl

/-- Non-vacuity: the default configuration is playable; so is a configuration with two agents and an observation for each. -/
theorem parking_default_ok : ParkingOk {} ∧
    ParkingOk { sim := { action := .multi (.continuous {}), policyFrequency := 5 }, severalObservers := true, controlledVehicles := 2 } :=
  ⟨⟨⟨{}, .inl rfl, .inl rfl⟩, rfl, rfl⟩, ⟨⟨{}, .inr rfl, .inl rfl⟩, rfl, rfl⟩⟩

example (rng : Rng) : ∃ e rs e', Parking.reset {} {} rng = .ok e ∧
    Episode {} ({} : ParkingConfig).sim (Parking.cls {}) e [.vector [1, 0], .vector [0.3, -0.2]] rs e' ∧ rs.length = 2 := by
  obtain ⟨e, _, rs, e', h1, h2, h3, _⟩ := parking_single {} {} parking_default_ok.1 rfl (by norm_num) rng [.vector [1, 0], .vector [0.3, -0.2]] (by
    intro a ha
    simp only [List.mem_cons, List.not_mem_nil, or_false] at ha
    rcases ha with rfl | rfl <;> rfl)
  exact ⟨e, rs, e', h1, h2, h3⟩

end HighwayEnv.Props
