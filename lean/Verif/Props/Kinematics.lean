import Verif.Lemmas.Vehicle
import Verif.Lemmas.Network
import Verif.Spec.Drive
import Verif.Spec.Sample
import Mathlib.Analysis.SpecificLimits.Basic

/-!
# Properties of the vehicle kinematics (C07, C11–C15, C70, C72, C73)
-/

noncomputable section
namespace HighwayEnv.Props
open Spec Vehicle Classical

/-! ## C07 — the distance pre-check -/

/-- The verdict of the collision test between two vehicles is that of the rectangle test alone. -/
theorem precheck_vehicles (v w : Vehicle) :
    v.isColliding w.rect = rotatedRectanglesIntersect v.rect w.rect := by
  unfold isColliding
  split
  · rename_i h
    rcases hb : rotatedRectanglesIntersect v.rect w.rect with _ | _
    · rfl
    · exfalso
      have := intersect_norm (r1 := v.rect) (r2 := w.rect) (by norm_num [rect, LENGTH]) (by norm_num [rect, WIDTH])
        (by norm_num [rect, LENGTH]) (by norm_num [rect, WIDTH]) hb
      simp only [rect, LENGTH, WIDTH] at this h
      have h2 : √((9 / 10 * 5 : ℝ) ^ 2 + (9 / 10 * 2) ^ 2) ≤ 49 / 10 := by
        rw [Real.sqrt_le_left (by norm_num)]; norm_num
      linarith
  · rfl

/-- The same between a vehicle and a road object. -/
theorem precheck_objects (v : Vehicle) (o : RoadObject) :
    v.isColliding o.rect = rotatedRectanglesIntersect v.rect o.rect := by
  unfold isColliding
  split
  · rename_i h
    rcases hb : rotatedRectanglesIntersect v.rect o.rect with _ | _
    · rfl
    · exfalso
      have := intersect_norm (r1 := v.rect) (r2 := o.rect) (by norm_num [rect, LENGTH]) (by norm_num [rect, WIDTH])
        (by norm_num [RoadObject.rect, RoadObject.LENGTH]) (by norm_num [RoadObject.rect, RoadObject.WIDTH]) hb
      simp only [rect, LENGTH, WIDTH, RoadObject.rect, RoadObject.LENGTH, RoadObject.WIDTH] at this h
      have h2 : √((9 / 10 * 5 : ℝ) ^ 2 + (9 / 10 * 2) ^ 2) ≤ 49 / 10 := by
        rw [Real.sqrt_le_left (by norm_num)]; norm_num
      have h3 : √((9 / 10 * 2 : ℝ) ^ 2 + (9 / 10 * 2) ^ 2) ≤ 49 / 10 := by
        rw [Real.sqrt_le_left (by norm_num)]; norm_num
      linarith
  · rfl

/-! ## C13 — one step moves a vehicle by speed·dt -/

/-- The steering angle a vehicle executes: 0 once it has crashed. -/
def executedSteering (v : Vehicle) : ℝ := if v.crashed then 0 else v.steering

/-- The acceleration a vehicle executes: full braking once crashed; above the maximum speed it is capped. -/
def executedAcceleration (v : Vehicle) : ℝ :=
  let a := if v.crashed then -v.speed else v.acceleration
  if v.speed > v.kind.maxSpeed then min a (v.kind.maxSpeed - v.speed)
  else if v.speed < -v.kind.maxSpeed then max a (v.kind.maxSpeed - v.speed)
  else a

theorem clipBase_fields (v : Vehicle) :
    v.clipActionsBase.steering = executedSteering v ∧ v.clipActionsBase.acceleration = executedAcceleration v := by
  unfold clipActionsBase executedSteering executedAcceleration
  by_cases hc : v.crashed <;> simp only [hc, if_true, if_false, Bool.false_eq_true] <;> split_ifs <;>
    simp [neg_mul]

theorem move_kin (v : Vehicle) (dt : ℝ) (hk : v.kind ≠ .bicycle) :
    (v.move dt).pos = v.pos + dt • (v.speed • Vec2.dir (v.heading + slip (executedSteering v))) ∧
    (v.move dt).heading = v.heading + v.speed * Real.sin (slip (executedSteering v)) / (LENGTH / 2) * dt ∧
    (v.move dt).speed = v.speed + executedAcceleration v * dt := by
  have hu : ∀ u : Vehicle, u.kind = v.kind → u.pos = v.pos → u.heading = v.heading → u.speed = v.speed →
      executedSteering u = executedSteering v → executedAcceleration u = executedAcceleration v →
      (if u.clipActions.kind = .bicycle then u.clipActions.integrateBicycle dt else u.clipActions.integrate dt).pos =
        v.pos + dt • (v.speed • Vec2.dir (v.heading + slip (executedSteering v))) ∧
      (if u.clipActions.kind = .bicycle then u.clipActions.integrateBicycle dt else u.clipActions.integrate dt).heading =
        v.heading + v.speed * Real.sin (slip (executedSteering v)) / (LENGTH / 2) * dt ∧
      (if u.clipActions.kind = .bicycle then u.clipActions.integrateBicycle dt else u.clipActions.integrate dt).speed =
        v.speed + executedAcceleration v * dt := by
    intro u h1 h2 h3 h4 h5 h6
    have hkind : u.clipActions.kind = v.kind := (clipActions_mind u).kind.trans h1
    rw [if_neg (by rw [hkind]; exact hk)]
    have hcl : u.clipActions = u.clipActionsBase := by
      unfold clipActions
      have := (clipActionsBase_mind u).kind.trans h1
      simp only [this]
      rw [if_neg hk]
    obtain ⟨p1, p2, p3, _⟩ := clipActions_phys u
    obtain ⟨q1, q2⟩ := clipBase_fields u
    rw [← hcl] at q1 q2
    unfold integrate
    dsimp only
    rw [p1, p2, p3, q1, q2, h2, h3, h4, h5, h6]
    exact ⟨rfl, rfl, rfl⟩
  unfold move
  dsimp only
  split
  · exact hu _ rfl rfl rfl rfl rfl rfl
  · exact hu _ rfl rfl rfl rfl rfl rfl

theorem step_kin {g : Graph} {rec : Bool} {dt : ℝ} {v v' : Vehicle} (hk : v.kind ≠ .bicycle)
    (h : v.step g rec dt = .ok v') :
    v'.pos = v.pos + dt • (v.speed • Vec2.dir (v.heading + slip (executedSteering v))) ∧
    v'.heading = v.heading + v.speed * Real.sin (slip (executedSteering v)) / (LENGTH / 2) * dt ∧
    v'.speed = v.speed + executedAcceleration v * dt := by
  obtain ⟨i, l, hist, _, _, rfl⟩ := step_ok h
  exact move_kin v dt hk

/-- The steering stored by a step is the executed one. -/
theorem step_steering {g : Graph} {rec : Bool} {dt : ℝ} {v v' : Vehicle} (hk : v.kind ≠ .bicycle)
    (h : v.step g rec dt = .ok v') : v'.steering = executedSteering v ∧ v'.acceleration = executedAcceleration v := by
  obtain ⟨i, l, hist, _, _, rfl⟩ := step_ok h
  have hu : ∀ u : Vehicle, u.kind = v.kind → executedSteering u = executedSteering v →
      executedAcceleration u = executedAcceleration v →
      (if u.clipActions.kind = .bicycle then u.clipActions.integrateBicycle dt else u.clipActions.integrate dt).steering =
        executedSteering v ∧
      (if u.clipActions.kind = .bicycle then u.clipActions.integrateBicycle dt else u.clipActions.integrate dt).acceleration =
        executedAcceleration v := by
    intro u h1 h5 h6
    have hkind : u.clipActions.kind = v.kind := (clipActions_mind u).kind.trans h1
    rw [if_neg (by rw [hkind]; exact hk)]
    have hcl : u.clipActions = u.clipActionsBase := by
      unfold clipActions
      have := (clipActionsBase_mind u).kind.trans h1
      simp only [this]
      rw [if_neg hk]
    obtain ⟨q1, q2⟩ := clipBase_fields u
    rw [← hcl] at q1 q2
    exact ⟨q1.trans h5, q2.trans h6⟩
  show (v.move dt).steering = _ ∧ (v.move dt).acceleration = _
  unfold move
  dsimp only
  split
  · exact hu _ rfl rfl rfl
  · exact hu _ rfl rfl rfl

/-- One step displaces the centre by exactly `|speed|·|dt|`, along heading plus a slip angle whose tangent is half the tangent of
the executed steering angle; the heading changes by `speed·sin(slip)/(LENGTH/2)·dt`, hence not at all without steering. -/
theorem step_displacement (g : Graph) (rec : Bool) (dt : ℝ) (v v' : Vehicle) (hk : v.kind ≠ .bicycle)
    (h : v.step g rec dt = .ok v') :
    ∃ β, -(Real.pi / 2) < β ∧ β < Real.pi / 2 ∧ Real.tan β = Real.tan (executedSteering v) / 2 ∧
      v'.pos - v.pos = (v.speed * dt) • Vec2.dir (v.heading + β) ∧
      (v'.pos - v.pos).norm = |v.speed| * |dt| ∧
      v'.heading = v.heading + v.speed * Real.sin β / (5 / 2) * dt ∧
      v'.speed = v.speed + executedAcceleration v * dt ∧
      (executedSteering v = 0 → v'.heading = v.heading) := by
  obtain ⟨h1, h2, h3⟩ := step_kin hk h
  have e : v'.pos - v.pos = (v.speed * dt) • Vec2.dir (v.heading + slip (executedSteering v)) := by
    rw [h1]; ext <;> simp <;> ring
  refine ⟨slip (executedSteering v), Real.neg_pi_div_two_lt_arctan _, Real.arctan_lt_pi_div_two _, ?_, e, ?_, ?_, h3, ?_⟩
  · unfold slip; rw [Real.tan_arctan]; ring
  · rw [e, Vec2.norm_smul, Vec2.norm_dir, abs_mul, mul_one]
  · rw [h2]; unfold LENGTH; rfl
  · intro h0
    rw [h2, h0]; simp [slip]

/-! ## C14 — no privileged frame -/

/-- Moving a vehicle (any class, dynamical bicycle included) commutes with every rigid motion of the plane. -/
theorem move_equivariant (a : ℝ) (t : Vec2) (v : Vehicle) (dt : ℝ) :
    (displace a t v).move dt = displace a t (v.move dt) := by
  have hclip : ∀ u : Vehicle, (displace a t u).clipActions = displace a t u.clipActions := by
    intro u
    unfold clipActions clipActionsBase displace
    dsimp only
    split_ifs <;> rfl
  have hint : ∀ u : Vehicle, (displace a t u).integrate dt = displace a t (u.integrate dt) := by
    intro u
    unfold integrate displace
    dsimp only
    congr 1
    · ext
      · simp only [Vec2.add_x, Vec2.smul_x, Vec2.dir, Vec2.rot, Vec2.add_y, Vec2.smul_y]
        rw [show u.heading + a + slip u.steering = a + (u.heading + slip u.steering) by ring, Real.cos_add]
        ring
      · simp only [Vec2.add_x, Vec2.smul_x, Vec2.dir, Vec2.rot, Vec2.add_y, Vec2.smul_y]
        rw [show u.heading + a + slip u.steering = a + (u.heading + slip u.steering) by ring, Real.sin_add]
        ring
    · ring
  have hbic : ∀ u : Vehicle, (displace a t u).integrateBicycle dt = displace a t (u.integrateBicycle dt) := by
    intro u
    have hl : (displace a t u).bicycleLateral = u.bicycleLateral := rfl
    unfold integrateBicycle
    rw [hl]
    unfold displace
    dsimp only
    congr 1
    · ext
      · simp only [Vec2.add_x, Vec2.smul_x, Vec2.rot, Vec2.add_y, Vec2.smul_y]
        rw [Real.cos_add, Real.sin_add]
        ring
      · simp only [Vec2.add_x, Vec2.smul_x, Vec2.rot, Vec2.add_y, Vec2.smul_y]
        rw [Real.cos_add, Real.sin_add]
        ring
    · ring
  have hkind : ∀ u : Vehicle, (displace a t u).kind = u.kind := fun _ => rfl
  have htimer : (if (displace a t v).kind.isIDM then { displace a t v with timer := (displace a t v).timer + dt }
        else displace a t v) = displace a t (if v.kind.isIDM then { v with timer := v.timer + dt } else v) := by
    simp only [hkind]
    split <;> rfl
  unfold move
  dsimp only
  rw [htimer, hclip, hkind]
  generalize (if v.kind.isIDM then { v with timer := v.timer + dt } else v).clipActions = w
  by_cases hw : w.kind = .bicycle
  · rw [if_pos hw, if_pos hw]; exact hbic _
  · rw [if_neg hw, if_neg hw]; exact hint _

/-! ## Driving sequences: C11, C12, C15 -/

/-- On a network with at least one lane, driving a vehicle never raises. -/
theorem drive_ok (g : Graph) (hg : IsPyGraph g) (a b : String) (k : ℕ) (l : Lane) (hl : HasLane g a b k l) (rec : Bool)
    (dt : ℝ) (cs : List (ℝ × ℝ)) (v : Vehicle) : ∃ v', drive g rec dt cs v = .ok v' := by
  induction cs generalizing v with
  | nil => exact ⟨v, rfl⟩
  | cons c cs ih =>
    unfold drive Vehicle.step onStateUpdate
    obtain ⟨i, hi⟩ := Graph.closest_ok_of_exists hl
      (({ v with steering := c.1, acceleration := c.2 } : Vehicle).move dt).pos
      (some (({ v with steering := c.1, acceleration := c.2 } : Vehicle).move dt).heading)
    obtain ⟨l', hl'⟩ := Graph.getLane_of_valid hg (Graph.closest_spec hi)
    simp only [hi, hl', bind, Except.bind, pure, Except.pure]
    exact ih _

/-- A crashed (non-bicycle) vehicle that is not reversing faster than the speed limit ignores every command: after `n` steps its
heading is unchanged, its speed is the crash speed times `(1-dt)^n`, and it has moved in a straight line by
`crash speed·(1-(1-dt)^n)`. -/
theorem crashed_coasts (g : Graph) (rec : Bool) (dt : ℝ) (hdt0 : 0 ≤ dt) (hdt1 : dt ≤ 1) (cs : List (ℝ × ℝ)) (v v' : Vehicle)
    (hk : v.kind ≠ .bicycle) (hc : v.crashed = true) (hv : -40 ≤ v.speed) (h : drive g rec dt cs v = .ok v') :
    v'.crashed = true ∧ v'.heading = v.heading ∧ v'.speed = v.speed * (1 - dt) ^ cs.length ∧
    v'.pos = v.pos + (v.speed * (1 - (1 - dt) ^ cs.length)) • Vec2.dir v.heading := by
  induction cs generalizing v with
  | nil =>
    cases h
    refine ⟨hc, rfl, by simp, ?_⟩
    ext <;> simp
  | cons c cs ih =>
    unfold drive at h
    obtain ⟨w, hw, hrest⟩ := bind_ok h
    clear h
    set u : Vehicle := { v with steering := c.1, acceleration := c.2 } with hu
    have hmax : u.kind.maxSpeed = 40 := by
      change v.kind.maxSpeed = 40
      revert hk; cases v.kind <;> simp [VKind.maxSpeed]
    have hmind := step_mind hw
    obtain ⟨h1, h2, h3⟩ := step_kin (v := u) hk hw
    have es : executedSteering u = 0 := by unfold executedSteering; rw [if_pos hc]
    have ea : executedAcceleration u = -v.speed := by
      unfold executedAcceleration
      rw [hmax]
      have huc : u.crashed = true := hc
      have hus : u.speed = v.speed := rfl
      simp only [huc, if_true, hus]
      split_ifs with hA hB
      · exact min_eq_left (by linarith)
      · linarith
      · rfl
    rw [es] at h1 h2
    rw [ea] at h3
    have hs0 : slip 0 = 0 := by simp [slip]
    rw [hs0] at h1 h2
    have hwk : w.kind ≠ .bicycle := by rw [hmind.kind]; exact hk
    have hwc : w.crashed = true := by rw [hmind.crashed]; exact hc
    have hws : w.speed = v.speed * (1 - dt) := by
      rw [h3]; change v.speed + _ = _; ring
    have hwh : w.heading = v.heading := by
      rw [h2]; simp [hu]
    have hwv : -40 ≤ w.speed := by
      rw [hws]; nlinarith
    obtain ⟨r1, r2, r3, r4⟩ := ih w hwk hwc hwv hrest
    refine ⟨r1, r2.trans hwh, ?_, ?_⟩
    · rw [r3, hws, List.length_cons, pow_succ]; ring
    · rw [r4, hwh, hws, h1, List.length_cons, pow_succ]
      ext
      · simp [hu]; ring
      · simp [hu]; ring

/-- Consequences for `0 < dt ≤ 1`: the speed never changes sign, tends to 0, and the distance covered never exceeds the crash
speed (times one second). -/
theorem crashed_stops (dt : ℝ) (hdt0 : 0 < dt) (hdt1 : dt ≤ 1) (v0 : ℝ) :
    (∀ n : ℕ, 0 ≤ v0 * (v0 * (1 - dt) ^ n)) ∧ Filter.Tendsto (fun n : ℕ => v0 * (1 - dt) ^ n) Filter.atTop (nhds 0) ∧
    ∀ n : ℕ, |v0 * (1 - (1 - dt) ^ n)| ≤ |v0| := by
  have h0 : 0 ≤ 1 - dt := by linarith
  have h1 : 1 - dt < 1 := by linarith
  refine ⟨fun n => ?_, ?_, fun n => ?_⟩
  · have : 0 ≤ (1 - dt) ^ n := pow_nonneg h0 n
    have h2 := mul_nonneg (mul_self_nonneg v0) this
    linarith
  · have := tendsto_pow_atTop_nhds_zero_of_lt_one h0 h1
    simpa using this.const_mul v0
  · rw [abs_mul]
    have hp : 0 ≤ (1 - dt) ^ n := pow_nonneg h0 n
    have hq : (1 - dt) ^ n ≤ 1 := pow_le_one₀ h0 h1.le
    have : |1 - (1 - dt) ^ n| ≤ 1 := by rw [abs_le]; constructor <;> linarith
    calc |v0| * |1 - (1 - dt) ^ n| ≤ |v0| * 1 := mul_le_mul_of_nonneg_left this (abs_nonneg _)
      _ = |v0| := mul_one _

/-- The hypothesis on reverse speed is needed: a vehicle crashed while reversing at 41 m/s does not coast to a stop: it executes
an acceleration of 81 m/s² where coasting means 41. -/
theorem crashed_reverse_overspeed (v : Vehicle) (hk : v.kind ≠ .bicycle) (hc : v.crashed = true) (hs : v.speed = -41) :
    executedAcceleration v = 81 := by
  have hmax : v.kind.maxSpeed = 40 := by revert hk; cases v.kind <;> simp [VKind.maxSpeed]
  unfold executedAcceleration
  rw [hmax, hs, if_pos hc]
  norm_num

/-- The straight-line claim fails for the dynamical bicycle model: a crashed bicycle with a yaw rate keeps turning. -/
theorem crashed_bicycle_turns (v : Vehicle) (hk : v.kind = .bicycle) (_hc : v.crashed = true) (hy : v.yawRate = 1) (dt : ℝ) :
    (v.move dt).heading = v.heading + dt := by
  have hp := Real.two_le_pi
  unfold move
  have h1 : v.kind.isIDM = false := by rw [hk]; rfl
  simp only [h1, Bool.false_eq_true, if_false]
  have h2 : v.clipActions.kind = .bicycle := (clipActions_mind v).kind.trans hk
  rw [if_pos h2]
  have hb : v.clipActionsBase.kind = .bicycle := (clipActionsBase_mind v).kind.trans hk
  have hyb : v.clipActionsBase.yawRate = 1 := by
    unfold clipActionsBase; dsimp only; split_ifs <;> exact hy
  have h3 : v.clipActions.yawRate = 1 := by
    unfold clipActions
    dsimp only
    rw [if_pos hb]
    dsimp only
    rw [hyb]
    exact npClip_of_mem (by linarith) (by linarith)
  unfold integrateBicycle
  dsimp only
  rw [(clipActions_phys v).2.1, h3]; ring

private theorem exec_speed_le (v : Vehicle) (dt a : ℝ) (h0 : 0 ≤ dt) (h1 : dt ≤ 1) (ha : 0 ≤ a)
    (hc : v.acceleration ≤ a) (hv : v.speed ≤ v.kind.maxSpeed + a * dt) :
    v.speed + executedAcceleration v * dt ≤ v.kind.maxSpeed + a * dt := by
  have hM : 0 < v.kind.maxSpeed := by cases v.kind <;> norm_num [VKind.maxSpeed]
  have had : 0 ≤ a * dt := mul_nonneg ha h0
  unfold executedAcceleration
  dsimp only
  split_ifs with hcr hA hB hA hB
  all_goals first
    | (have := mul_le_mul_of_nonneg_right (min_le_right (-v.speed) (v.kind.maxSpeed - v.speed)) h0; nlinarith)
    | (have := mul_le_mul_of_nonneg_right (min_le_right v.acceleration (v.kind.maxSpeed - v.speed)) h0; nlinarith)
    | (rcases max_choice (-v.speed) (v.kind.maxSpeed - v.speed) with h | h <;> rw [h] <;> nlinarith)
    | (rcases max_choice v.acceleration (v.kind.maxSpeed - v.speed) with h | h <;> rw [h] <;> nlinarith)

private theorem exec_speed_ge (v : Vehicle) (dt a : ℝ) (h0 : 0 ≤ dt) (h1 : dt ≤ 1) (ha : 0 ≤ a)
    (hc : -a ≤ v.acceleration) (hv : -(v.kind.maxSpeed + a * dt) ≤ v.speed) :
    -(v.kind.maxSpeed + a * dt) ≤ v.speed + executedAcceleration v * dt := by
  have hM : 0 < v.kind.maxSpeed := by cases v.kind <;> norm_num [VKind.maxSpeed]
  have had : 0 ≤ a * dt := mul_nonneg ha h0
  unfold executedAcceleration
  dsimp only
  split_ifs with hcr hA hB hA hB
  all_goals first
    | (rcases min_choice (-v.speed) (v.kind.maxSpeed - v.speed) with h | h <;> rw [h] <;> nlinarith)
    | (rcases min_choice v.acceleration (v.kind.maxSpeed - v.speed) with h | h <;> rw [h] <;> nlinarith)
    | (have := mul_le_mul_of_nonneg_right (le_max_right (-v.speed) (v.kind.maxSpeed - v.speed)) h0; nlinarith)
    | (have := mul_le_mul_of_nonneg_right (le_max_right v.acceleration (v.kind.maxSpeed - v.speed)) h0; nlinarith)

private theorem move_speed (v : Vehicle) (dt : ℝ) : (v.move dt).speed = v.speed + executedAcceleration v * dt := by
  by_cases hk : v.kind = .bicycle
  · unfold move
    have h1 : v.kind.isIDM = false := by rw [hk]; rfl
    simp only [h1, Bool.false_eq_true, if_false]
    have h2 : v.clipActions.kind = .bicycle := (clipActions_mind v).kind.trans hk
    rw [if_pos h2]
    have hb : v.clipActionsBase.kind = .bicycle := (clipActionsBase_mind v).kind.trans hk
    unfold integrateBicycle
    dsimp only
    rw [(clipActions_phys v).2.2.1]
    unfold clipActions
    dsimp only
    rw [if_pos hb]
    dsimp only
    rw [(clipBase_fields v).2]
  · exact (move_kin v dt hk).2.2

/-- Forward and backward speed envelope, for every class: as long as commanded accelerations stay in `[-a, a]`, a vehicle
whose speed is within `MAX_SPEED + a·dt` (in absolute value) stays within, for any number of steps. -/
theorem speed_envelope (g : Graph) (rec : Bool) (dt a : ℝ) (h0 : 0 ≤ dt) (h1 : dt ≤ 1) (ha : 0 ≤ a) (cs : List (ℝ × ℝ))
    (hcs : ∀ c ∈ cs, |c.2| ≤ a) (v v' : Vehicle)
    (hv : |v.speed| ≤ v.kind.maxSpeed + a * dt) (h : drive g rec dt cs v = .ok v') :
    |v'.speed| ≤ v.kind.maxSpeed + a * dt := by
  induction cs generalizing v with
  | nil => cases h; exact hv
  | cons c cs ih =>
    unfold drive at h
    obtain ⟨w, hw, h⟩ := bind_ok h
    have hc := abs_le.1 (hcs c (by simp))
    have hv' := abs_le.1 hv
    have hmind := step_mind hw
    have hs : w.speed = v.speed + executedAcceleration { v with steering := c.1, acceleration := c.2 } * dt := by
      obtain ⟨i, l, hist, _, _, rfl⟩ := step_ok hw
      exact move_speed { v with steering := c.1, acceleration := c.2 } dt
    have hk : w.kind = v.kind := hmind.kind
    have := ih (fun c hc => hcs c (by simp [hc])) w (by
      rw [hk, hs, abs_le]
      exact ⟨exec_speed_ge { v with steering := c.1, acceleration := c.2 } dt a h0 h1 ha hc.1 hv'.1,
        exec_speed_le { v with steering := c.1, acceleration := c.2 } dt a h0 h1 ha hc.2 hv'.2⟩) h
    rwa [hk] at this

/-- ... but the two directions are not mirror images: beyond `-MAX_SPEED` any command is replaced by a forward acceleration of more
than twice the maximum speed per second, while beyond `+MAX_SPEED` the brake demanded is only the excess speed. -/
theorem reverse_overspeed_jolt (v : Vehicle) (hc : v.crashed = false) (hs : v.speed < -v.kind.maxSpeed) :
    2 * v.kind.maxSpeed < executedAcceleration v := by
  have hM : 0 < v.kind.maxSpeed := by cases v.kind <;> norm_num [VKind.maxSpeed]
  unfold executedAcceleration
  simp only [hc, Bool.false_eq_true, if_false]
  rw [if_neg (by linarith), if_pos hs]
  exact lt_of_lt_of_le (by linarith) (le_max_right _ _)

/-- Straight driving: with zero steering and constant acceleration, below the speed limit, `n` steps have the closed form of the
explicit Euler scheme. -/
theorem straight_closed_form (g : Graph) (rec : Bool) (dt a : ℝ) (n : ℕ) (v v' : Vehicle) (hk : v.kind ≠ .bicycle)
    (hc : v.crashed = false) (hv : ∀ k < n, |v.speed + k * (a * dt)| ≤ 40)
    (h : drive g rec dt (List.replicate n (0, a)) v = .ok v') :
    v'.heading = v.heading ∧ v'.speed = v.speed + n * (a * dt) ∧
    v'.pos = v.pos + (n * v.speed * dt + a * dt ^ 2 * (n * (n - 1) / 2)) • Vec2.dir v.heading := by
  induction n generalizing v with
  | zero => cases h; refine ⟨rfl, by simp, ?_⟩; ext <;> simp
  | succ n ih =>
    rw [List.replicate_succ] at h
    unfold drive at h
    obtain ⟨w, hw, hrest⟩ := bind_ok h
    clear h
    set u : Vehicle := { v with steering := 0, acceleration := a } with hu
    have hmax : u.kind.maxSpeed = 40 := by
      change v.kind.maxSpeed = 40
      revert hk; cases v.kind <;> simp [VKind.maxSpeed]
    have hmind := step_mind hw
    obtain ⟨h1, h2, h3⟩ := step_kin (v := u) hk hw
    have es : executedSteering u = 0 := by
      unfold executedSteering
      have huc : u.crashed = false := hc
      rw [huc]; rfl
    have ea : executedAcceleration u = a := by
      have h0 := hv 0 (by omega)
      simp only [Nat.cast_zero, zero_mul, add_zero] at h0
      rw [abs_le] at h0
      unfold executedAcceleration
      rw [hmax]
      have huc : u.crashed = false := hc
      have hus : u.speed = v.speed := rfl
      simp only [huc, Bool.false_eq_true, if_false, hus]
      rw [if_neg (by linarith), if_neg (by linarith)]
    have hs0 : slip 0 = 0 := by simp [slip]
    rw [es, hs0] at h1 h2
    rw [ea] at h3
    have hwk : w.kind ≠ .bicycle := by rw [hmind.kind]; exact hk
    have hwc : w.crashed = false := by rw [hmind.crashed]; exact hc
    have hws : w.speed = v.speed + a * dt := h3
    have hwh : w.heading = v.heading := by rw [h2]; simp [hu]
    obtain ⟨r1, r2, r3⟩ := ih w hwk hwc (fun k hk' => by
      have := hv (k + 1) (by omega)
      rw [hws]; push_cast at this
      rwa [show v.speed + a * dt + k * (a * dt) = v.speed + (k + 1) * (a * dt) by ring]) hrest
    refine ⟨r1.trans hwh, ?_, ?_⟩
    · rw [r2, hws]; push_cast; ring
    · rw [r3, hwh, hws, h1]
      ext
      · simp [hu]; ring
      · simp [hu]; ring

/-! ## C70 — the dynamical bicycle model -/

/-- In one step the heading of a dynamical bicycle changes by at most `2π·dt` (whatever its stored yaw rate), and its executed
steering angle is within a quarter turn. -/
theorem bicycle_bounds (g : Graph) (rec : Bool) (dt : ℝ) (hdt : 0 ≤ dt) (v v' : Vehicle) (hk : v.kind = .bicycle)
    (h : v.step g rec dt = .ok v') :
    |v'.heading - v.heading| ≤ 2 * Real.pi * dt ∧ |v'.steering| ≤ Real.pi / 2 := by
  have hp := Real.pi_pos
  obtain ⟨i, l, hist, _, _, rfl⟩ := step_ok h
  have hmove : v.move dt = v.clipActions.integrateBicycle dt := by
    unfold move
    have h1 : v.kind.isIDM = false := by rw [hk]; rfl
    simp only [h1, Bool.false_eq_true, if_false]
    rw [if_pos ((clipActions_mind v).kind.trans hk)]
  have hb : v.clipActionsBase.kind = .bicycle := (clipActionsBase_mind v).kind.trans hk
  dsimp only
  rw [hmove]
  unfold integrateBicycle
  dsimp only
  rw [(clipActions_phys v).2.1]
  constructor
  · rw [add_sub_cancel_left, abs_mul, abs_of_nonneg hdt]
    refine mul_le_mul_of_nonneg_right ?_ hdt
    unfold clipActions
    dsimp only
    rw [if_pos hb]
    exact abs_npClip (by linarith)
  · unfold clipActions
    dsimp only
    rw [if_pos hb]
    dsimp only
    rw [neg_div]
    exact abs_npClip (by linarith)

private theorem bicycle_straight_step {g : Graph} {rec : Bool} {dt : ℝ} {v v' : Vehicle} (hk : v.kind = .bicycle)
    (hl : v.lateralSpeed = 0) (hy : v.yawRate = 0) (hs : v.steering = 0) (hv : -1 < v.speed) (h : v.step g rec dt = .ok v') :
    v'.kind = .bicycle ∧ v'.lateralSpeed = 0 ∧ v'.yawRate = 0 ∧ v'.heading = v.heading ∧
    v'.pos = v.pos + (v.speed * dt) • Vec2.dir v.heading := by
  have hp := Real.pi_pos
  refine ⟨(step_mind h).kind.trans hk, ?_⟩
  obtain ⟨i, l, hist, _, _, rfl⟩ := step_ok h
  have hmove : v.move dt = v.clipActions.integrateBicycle dt := by
    unfold move
    have h1 : v.kind.isIDM = false := by rw [hk]; rfl
    simp only [h1, Bool.false_eq_true, if_false]
    rw [if_pos ((clipActions_mind v).kind.trans hk)]
  have hb : v.clipActionsBase.kind = .bicycle := (clipActionsBase_mind v).kind.trans hk
  have hcy : v.clipActions.yawRate = 0 := by
    have hyb : v.clipActionsBase.yawRate = 0 := by
      unfold clipActionsBase; dsimp only; split_ifs <;> exact hy
    unfold clipActions
    dsimp only
    rw [if_pos hb]
    dsimp only
    rw [hyb]
    exact npClip_of_mem (by linarith) (by linarith)
  have hcs : v.clipActions.steering = 0 := by
    have hsb : v.clipActionsBase.steering = 0 := by
      rw [(clipBase_fields v).1]; unfold executedSteering; rw [hs]; simp
    unfold clipActions
    dsimp only
    rw [if_pos hb]
    dsimp only
    rw [hsb]
    exact npClip_of_mem (by linarith) (by linarith)
  obtain ⟨p1, p2, p3, p4⟩ := clipActions_phys v
  have hlat : v.clipActions.bicycleLateral = (0, 0) := by
    unfold bicycleLateral
    dsimp only
    rw [p3, p4, hcy, hcs, hl]
    split_ifs with hsp
    · simp
    · have : 1 ≤ v.speed := by
        rw [not_lt, le_abs] at hsp
        rcases hsp with h | h <;> linarith
      have harg : arctan2 0 v.speed = 0 := by
        unfold arctan2
        exact Complex.arg_ofReal_of_nonneg (by linarith)
      simp [harg]
  dsimp only
  rw [hmove]
  unfold integrateBicycle
  dsimp only
  rw [hlat, hcy, p1, p2, p3, p4, hl]
  refine ⟨by simp, by simp, by simp, ?_⟩
  ext <;> simp [Vec2.rot, Vec2.dir] <;> ring

/-- A dynamical bicycle without lateral motion that is never steered drives straight on for any number of steps, as long as it is
not reversing at 1 m/s or more: no lateral speed, no yaw rate, constant heading, centre on the initial heading line. -/
theorem bicycle_straight_partial (g : Graph) (rec : Bool) (dt : ℝ) (accs : List ℝ) (v v' : Vehicle) (hk : v.kind = .bicycle)
    (hl : v.lateralSpeed = 0) (hy : v.yawRate = 0)
    (hv : ∀ (k : ℕ) (w : Vehicle), k < accs.length →
      drive g rec dt ((accs.take k).map fun a => (0, a)) v = .ok w → -1 < w.speed)
    (h : drive g rec dt (accs.map fun a => (0, a)) v = .ok v') :
    v'.lateralSpeed = 0 ∧ v'.yawRate = 0 ∧ v'.heading = v.heading ∧ ∃ d : ℝ, v'.pos = v.pos + d • Vec2.dir v.heading := by
  induction accs generalizing v with
  | nil => cases h; exact ⟨hl, hy, rfl, 0, by ext <;> simp⟩
  | cons a accs ih =>
    rw [List.map_cons] at h
    unfold drive at h
    obtain ⟨w, hw, hrest⟩ := bind_ok h
    have h0 : -1 < v.speed := hv 0 v (by simp) rfl
    have hu : ({ v with steering := 0, acceleration := a } : Vehicle).steering = 0 := rfl
    obtain ⟨w1, w2, w3, w4, w5⟩ :=
      bicycle_straight_step (v := { v with steering := 0, acceleration := a }) hk hl hy hu h0 hw
    obtain ⟨r1, r2, r3, d, r4⟩ := ih w w1 w2 w3 (fun k u hk' hu => by
      refine hv (k + 1) u (by simpa using hk') ?_
      rw [List.take_succ_cons, List.map_cons]
      unfold drive
      rw [hw]
      exact hu) hrest
    refine ⟨r1, r2, r3.trans w4, v.speed * dt + d, ?_⟩
    rw [r4, w5, w4]
    ext <;> simp <;> ring

/-- The restriction is needed: reversing in a straight line at 2 m/s without steering, the model produces a lateral acceleration
of -60π m/s² (the slip angle of a wheel rolling backwards is taken to be π). -/
theorem bicycle_reverse_slides (g : Graph) (rec : Bool) (dt : ℝ) (v v' : Vehicle) (hk : v.kind = .bicycle)
    (hl : v.lateralSpeed = 0) (hy : v.yawRate = 0) (hs : v.steering = 0) (hv : v.speed = -2)
    (h : v.step g rec dt = .ok v') : v'.lateralSpeed = -(60 * Real.pi) * dt := by
  have hp := Real.pi_pos
  obtain ⟨i, l, hist, _, _, rfl⟩ := step_ok h
  have hmove : v.move dt = v.clipActions.integrateBicycle dt := by
    unfold move
    have h1 : v.kind.isIDM = false := by rw [hk]; rfl
    simp only [h1, Bool.false_eq_true, if_false]
    rw [if_pos ((clipActions_mind v).kind.trans hk)]
  have hb : v.clipActionsBase.kind = .bicycle := (clipActionsBase_mind v).kind.trans hk
  have hcy : v.clipActions.yawRate = 0 := by
    have hyb : v.clipActionsBase.yawRate = 0 := by
      unfold clipActionsBase; dsimp only; split_ifs <;> exact hy
    unfold clipActions
    dsimp only
    rw [if_pos hb]
    dsimp only
    rw [hyb]
    exact npClip_of_mem (by linarith) (by linarith)
  have hcs : v.clipActions.steering = 0 := by
    have hsb : v.clipActionsBase.steering = 0 := by
      rw [(clipBase_fields v).1]; unfold executedSteering; rw [hs]; simp
    unfold clipActions
    dsimp only
    rw [if_pos hb]
    dsimp only
    rw [hsb]
    exact npClip_of_mem (by linarith) (by linarith)
  obtain ⟨p1, p2, p3, p4⟩ := clipActions_phys v
  dsimp only
  rw [hmove]
  unfold integrateBicycle bicycleLateral
  dsimp only
  rw [p3, p4, hcy, hcs, hl, hv]
  have harg : arctan2 0 (-2) = Real.pi := by
    unfold arctan2
    have := Complex.arg_ofReal_of_neg (x := (-2 : ℝ)) (by norm_num)
    rw [← this]; rfl
  have hn : ¬ |(-2 : ℝ)| < 1 := by norm_num
  simp only [if_neg hn, mul_zero, add_zero, sub_zero, harg]
  ring

/-! ## C73 — objects placed on a lane -/

/-- An object placed with `make_on_lane` is at the asked point of the lane, but its heading is always 0 and its *speed* is the
heading angle of the lane there. -/
theorem object_on_lane (g : Graph) (uid : ℕ) (k : ObjKind) (i : LaneIndex) (s : ℝ) (o : RoadObject)
    (h : RoadObject.makeOnLane g uid k i s = .ok o) :
    ∃ l, g.getLane i = .ok l ∧ o.pos = l.position s 0 ∧ o.heading = 0 ∧ o.speed = l.headingAt s ∧ o.hit = false := by
  unfold RoadObject.makeOnLane at h
  obtain ⟨l, hl, h⟩ := bind_ok h
  cases h
  exact ⟨l, hl, rfl, rfl, rfl, rfl⟩

/-- So it is aligned with the lane and motionless exactly where the lane has heading 0. -/
theorem object_on_lane_aligned_iff (g : Graph) (uid : ℕ) (k : ObjKind) (i : LaneIndex) (s : ℝ) (o : RoadObject) (l : Lane)
    (h : RoadObject.makeOnLane g uid k i s = .ok o) (hl : g.getLane i = .ok l) :
    (o.heading = l.headingAt s ∧ o.speed = 0) ↔ l.headingAt s = 0 := by
  obtain ⟨l', hl', _, h1, h2, _⟩ := object_on_lane g uid k i s o h
  rw [hl] at hl'; cases hl'
  rw [h1, h2]
  constructor
  · intro h; exact h.2
  · intro h; exact ⟨h.symm, h⟩

/-! ## C74 — the trajectory history -/

/-- The recorded history holds the states after the most recent steps, newest first, and never more than 30 of them. -/
theorem history_recorded (g : Graph) (dt : ℝ) (c : ℝ × ℝ) (cs : List (ℝ × ℝ)) (v v' : Vehicle)
    (h : drive g true dt (cs ++ [c]) v = .ok v') :
    v'.history.length ≤ 30 ∧ v'.history.head? = some ⟨v'.pos, v'.heading, v'.speed⟩ ∧
    ∃ w, drive g true dt cs v = .ok w ∧ v'.history = (⟨v'.pos, v'.heading, v'.speed⟩ :: w.history).take 30 := by
  have happ : ∀ (xs : List (ℝ × ℝ)) (u : Vehicle), drive g true dt (xs ++ [c]) u = .ok v' →
      ∃ w, drive g true dt xs u = .ok w ∧ drive g true dt [c] w = .ok v' := by
    intro xs
    induction xs with
    | nil => intro u hu; exact ⟨u, rfl, hu⟩
    | cons x xs ih =>
      intro u hu
      rw [List.cons_append] at hu
      unfold drive at hu
      obtain ⟨w, hw, hrest⟩ := bind_ok hu
      obtain ⟨w', h1, h2⟩ := ih w hrest
      refine ⟨w', ?_, h2⟩
      unfold drive
      rw [hw]; exact h1
  obtain ⟨w, h1, h2⟩ := happ cs v h
  unfold drive at h2
  obtain ⟨w', hw', h3⟩ := bind_ok h2
  unfold drive at h3
  cases h3
  have hm : (({ w with steering := c.1, acceleration := c.2 } : Vehicle).move dt).history = w.history := by
    have hcl : ∀ u : Vehicle, u.clipActions.history = u.history := by
      intro u; unfold clipActions clipActionsBase; dsimp only; split_ifs <;> rfl
    have h0 : (if w.kind.isIDM then
        { ({ w with steering := c.1, acceleration := c.2 } : Vehicle) with timer := w.timer + dt }
        else ({ w with steering := c.1, acceleration := c.2 } : Vehicle)).history = w.history := by split <;> rfl
    unfold move
    dsimp only
    have h2 := (hcl _).trans h0
    generalize Vehicle.clipActions _ = u at h2 ⊢
    split
    · exact h2
    · exact h2
  unfold Vehicle.step onStateUpdate at hw'
  obtain ⟨i, hi, hw'⟩ := bind_ok hw'
  obtain ⟨l, hl, hw'⟩ := bind_ok hw'
  cases hw'
  simp only [if_true, hm]
  refine ⟨by rw [List.length_take]; omega, by simp, w, h1, rfl⟩

/-! ## The hypotheses are met -/

/-- Two overlapping vehicles for which the verdict of C07 is `true`. -/
example : (Sample.car 0 .mdp 0 0 20).isColliding (Sample.car 1 .idm 1 0 20).rect = true := by
  rw [precheck_vehicles]
  simp [rotatedRectanglesIntersect, hasCornerInside, pointInRotatedRectangle, pointInRectangle, samplePoints, Sample.car, rect,
    LENGTH, WIDTH, Vec2.rot]
  norm_num

/-- Driving the sample vehicle succeeds for every command list, for every class; crashed vehicles included. -/
example (k : VKind) (cs : List (ℝ × ℝ)) (b : Bool) :
    ∃ v', drive Sample.net true (1 / 15) cs { Sample.car 0 k 0 0 20 with crashed := b } = .ok v' :=
  drive_ok _ Sample.net_py _ _ _ _ Sample.net_has0 _ _ _ _

/-- C11 on the sample: crashed at 20 m/s, whatever the commands. -/
example (cs : List (ℝ × ℝ)) : ∃ v', drive Sample.net true (1 / 15) cs { Sample.car 0 .mdp 0 0 20 with crashed := true } = .ok v' ∧
    v'.speed = 20 * (1 - 1 / 15) ^ cs.length := by
  obtain ⟨v', h⟩ := drive_ok _ Sample.net_py _ _ _ _ Sample.net_has0 true (1 / 15) cs
    { Sample.car 0 .mdp 0 0 20 with crashed := true }
  exact ⟨v', h, (crashed_coasts _ _ _ (by norm_num) (by norm_num) _ _ _ (by simp [Sample.car]) rfl
    (by norm_num [Sample.car]) h).2.2.1⟩

/-- C12 on the sample. -/
example (cs : List (ℝ × ℝ)) (hcs : ∀ c ∈ cs, |c.2| ≤ 6) (v' : Vehicle)
    (h : drive Sample.net true (1 / 15) cs (Sample.car 0 .idm 0 0 20) = .ok v') : |v'.speed| ≤ 40 + 6 * (1 / 15) :=
  speed_envelope _ _ _ 6 (by norm_num) (by norm_num) (by norm_num) cs hcs (Sample.car 0 .idm 0 0 20) v'
    (by norm_num [Sample.car, VKind.maxSpeed]) h

/-- C15 on the sample: 10 steps at 1 m/s² from 20 m/s. -/
example : ∃ v', drive Sample.net true (1 / 10) (List.replicate 10 (0, 1)) (Sample.car 0 .mdp 0 0 20) = .ok v' ∧ v'.speed = 21 := by
  obtain ⟨v', h⟩ := drive_ok _ Sample.net_py _ _ _ _ Sample.net_has0 true (1 / 10) (List.replicate 10 (0, 1))
    (Sample.car 0 .mdp 0 0 20)
  refine ⟨v', h, ?_⟩
  rw [(straight_closed_form _ _ _ 1 10 _ _ (by simp [Sample.car]) rfl (fun k hk => ?_) h).2.1]
  · norm_num [Sample.car]
  · have : (k : ℝ) < 10 := by exact_mod_cast hk
    have h0 : (0 : ℝ) ≤ k := Nat.cast_nonneg k
    simp only [Sample.car]
    rw [abs_le]; constructor <;> linarith

/-- C70 on the sample: a bicycle starting at 5 m/s without lateral motion, one step. -/
example (a : ℝ) (v' : Vehicle) (h : drive Sample.net true (1 / 10) [(0, a)] (Sample.car 0 .bicycle 0 0 5) = .ok v') :
    v'.lateralSpeed = 0 ∧ v'.heading = 0 := by
  have := bicycle_straight_partial Sample.net true (1 / 10) [a] (Sample.car 0 .bicycle 0 0 5) v' rfl rfl rfl (fun k w hk hw => by
    have : k = 0 := by simpa using hk
    subst this; cases hw; norm_num [Sample.car]) h
  exact ⟨this.1, this.2.2.1⟩

/-- C73: a lane with heading different from 0 exists (going up), so objects on it are wrong. -/
example : ({ shape := .circular ⟨0, 0⟩ 10 0 1 true } : Lane).headingAt 0 ≠ 0 := by
  have := Real.pi_pos
  simp [Lane.headingAt, Lane.circDir]

end HighwayEnv.Props
