import Verif.Props.Controller
import Verif.Props.Queries
import Verif.Spec.Traffic

/-!
# C34 – C40: traffic behaviour
-/

noncomputable section
open Classical
namespace HighwayEnv.Props
open HighwayEnv Spec

/-! ## C34 – C36 — the car-following law -/

private theorem acc_eq {G : Globals} {self e : Vehicle} {front : Option Entity} {a : ℝ} (hk : self.kind.isLinear = false)
    (h : Vehicle.accelerationOf G self (some (.veh e)) front = .ok a) : a = Vehicle.idmAcceleration G self.kind e front := by
  unfold Vehicle.accelerationOf at h
  rw [hk] at h
  cases h; rfl

private theorem acc_ok (G : Globals) {self : Vehicle} (hk : self.kind.isLinear = false) (e : Vehicle) (front : Option Entity) :
    Vehicle.accelerationOf G self (some (.veh e)) front = .ok (Vehicle.idmAcceleration G self.kind e front) := by
  unfold Vehicle.accelerationOf
  rw [hk]; rfl

/-- The non-linear traffic model is the IDM law: for an ego with non-negative speed, a target speed above 1 cm/s, and a front
entity more than 1 cm ahead along the ego's lane, the acceleration is
`a (1 - (v/v0)^4) - a (s*/s)^2`, with `s* = s0 + 1.5 v + v Δv / (2 √(a b))` and `Δv` the approach rate along the ego's heading;
without front entity the last term is absent. -/
theorem idm_law (G : Globals) (self e : Vehicle) (hk : self.kind = .idm) (he : e.kind.isControlled = true) (hs : 0 ≤ e.speed)
    (ht : 1 / 100 < e.targetSpeed) :
    Vehicle.accelerationOf G self (some (.veh e)) none = .ok (idmFree (G.comfortAccMax .idm) e.speed e.targetSpeed) ∧
    ∀ f : Entity, 1 / 100 < e.laneDistanceTo f.pos →
      Vehicle.accelerationOf G self (some (.veh e)) (some f) = .ok (idmFree (G.comfortAccMax .idm) e.speed e.targetSpeed -
        G.comfortAccMax .idm *
          (idmGap (G.distanceWanted .idm) 1.5 (G.comfortAccMax .idm) (-G.comfortAccMin .idm) e.speed
            (e.speed - (f.velocity.x * Real.cos e.heading + f.velocity.y * Real.sin e.heading)) / e.laneDistanceTo f.pos) ^ 2) := by
  have hl : self.kind.isLinear = false := by rw [hk]; rfl
  have hnz : notZero e.targetSpeed = e.targetSpeed := by
    unfold notZero; rw [if_pos]; rw [abs_of_pos (by linarith)]; exact ht
  have hm : max e.speed 0 = e.speed := max_eq_left hs
  constructor
  · rw [acc_ok G hl]
    simp only [Vehicle.idmAcceleration, he, if_true, hnz, hm, hk, idmFree]
  · intro f hf
    rw [acc_ok G hl]
    have hnd : notZero (e.laneDistanceTo f.pos) = e.laneDistanceTo f.pos := by
      unfold notZero; rw [if_pos]; rw [abs_of_pos (by linarith)]; exact hf
    have hgap : Vehicle.desiredGap G .idm e f = idmGap (G.distanceWanted .idm) 1.5 (G.comfortAccMax .idm) (-G.comfortAccMin .idm) e.speed
            (e.speed - (f.velocity.x * Real.cos e.heading + f.velocity.y * Real.sin e.heading)) := by
      unfold Vehicle.desiredGap idmGap Vehicle.timeWanted
      have h1 : -G.comfortAccMax .idm * G.comfortAccMin .idm = G.comfortAccMax .idm * -G.comfortAccMin .idm := by ring
      have h2 : (e.velocity - f.velocity).dot e.direction =
          e.speed - (f.velocity.x * Real.cos e.heading + f.velocity.y * Real.sin e.heading) := by
        simp only [Vec2.dot, Vehicle.velocity, Vehicle.direction, Vec2.dir, Vec2.sub_x, Vec2.sub_y, Vec2.smul_x, Vec2.smul_y]
        have := Real.sin_sq_add_cos_sq e.heading
        linear_combination e.speed * this
      rw [h2]
      simp only [VKind.isLinear, h1, Bool.false_eq_true, if_false]
      norm_num
    simp only [Vehicle.idmAcceleration, he, if_true, hnz, hm, hk, idmFree, hnd, hgap]

example : (0 : ℝ) ≤ (Sample.car 0 .idm 10 0 20).speed ∧ (1 : ℝ) / 100 < (Sample.car 0 .idm 10 0 20).targetSpeed ∧
    (1 : ℝ) / 100 < (Sample.car 0 .idm 10 0 20).laneDistanceTo (Entity.veh (Sample.car 1 .idm 40 0 20)).pos := by
  refine ⟨by norm_num [Sample.car], by norm_num [Sample.car], ?_⟩
  norm_num [Vehicle.laneDistanceTo, Sample.car, Sample.lane_local, Entity.pos]

/-- The acceleration never exceeds the comfort maximum, whatever the ego vehicle (of any class, any speed) and the front entity. -/
theorem idm_acc_le_max (G : Globals) (self e : Vehicle) (front : Option Entity) (a : ℝ) (hk : self.kind.isLinear = false)
    (hmax : 0 ≤ G.comfortAccMax self.kind) (h : Vehicle.accelerationOf G self (some (.veh e)) front = .ok a) :
    a ≤ G.comfortAccMax self.kind := by
  rw [acc_eq hk h]
  unfold Vehicle.idmAcceleration
  generalize notZero (if e.kind.isControlled = true then e.targetSpeed else 0) = t
  have h4 : 0 ≤ (max e.speed 0 / t) ^ 4 := by positivity
  cases front with
  | none => dsimp only; nlinarith
  | some f =>
    dsimp only
    have h2 : 0 ≤ (Vehicle.desiredGap G self.kind e f / notZero (e.laneDistanceTo f.pos)) ^ 2 := by positivity
    nlinarith

private theorem notZero_ne (x : ℝ) : notZero x ≠ 0 := by
  unfold notZero
  split
  · rename_i h; intro e; rw [e] at h; norm_num at h
  · split <;> norm_num

/-- For a non-negative ego speed, the comfort maximum is reached exactly at standstill on a free road. -/
theorem idm_acc_eq_max (G : Globals) (self e : Vehicle) (front : Option Entity) (a : ℝ) (hk : self.kind.isLinear = false)
    (hmax : 0 < G.comfortAccMax self.kind) (hd : G.distanceWanted self.kind ≠ 0) (hs : 0 ≤ e.speed)
    (h : Vehicle.accelerationOf G self (some (.veh e)) front = .ok a) :
    a = G.comfortAccMax self.kind ↔ e.speed = 0 ∧ front = none := by
  rw [acc_eq hk h]
  unfold Vehicle.idmAcceleration
  have ht : notZero (if e.kind.isControlled = true then e.targetSpeed else 0) ≠ 0 := notZero_ne _
  generalize notZero (if e.kind.isControlled = true then e.targetSpeed else 0) = t at ht
  rw [max_eq_left hs]
  have h4 : 0 ≤ (e.speed / t) ^ 4 := by positivity
  cases front with
  | none =>
    simp only [and_true]
    constructor
    · intro h
      have : (e.speed / t) ^ 4 = 0 := by
        have : G.comfortAccMax self.kind * (e.speed / t) ^ 4 = 0 := by linarith
        rcases mul_eq_zero.1 this with h | h
        · exact absurd h hmax.ne'
        · exact h
      have := pow_eq_zero_iff (by norm_num) |>.1 this
      rcases div_eq_zero_iff.1 this with h | h
      · exact h
      · exact absurd h ht
    · intro h; rw [h]; simp
  | some f =>
    simp only [reduceCtorEq, and_false, iff_false]
    intro h
    have h2 : 0 ≤ (Vehicle.desiredGap G self.kind e f / notZero (e.laneDistanceTo f.pos)) ^ 2 := by positivity
    have e4 : (e.speed / t) ^ 4 = 0 := by nlinarith
    have e2 : (Vehicle.desiredGap G self.kind e f / notZero (e.laneDistanceTo f.pos)) ^ 2 = 0 := by nlinarith
    have s0 : e.speed = 0 := by
      have := pow_eq_zero_iff (by norm_num) |>.1 e4
      rcases div_eq_zero_iff.1 this with h | h
      · exact h
      · exact absurd h ht
    have := pow_eq_zero_iff (by norm_num) |>.1 e2
    rcases div_eq_zero_iff.1 this with h | h
    · apply hd
      unfold Vehicle.desiredGap at h
      simpa [s0] using h
    · exact absurd h (notZero_ne _)

example : VKind.isLinear (Sample.car 0 .idm 10 0 20).kind = false ∧ 0 < ({} : Globals).comfortAccMax (Sample.car 0 .idm 10 0 20).kind ∧
    ({} : Globals).distanceWanted (Sample.car 0 .idm 10 0 20).kind ≠ 0 := by
  refine ⟨rfl, by norm_num, by norm_num⟩

/-- A front entity never increases the acceleration. -/
theorem leader_slows (G : Globals) (self e : Vehicle) (f : Entity) (a b : ℝ) (hk : self.kind.isLinear = false)
    (hmax : 0 ≤ G.comfortAccMax self.kind) (ha : Vehicle.accelerationOf G self (some (.veh e)) (some f) = .ok a)
    (hb : Vehicle.accelerationOf G self (some (.veh e)) none = .ok b) : a ≤ b := by
  rw [acc_eq hk ha, acc_eq hk hb]
  unfold Vehicle.idmAcceleration
  dsimp only
  have h2 : 0 ≤ (Vehicle.desiredGap G self.kind e f / notZero (e.laneDistanceTo f.pos)) ^ 2 := by positivity
  nlinarith

/-- Of two front entities with the same velocity, the one closer along the lane never allows more acceleration, when both are
more than 1 cm ahead; strictly less when the desired gap is not 0 and the comfort maximum is positive. -/
theorem closer_slows (G : Globals) (self e : Vehicle) (f g : Entity) (a b : ℝ) (hk : self.kind.isLinear = false)
    (hmax : 0 ≤ G.comfortAccMax self.kind) (hv : f.velocity = g.velocity) (hf : 1 / 100 < e.laneDistanceTo f.pos)
    (hfg : e.laneDistanceTo f.pos ≤ e.laneDistanceTo g.pos)
    (ha : Vehicle.accelerationOf G self (some (.veh e)) (some f) = .ok a)
    (hb : Vehicle.accelerationOf G self (some (.veh e)) (some g) = .ok b) :
    a ≤ b ∧ (0 < G.comfortAccMax self.kind → Vehicle.desiredGap G self.kind e f ≠ 0 →
      e.laneDistanceTo f.pos < e.laneDistanceTo g.pos → a < b) := by
  rw [acc_eq hk ha, acc_eq hk hb]
  have hg : 1 / 100 < e.laneDistanceTo g.pos := lt_of_lt_of_le hf hfg
  have n1 : notZero (e.laneDistanceTo f.pos) = e.laneDistanceTo f.pos := by
    unfold notZero; rw [if_pos]; rw [abs_of_pos (by linarith)]; exact hf
  have n2 : notZero (e.laneDistanceTo g.pos) = e.laneDistanceTo g.pos := by
    unfold notZero; rw [if_pos]; rw [abs_of_pos (by linarith)]; exact hg
  have hgap : Vehicle.desiredGap G self.kind e g = Vehicle.desiredGap G self.kind e f := by
    unfold Vehicle.desiredGap; rw [hv]
  unfold Vehicle.idmAcceleration
  dsimp only
  rw [n1, n2, hgap]
  set D := Vehicle.desiredGap G self.kind e f
  set x := e.laneDistanceTo f.pos
  set y := e.laneDistanceTo g.pos
  have hx : 0 < x := by linarith
  constructor
  · have : (D / y) ^ 2 ≤ (D / x) ^ 2 := by
      rw [div_pow, div_pow]
      apply div_le_div_of_nonneg_left (by positivity) (by positivity)
      exact pow_le_pow_left₀ hx.le hfg 2
    nlinarith
  · intro h0 hD hlt
    have : (D / y) ^ 2 < (D / x) ^ 2 := by
      rw [div_pow, div_pow]
      apply div_lt_div_of_pos_left (by positivity) (by positivity)
      exact pow_lt_pow_left₀ hlt hx.le (by norm_num)
    nlinarith

/-- On a free road, with a target above 1 cm/s and a non-negative speed: accelerates below the target, brakes above, holds at it. -/
theorem free_road_equilibrium (G : Globals) (self e : Vehicle) (a : ℝ) (hk : self.kind.isLinear = false)
    (he : e.kind.isControlled = true) (hmax : 0 < G.comfortAccMax self.kind) (hs : 0 ≤ e.speed) (ht : 1 / 100 < e.targetSpeed)
    (h : Vehicle.accelerationOf G self (some (.veh e)) none = .ok a) :
    (e.speed < e.targetSpeed → 0 < a) ∧ (e.targetSpeed < e.speed → a < 0) ∧ (e.speed = e.targetSpeed → a = 0) := by
  rw [acc_eq hk h]
  have hnz : notZero e.targetSpeed = e.targetSpeed := by
    unfold notZero; rw [if_pos]; rw [abs_of_pos (by linarith)]; exact ht
  have hp : 0 < e.targetSpeed := by linarith
  simp only [Vehicle.idmAcceleration, he, if_true, hnz, max_eq_left hs]
  refine ⟨fun h => ?_, fun h => ?_, fun h => ?_⟩
  · have h1 : e.speed / e.targetSpeed < 1 := (div_lt_one hp).2 h
    have h0 : 0 ≤ e.speed / e.targetSpeed := by positivity
    have : (e.speed / e.targetSpeed) ^ 4 < 1 := pow_lt_one₀ h0 h1 (by norm_num)
    nlinarith
  · have h1 : 1 < e.speed / e.targetSpeed := (one_lt_div hp).2 h
    have : 1 < (e.speed / e.targetSpeed) ^ 4 := one_lt_pow₀ h1 (by norm_num)
    nlinarith
  · rw [h, div_self hp.ne']; ring

/-- The exact law, without any restriction on speed and target: on a free road the IDM acceleration is positive below, negative above and zero at the speed `max(|target|, 0.01)` — so the
sign of the target speed is ignored, and a vehicle told to stand still creeps towards 1 cm/s. -/
theorem free_road_law (G : Globals) (self e : Vehicle) (a : ℝ) (hk : self.kind.isLinear = false)
    (he : e.kind.isControlled = true) (hmax : 0 < G.comfortAccMax self.kind)
    (h : Vehicle.accelerationOf G self (some (.veh e)) none = .ok a) :
    (0 < a ↔ e.speed < max |e.targetSpeed| (1 / 100)) ∧ (a < 0 ↔ max |e.targetSpeed| (1 / 100) < e.speed) ∧
    (a = 0 ↔ e.speed = max |e.targetSpeed| (1 / 100)) := by
  rw [acc_eq hk h]
  have hnz : |notZero e.targetSpeed| = max |e.targetSpeed| (1 / 100) := by
    unfold notZero
    split_ifs with h1 h2
    · exact (max_eq_left h1.le).symm
    · rw [max_eq_right (not_lt.1 h1)]; norm_num
    · rw [max_eq_right (not_lt.1 h1)]; norm_num
  simp only [Vehicle.idmAcceleration, he, if_true]
  have hp : 0 < max |e.targetSpeed| (1 / 100) := lt_max_of_lt_right (by norm_num)
  generalize max |e.targetSpeed| (1 / 100) = θ at *
  have h4 : (max e.speed 0 / notZero e.targetSpeed) ^ 4 = (max e.speed 0 / θ) ^ 4 := by
    rw [div_pow, div_pow, ← hnz, Even.pow_abs (by decide)]
  have hm : ∀ x : ℝ, x < θ ↔ max x 0 < θ := fun x => ⟨fun h => max_lt h hp, fun h => lt_of_le_of_lt (le_max_left _ _) h⟩
  have hm' : ∀ x : ℝ, θ < x ↔ θ < max x 0 := fun x => ⟨fun h => lt_of_lt_of_le h (le_max_left _ _), fun h => by
    rcases lt_max_iff.1 h with h | h
    · exact h
    · exact absurd hp h.not_gt⟩
  have q0 : 0 ≤ max e.speed 0 / θ := div_nonneg (le_max_right _ _) hp.le
  have l1 : e.speed < θ ↔ (max e.speed 0 / θ) ^ 4 < 1 := by
    rw [hm, ← div_lt_one hp, pow_lt_one_iff_of_nonneg q0 (by norm_num)]
  have l2 : θ < e.speed ↔ 1 < (max e.speed 0 / θ) ^ 4 := by
    rw [hm', ← one_lt_div hp, one_lt_pow_iff_of_nonneg q0 (by norm_num)]
  rw [h4]
  generalize (max e.speed 0 / θ) ^ 4 = y at *
  have e1 : 0 < G.comfortAccMax self.kind * (1 - y) ↔ e.speed < θ := by
    rw [l1]; constructor
    · intro h; by_contra hc; nlinarith
    · intro h; exact mul_pos hmax (by linarith)
  have e2 : G.comfortAccMax self.kind * (1 - y) < 0 ↔ θ < e.speed := by
    rw [l2]; constructor
    · intro h; by_contra hc; nlinarith
    · intro h; exact mul_neg_of_pos_of_neg hmax (by linarith)
  refine ⟨e1, e2, ?_⟩
  constructor
  · intro h
    rcases lt_trichotomy e.speed θ with g | g | g
    · exact absurd h (e1.2 g).ne'
    · exact g
    · exact absurd h (e2.2 g).ne
  · intro h
    rcases lt_trichotomy (G.comfortAccMax self.kind * (1 - y)) 0 with g | g | g
    · exact absurd h (e2.1 g).ne'
    · exact g
    · exact absurd h (e1.1 g).ne

/-- Linear vehicles: with a positive gain on the speed error, for every speed and target whatever their signs. -/
theorem free_road_linear (G : Globals) (self e : Vehicle) (a : ℝ) (hk : self.kind.isLinear = true) (hp : 0 < self.accParams.1)
    (h : Vehicle.accelerationOf G self (some (.veh e)) none = .ok a) :
    (0 < a ↔ e.speed < e.targetSpeed) ∧ (a < 0 ↔ e.targetSpeed < e.speed) ∧ (a = 0 ↔ e.speed = e.targetSpeed) := by
  unfold Vehicle.accelerationOf at h
  rw [if_pos hk] at h
  dsimp only at h
  split at h
  · have h := (Except.ok.inj h).symm
    simp only [Vehicle.accelerationFeatures, mul_zero, add_zero] at h
    subst h
    refine ⟨?_, ?_, ?_⟩
    · rw [mul_pos_iff_of_pos_left hp, sub_pos]
    · rw [← neg_pos, ← mul_neg, mul_pos_iff_of_pos_left hp, neg_pos, sub_neg]
    · rw [mul_eq_zero, or_iff_right hp.ne', sub_eq_zero, eq_comm]
  · cases h

/-! ## C37, C40 — commands of traffic vehicles -/

private theorem act_idm {G : Globals} {r : Road} {v v' : Vehicle} {a : VAction} {rng' : Rng} (hk : v.kind.isIDM = true)
    (h : v.act G r a = .ok (v', rng')) : v.idmAct G r = .ok (v', rng') := by
  unfold Vehicle.act at h
  revert hk h
  cases v.kind <;> simp [VKind.isIDM]

/-- After every decision of a traffic vehicle that has not crashed, the acceleration command is the model acceleration towards the
nearest entity ahead on its lane, clipped to ±6 m/s². -/
theorem traffic_command (G : Globals) (r : Road) (v v' : Vehicle) (a : VAction) (rng' : Rng) (hk : v.kind.isIDM = true)
    (hc : v.crashed = false) (h : v.act G r a = .ok (v', rng')) :
    |v'.acceleration| ≤ 6 ∧ ∃ lane front w acc, r.network.getLane v.laneIndex = .ok lane ∧
      NearestAhead lane v.uid (lane.localCoordinates v.pos).1 (r.vehicles.map .veh ++ r.objects.map .obj) front ∧
      Vehicle.accelerationOf G w (some (.veh w)) front = .ok acc ∧
      (w.pos = v.pos ∧ w.heading = v.heading ∧ w.speed = v.speed ∧ w.lane = v.lane ∧ w.kind = v.kind ∧
        w.targetSpeed = v.targetSpeed ∧ w.accParams = v.accParams) ∧
      v'.acceleration = min (max acc (-6)) 6 ∧ v'.targetSpeed = v.targetSpeed := by
  have h' := act_idm hk h
  unfold Vehicle.idmAct at h'
  rw [if_neg (by simp [hc])] at h'
  obtain ⟨⟨front, rear⟩, hf, h'⟩ := bind_ok h'
  obtain ⟨⟨v1, rng1⟩, h1, h'⟩ := bind_ok h'
  obtain ⟨v2, h2, h'⟩ := bind_ok h'
  obtain ⟨st, h3, h'⟩ := bind_ok h'
  obtain ⟨acc, h4, h'⟩ := bind_ok h'
  cases h'
  obtain ⟨lane, hl, hn, _⟩ := neighbours_sound r v none front rear hf
  have f1 : ∃ t route, v1 = { v with targetLane := t, route := route } := by
    unfold Vehicle.followRoad at h1
    obtain ⟨l, hl, h1⟩ := bind_ok h1
    split at h1
    · obtain ⟨⟨i, route, rng2⟩, hn, h1⟩ := bind_ok h1
      cases h1; exact ⟨_, _, rfl⟩
    · cases h1; exact ⟨_, _, rfl⟩
  have f2 : ∃ t tm, v2 = { v1 with targetLane := t, timer := tm } := by
    unfold Vehicle.maybeChangeLane at h2
    split at h2
    · unfold Vehicle.changeLanePolicy at h2
      split at h2
      · split at h2
        · split at h2 <;> cases h2 <;> exact ⟨_, _, rfl⟩
        · cases h2; exact ⟨_, _, rfl⟩
      · split at h2
        · obtain ⟨sides, hs, h2⟩ := bind_ok h2
          have := Vehicle.foldlM_rel (R := fun a b : Vehicle => ∃ t tm, b = { a with targetLane := t, timer := tm })
            (fun b => ⟨_, _, rfl⟩) (fun a b c ⟨t, tm, e⟩ ⟨t', tm', e'⟩ => ⟨t', tm', by rw [e', e]⟩)
            (f := Vehicle.considerLane G r) ?_ sides _ _ h2
          · obtain ⟨t, tm, e⟩ := this
            exact ⟨t, tm, e⟩
          · intro a i b hb
            unfold Vehicle.considerLane at hb
            obtain ⟨l, hl, hb⟩ := bind_ok hb
            split at hb
            · obtain ⟨ok, hok, hb⟩ := bind_ok hb
              split at hb <;> cases hb <;> exact ⟨_, _, rfl⟩
            · cases hb; exact ⟨_, _, rfl⟩
        · cases h2; exact ⟨_, _, rfl⟩
    · cases h2; exact ⟨_, _, rfl⟩
  obtain ⟨t1, ro1, rfl⟩ := f1
  obtain ⟨t2, tm2, rfl⟩ := f2
  refine ⟨abs_npClip (by unfold Vehicle.ACC_MAX; norm_num), lane, front, _, acc, hl, hn, h4, ⟨rfl, rfl, rfl, rfl, rfl, rfl, rfl⟩, rfl, rfl⟩

/-- A crashed traffic vehicle takes no decision: `act` changes nothing and draws no random number. -/
theorem crashed_traffic_idle (G : Globals) (r : Road) (v : Vehicle) (a : VAction) (hk : v.kind.isIDM = true) (hc : v.crashed = true) :
    v.act G r a = .ok (v, r.rng) := by
  have : v.act G r a = v.idmAct G r := by
    unfold Vehicle.act
    revert hk
    cases v.kind <;> simp [VKind.isIDM]
  rw [this]
  unfold Vehicle.idmAct
  rw [if_pos hc]

end HighwayEnv.Props
