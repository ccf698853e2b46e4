import Verif.Props.Turned
import Verif.Props.Parking

/-!
# C119, continued — the environments with a goal

The reward of the parking and of the summon environments weighs a distance along the first axis more than one along the second axis: turning the
world changes it.
-/
namespace HighwayEnv.Props
noncomputable section
open Classical
open HighwayEnv Spec

/-- The reward of one agent without a destination, watching one goal. -/
private theorem lone_reward (cfg : ParkingConfig) (hc : ParkingOk cfg) (hs : cfg.severalObservers = false) (e : Env) (v : Vehicle) (o : RoadObject)
    (us : List ℕ) (hcon : e.controlled = v.uid :: us) (hv : e.road.vehicle? v.uid = some v) (hk : v.kind.isControlled = false)
    (ho : e.road.objects = [o]) (hg : e.goal = o.uid) (b : Option AgentAction) :
    (Parking.cls cfg).reward e b = .ok (-Real.sqrt (parkingGap v o)) := by
  obtain ⟨a, d, h1, h2⟩ := goal_seen cfg hc e.road.network v o hk
  show Parking.rewardWith (fun a d => Parking.computeReward a d) cfg e = _
  have e1 : Parking.goal e = .ok o := by
    unfold Parking.goal
    rw [ho, hg]
    simp
  have e2 : Parking.observations cfg e = .ok [(List.ofFn a, List.ofFn a, List.ofFn d)] := by
    unfold Parking.observations
    rw [hs, hcon]
    simp only [Bool.false_eq_true, if_false]
    unfold Parking.observeOne
    rw [hv]
    simp only [e1, bind, Except.bind, h1]
    rfl
  unfold Parking.rewardWith
  rw [e2]
  simp only [bind, Except.bind, List.mapM_cons, List.mapM_nil, parking_reward_eq]
  simp only [pure, Except.pure, List.sum_cons, List.sum_nil, add_zero]
  rw [Real.sqrt_eq_rpow, ← h2]

/-- **C119, counter-example.** A car 1 m behind the goal along the first axis is given the reward `-√0.01`, and once everything is turned by 90° it is
given `-√0.003`: the parking environment depends on directions. -/
theorem parking_not_directionFree (cfg : ParkingConfig) (hc : ParkingOk cfg) (hs : cfg.severalObservers = false) : ¬ DirectionFree (Parking.cls cfg) := by
  intro h
  let v : Vehicle := Sample.car 0 .plain 0 0 0
  let o : RoadObject := { uid := 1, kind := .landmark, pos := ⟨1, 0⟩, heading := 0 }
  let e : Env := { sampleEnv with road := { sampleEnv.road with vehicles := [v], objects := [o] }, controlled := [0], goal := 1 }
  have hw : WithoutCircles e.road := by
    intro l hl
    have hs : ∃ k, l = Sample.lane k := by
      rcases hl with ⟨nd, hnd, ml, hml, hl⟩ | ⟨v, hv, rfl⟩
      · simp only [e, sampleEnv, Sample.net, List.mem_cons, List.not_mem_nil, or_false] at hnd
        subst hnd
        simp only [List.mem_cons, List.not_mem_nil, or_false] at hml
        subst hml
        simp only [List.mem_cons, List.not_mem_nil, or_false] at hl
        rcases hl with rfl | rfl <;> exact ⟨_, rfl⟩
      · rcases List.mem_singleton.1 hv with rfl
        exact ⟨0, rfl⟩
    obtain ⟨k, rfl⟩ := hs
    refine ⟨_, _, fun he => ?_, .inl rfl⟩
    have := congrArg Vec2.x he
    norm_num at this
  have h1 := lone_reward cfg hc hs e v o [] rfl rfl rfl rfl rfl none
  have h2 := lone_reward cfg hc hs e.quarter v.quarter o.quarter [] rfl rfl rfl rfl rfl none
  have h3 := h.reward e none (placeable_of_withoutCircles hw)
  rw [h1, h2] at h3
  have h4 := neg_injective (Except.ok.inj h3)
  rw [Real.sqrt_inj (gap_nonneg _ _) (gap_nonneg _ _)] at h4
  simp [parkingGap, v, o, Sample.car, Vehicle.quarter, RoadObject.quarter, Vec2.quarter] at h4
  norm_num at h4

/-- Non-vacuity: the default parking is such a class. -/
example : ¬ DirectionFree (Parking.cls {}) := parking_not_directionFree {} parking_default_ok.1 rfl

end
end HighwayEnv.Props
