import Verif.Model.Step
import Verif.Lemmas.Utils
import Verif.Lemmas.Num

/-! Frame lemmas: what `act` and `step` leave unchanged. -/

noncomputable section
namespace HighwayEnv
open Classical

/-- The physical state of a vehicle, which decisions (`act`) never change. -/
structure SameBody (v w : Vehicle) : Prop where
  uid : w.uid = v.uid
  kind : w.kind = v.kind
  pos : w.pos = v.pos
  heading : w.heading = v.heading
  speed : w.speed = v.speed
  laneIndex : w.laneIndex = v.laneIndex
  lane : w.lane = v.lane
  crashed : w.crashed = v.crashed
  collisionsEnabled : w.collisionsEnabled = v.collisionsEnabled
  history : w.history = v.history
  lateralSpeed : w.lateralSpeed = v.lateralSpeed
  yawRate : w.yawRate = v.yawRate

theorem SameBody.refl (v : Vehicle) : SameBody v v := ⟨rfl, rfl, rfl, rfl, rfl, rfl, rfl, rfl, rfl, rfl, rfl, rfl⟩

theorem SameBody.trans {a b c : Vehicle} (h1 : SameBody a b) (h2 : SameBody b c) : SameBody a c :=
  ⟨h2.uid.trans h1.uid, h2.kind.trans h1.kind, h2.pos.trans h1.pos, h2.heading.trans h1.heading, h2.speed.trans h1.speed,
   h2.laneIndex.trans h1.laneIndex, h2.lane.trans h1.lane, h2.crashed.trans h1.crashed,
   h2.collisionsEnabled.trans h1.collisionsEnabled, h2.history.trans h1.history, h2.lateralSpeed.trans h1.lateralSpeed,
   h2.yawRate.trans h1.yawRate⟩

/-- Decompose a successful monadic bind. -/
theorem bind_ok {α β : Type} {m : Py α} {f : α → Py β} {b : β} (h : (m >>= f) = .ok b) :
    ∃ a, m = .ok a ∧ f a = .ok b := by
  rcases m with e | a
  · cases h
  · exact ⟨a, rfl, h⟩

namespace Vehicle

theorem followRoad_body {g : Graph} {rng rng' : Rng} {v v' : Vehicle} (h : v.followRoad g rng = .ok (v', rng')) :
    SameBody v v' := by
  unfold followRoad at h
  obtain ⟨l, _, h⟩ := bind_ok h
  split at h
  · obtain ⟨⟨i, route, rng2⟩, _, h⟩ := bind_ok h
    cases h
    exact ⟨rfl, rfl, rfl, rfl, rfl, rfl, rfl, rfl, rfl, rfl, rfl, rfl⟩
  · cases h; exact .refl _

theorem changeLane_body {g : Graph} {v v' : Vehicle} {d : Int} (h : v.changeLane g d = .ok v') : SameBody v v' := by
  unfold changeLane at h
  obtain ⟨ls, _, h⟩ := bind_ok h
  obtain ⟨l, _, h⟩ := bind_ok h
  split at h <;> cases h
  · exact ⟨rfl, rfl, rfl, rfl, rfl, rfl, rfl, rfl, rfl, rfl, rfl, rfl⟩
  · exact .refl _

theorem applyMeta_body {g : Graph} {v v' : Vehicle} {a : VAction} (h : v.applyMeta g a = .ok v') : SameBody v v' := by
  unfold applyMeta at h
  split at h
  · cases h; exact ⟨rfl, rfl, rfl, rfl, rfl, rfl, rfl, rfl, rfl, rfl, rfl, rfl⟩
  · cases h; exact ⟨rfl, rfl, rfl, rfl, rfl, rfl, rfl, rfl, rfl, rfl, rfl, rfl⟩
  · exact changeLane_body h
  · exact changeLane_body h
  · cases h; exact .refl _

theorem controlledAct_body {g : Graph} {rng rng' : Rng} {v v' : Vehicle} {a : VAction}
    (h : v.controlledAct g rng a = .ok (v', rng')) : SameBody v v' := by
  unfold controlledAct at h
  obtain ⟨⟨v1, rng1⟩, h1, h⟩ := bind_ok h
  obtain ⟨v2, h2, h⟩ := bind_ok h
  obtain ⟨st, _, h⟩ := bind_ok h
  cases h
  refine ((followRoad_body h1).trans (applyMeta_body h2)).trans ?_
  exact ⟨rfl, rfl, rfl, rfl, rfl, rfl, rfl, rfl, rfl, rfl, rfl, rfl⟩

theorem setSpeedIndex_body (G : Globals) (v : Vehicle) (i : Int) : SameBody v (v.setSpeedIndex G i) :=
  ⟨rfl, rfl, rfl, rfl, rfl, rfl, rfl, rfl, rfl, rfl, rfl, rfl⟩

theorem mdpAct_body {G : Globals} {g : Graph} {rng rng' : Rng} {v v' : Vehicle} {a : VAction}
    (h : v.mdpAct G g rng a = .ok (v', rng')) : SameBody v v' := by
  unfold mdpAct at h
  split at h
  · exact (setSpeedIndex_body ..).trans (controlledAct_body h)
  · exact (setSpeedIndex_body ..).trans (controlledAct_body h)
  · exact controlledAct_body h

theorem considerLane_body {G : Globals} {r : Road} {v v' : Vehicle} {i : LaneIndex}
    (h : v.considerLane G r i = .ok v') : SameBody v v' := by
  unfold considerLane at h
  obtain ⟨l, _, h⟩ := bind_ok h
  split at h
  · obtain ⟨b, _, h⟩ := bind_ok h
    split at h <;> cases h
    · exact ⟨rfl, rfl, rfl, rfl, rfl, rfl, rfl, rfl, rfl, rfl, rfl, rfl⟩
    · exact .refl _
  · cases h; exact .refl _

theorem foldlM_rel {α β : Type} {R : β → β → Prop} (hr : ∀ b, R b b) (ht : ∀ a b c, R a b → R b c → R a c)
    {f : β → α → Py β} (hf : ∀ b a b', f b a = .ok b' → R b b') (l : List α) (b b' : β)
    (h : l.foldlM f b = .ok b') : R b b' := by
  induction l generalizing b with
  | nil => rw [List.foldlM_nil] at h; cases h; exact hr _
  | cons a l ih =>
    rw [List.foldlM_cons] at h
    obtain ⟨b1, h1, h⟩ := bind_ok h
    exact ht _ _ _ (hf _ _ _ h1) (ih _ h)

theorem changeLanePolicy_body {G : Globals} {r : Road} {v v' : Vehicle}
    (h : v.changeLanePolicy G r = .ok v') : SameBody v v' := by
  unfold changeLanePolicy at h
  split at h
  · split at h
    · split at h <;> cases h
      · exact ⟨rfl, rfl, rfl, rfl, rfl, rfl, rfl, rfl, rfl, rfl, rfl, rfl⟩
      · exact .refl _
    · cases h; exact .refl _
  · split at h
    · obtain ⟨sides, _, h⟩ := bind_ok h
      refine SameBody.trans (b := { v with timer := 0 }) ⟨rfl, rfl, rfl, rfl, rfl, rfl, rfl, rfl, rfl, rfl, rfl, rfl⟩ ?_
      exact foldlM_rel SameBody.refl (fun _ _ _ => SameBody.trans) (fun _ _ _ => considerLane_body) _ _ _ h
    · cases h; exact .refl _

theorem idmAct_body {G : Globals} {r : Road} {v v' : Vehicle} {rng' : Rng}
    (h : v.idmAct G r = .ok (v', rng')) : SameBody v v' := by
  unfold idmAct at h
  split at h
  · cases h; exact .refl _
  · obtain ⟨⟨front, rear⟩, _, h⟩ := bind_ok h
    obtain ⟨⟨v1, rng1⟩, h1, h⟩ := bind_ok h
    obtain ⟨v2, h2, h⟩ := bind_ok h
    obtain ⟨st, _, h⟩ := bind_ok h
    obtain ⟨acc, _, h⟩ := bind_ok h
    cases h
    have hb : SameBody v1 v2 := by
      unfold maybeChangeLane at h2
      split at h2
      · exact changeLanePolicy_body h2
      · cases h2; exact .refl _
    refine ((followRoad_body h1).trans hb).trans ?_
    exact ⟨rfl, rfl, rfl, rfl, rfl, rfl, rfl, rfl, rfl, rfl, rfl, rfl⟩

theorem act_body {G : Globals} {r : Road} {v v' : Vehicle} {a : VAction} {rng' : Rng}
    (h : v.act G r a = .ok (v', rng')) : SameBody v v' := by
  unfold act at h
  split at h
  · split at h <;> cases h
    · exact .refl _
    · exact ⟨rfl, rfl, rfl, rfl, rfl, rfl, rfl, rfl, rfl, rfl, rfl, rfl⟩
  · split at h <;> cases h
    · exact .refl _
    · exact ⟨rfl, rfl, rfl, rfl, rfl, rfl, rfl, rfl, rfl, rfl, rfl, rfl⟩
  · exact controlledAct_body h
  · exact mdpAct_body h
  · exact idmAct_body h

/-- What a step of one vehicle leaves unchanged. -/
structure SameMind (v w : Vehicle) : Prop where
  uid : w.uid = v.uid
  kind : w.kind = v.kind
  crashed : w.crashed = v.crashed
  collisionsEnabled : w.collisionsEnabled = v.collisionsEnabled
  targetLane : w.targetLane = v.targetLane
  targetSpeed : w.targetSpeed = v.targetSpeed
  route : w.route = v.route
  speedIndex : w.speedIndex = v.speedIndex
  isYielding : w.isYielding = v.isYielding
  hasColor : w.hasColor = v.hasColor
  yieldTimer : w.yieldTimer = v.yieldTimer
  enableLaneChange : w.enableLaneChange = v.enableLaneChange

theorem clipActionsBase_mind (v : Vehicle) : SameMind v v.clipActionsBase := by
  unfold clipActionsBase
  dsimp only
  split_ifs <;> exact ⟨rfl, rfl, rfl, rfl, rfl, rfl, rfl, rfl, rfl, rfl, rfl, rfl⟩

theorem SameMind.trans {a b c : Vehicle} (h1 : SameMind a b) (h2 : SameMind b c) : SameMind a c :=
  ⟨h2.uid.trans h1.uid, h2.kind.trans h1.kind, h2.crashed.trans h1.crashed,
   h2.collisionsEnabled.trans h1.collisionsEnabled, h2.targetLane.trans h1.targetLane, h2.targetSpeed.trans h1.targetSpeed,
   h2.route.trans h1.route, h2.speedIndex.trans h1.speedIndex, h2.isYielding.trans h1.isYielding,
   h2.hasColor.trans h1.hasColor, h2.yieldTimer.trans h1.yieldTimer, h2.enableLaneChange.trans h1.enableLaneChange⟩

theorem clipActions_mind (v : Vehicle) : SameMind v v.clipActions := by
  unfold clipActions
  dsimp only
  split_ifs
  · exact (clipActionsBase_mind v).trans ⟨rfl, rfl, rfl, rfl, rfl, rfl, rfl, rfl, rfl, rfl, rfl, rfl⟩
  · exact clipActionsBase_mind v

theorem move_mind (v : Vehicle) (dt : ℝ) : SameMind v (v.move dt) := by
  have h0 : SameMind v (if v.kind.isIDM then { v with timer := v.timer + dt } else v) := by
    split <;> exact ⟨rfl, rfl, rfl, rfl, rfl, rfl, rfl, rfl, rfl, rfl, rfl, rfl⟩
  unfold move
  dsimp only
  have h1 := h0.trans (clipActions_mind _)
  generalize (if v.kind.isIDM then { v with timer := v.timer + dt } else v).clipActions = w at h1 ⊢
  refine h1.trans ?_
  split <;> exact ⟨rfl, rfl, rfl, rfl, rfl, rfl, rfl, rfl, rfl, rfl, rfl, rfl⟩

theorem step_ok {g : Graph} {rec : Bool} {dt : ℝ} {v v' : Vehicle} (h : v.step g rec dt = .ok v') :
    ∃ i l hist, g.getClosestLaneIndex v'.pos (some v'.heading) = .ok i ∧ g.getLane i = .ok l ∧
      v' = { v.move dt with laneIndex := i, lane := l, history := hist } := by
  unfold step onStateUpdate at h
  obtain ⟨i, hi, h⟩ := bind_ok h
  obtain ⟨l, hl, h⟩ := bind_ok h
  cases h
  exact ⟨i, l, _, hi, hl, rfl⟩

theorem step_mind {g : Graph} {rec : Bool} {dt : ℝ} {v v' : Vehicle} (h : v.step g rec dt = .ok v') : SameMind v v' := by
  obtain ⟨i, l, hist, _, _, rfl⟩ := step_ok h
  exact (move_mind v dt).trans ⟨rfl, rfl, rfl, rfl, rfl, rfl, rfl, rfl, rfl, rfl, rfl, rfl⟩

/-- Physical fields after the clipping of actions. -/
theorem clipActions_phys (v : Vehicle) :
    v.clipActions.pos = v.pos ∧ v.clipActions.heading = v.heading ∧ v.clipActions.speed = v.speed ∧
    v.clipActions.lateralSpeed = v.lateralSpeed := by
  unfold clipActions clipActionsBase
  dsimp only
  split_ifs <;> exact ⟨rfl, rfl, rfl, rfl⟩

end Vehicle
end HighwayEnv
