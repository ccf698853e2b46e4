import Verif.Lemmas.Invariant
import Verif.Lemmas.Acted
import Verif.Props.Network

/-! Construction of vehicles, and invariants of unregulated roads. -/

noncomputable section
namespace HighwayEnv
open Classical Spec Graph

/-- What a constructor sets. -/
structure Built (G : Globals) (u : ℕ) (c : VKind) (p : Vec2) (h s : ℝ) (v : Vehicle) : Prop where
  uid : v.uid = u
  kind : v.kind = c
  pos : v.pos = p
  heading : v.heading = h
  speed : v.speed = s
  target : v.targetLane = v.laneIndex
  route : v.route = none
  crashed : v.crashed = false
  yielding : v.isYielding = false
  color : v.hasColor = false
  targetSpeed : c ≠ .mdp → v.targetSpeed = s
  ladder : c = .mdp → v.speedIndex = Vehicle.speedToIndex G s ∧ v.targetSpeed = Vehicle.indexToSpeed G v.speedIndex

theorem WellFormed.hasLane {g : Graph} (hg : WellFormed g) (hne : g ≠ []) : ∃ a b k l, HasLane g a b k l := by
  obtain ⟨⟨a, d⟩, hnd⟩ := List.exists_mem_of_ne_nil _ hne
  obtain ⟨⟨b, ls⟩, hkl⟩ := List.exists_mem_of_ne_nil _ (hg.nonemptyNode _ hnd)
  obtain ⟨l, hl⟩ := List.exists_mem_of_ne_nil _ (hg.nonemptyEdge _ hnd _ hkl)
  obtain ⟨k, hk⟩ := List.mem_iff_getElem?.1 hl
  exact ⟨a, b, k, l, ls, ⟨d, hnd, hkl⟩, hk⟩

/-- Constructing a vehicle anywhere on a network with at least one lane succeeds; the vehicle is attached to it. -/
theorem mk'_total' (G : Globals) {g : Graph} (hg : WellFormed g) (hne : g ≠ []) (uid : ℕ) (kind : VKind) (p : Vec2) (heading speed : ℝ)
    (lc : Bool) :
    ∃ v, Vehicle.mk' G g uid kind p heading speed (enableLaneChange := lc) = .ok v ∧ Built G uid kind p heading speed v ∧ Attached g v ∧
      v.enableLaneChange = lc ∧ g.getClosestLaneIndex p (some heading) = .ok v.laneIndex := by
  obtain ⟨a, b, k, l, hl⟩ := WellFormed.hasLane hg hne
  obtain ⟨i, hi⟩ := closest_ok_of_exists hl p (some heading)
  obtain ⟨hv, l', hl', _⟩ := Props.closestLane_minimal g hg.toIsPyGraph p _ i hi
  unfold Vehicle.mk'
  simp only [hi, hl', bind, Except.bind]
  refine ⟨_, rfl, ⟨rfl, rfl, rfl, rfl, rfl, rfl, rfl, rfl, rfl, rfl, ?_, ?_⟩, ⟨hv, hl', hv⟩, rfl, rfl⟩
  · intro hk; simp [hk, Lane.optTruthy]
  · intro hk; simp [hk, Lane.optTruthy]

/-- The same with the default permission to change lanes. -/
theorem mk'_total (G : Globals) {g : Graph} (hg : WellFormed g) (hne : g ≠ []) (uid : ℕ) (kind : VKind) (p : Vec2) (heading speed : ℝ) :
    ∃ v, Vehicle.mk' G g uid kind p heading speed = .ok v ∧ Built G uid kind p heading speed v ∧ Attached g v ∧
      g.getClosestLaneIndex p (some heading) = .ok v.laneIndex := by
  obtain ⟨v, h1, h2, h3, _, h5⟩ := mk'_total' G hg hne uid kind p heading speed true
  exact ⟨v, h1, h2, h3, h5⟩

/-- The closest lane, when all other lanes are further away. -/
theorem closest_strict {g : Graph} (hg : WellFormed g) {a b : String} {k : ℕ} {l : Lane} (hl : HasLane g a b k l) {p : Vec2} {h : ℝ}
    (hu : ∀ a' b' k' l', HasLane g a' b' k' l' → l'.distanceWithHeading p (some h) ≤ l.distanceWithHeading p (some h) →
      a' = a ∧ b' = b ∧ k' = k) :
    g.getClosestLaneIndex p (some h) = .ok ⟨a, b, (k : Int)⟩ := by
  obtain ⟨i, hi⟩ := closest_ok_of_exists hl p (some h)
  obtain ⟨⟨k', l', e, hk'⟩, l'', hl'', hmin⟩ := Props.closestLane_minimal g hg.toIsPyGraph p _ i hi
  have e2 := getLane_of_hasLane hg.toIsPyGraph e hk'
  rw [hl''] at e2
  cases e2
  have := hmin ⟨a, b, (k : Int)⟩ l (getLane_of_hasLane hg.toIsPyGraph rfl hl)
  obtain ⟨q1, q2, q3⟩ := hu _ _ _ _ hk' this
  rw [hi]
  obtain ⟨i1, i2, i3⟩ := i
  simp only at q1 q2 e
  rw [q1, q2, e, q3]

/-- The closest lane, when one lane is at distance 0 and no other. -/
theorem closest_unique {g : Graph} (hg : WellFormed g) {a b : String} {k : ℕ} {l : Lane} (hl : HasLane g a b k l) {p : Vec2} {h : ℝ}
    (h0 : l.distanceWithHeading p (some h) = 0)
    (hu : ∀ a' b' k' l', HasLane g a' b' k' l' → l'.distanceWithHeading p (some h) ≤ 0 → a' = a ∧ b' = b ∧ k' = k) :
    g.getClosestLaneIndex p (some h) = .ok ⟨a, b, (k : Int)⟩ :=
  closest_strict hg hl fun a' b' k' l' h1 h2 => hu a' b' k' l' h1 (h0 ▸ h2)

namespace Road

/-- A predicate on vehicles kept by everything that happens on an unregulated road with the given network. -/
structure KeptFree (G : Globals) (g : Graph) (I : Vehicle → Prop) : Prop where
  act : ∀ (r : Road) (v v' : Vehicle) (a : VAction) (rng' : Rng), r.network = g → I v → v.act G r a = .ok (v', rng') → I v'
  step : ∀ (rec : Bool) (dt : ℝ) (v v' : Vehicle), I v → v.step g rec dt = .ok v' → I v'
  collide : ∀ (v : Vehicle) (s : ℝ), I v → |s| ≤ |v.speed| → I { v with speed := s, crashed := true }

theorem KeptFree.actAt {G : Globals} {r r' : Road} {I : Vehicle → Prop} (k : KeptFree G r.network I) {a : VAction} {i : ℕ}
    (h : r.actAt G a i = .ok r') (hI : ∀ v ∈ r.vehicles, I v) : ∀ v ∈ r'.vehicles, I v := by
  unfold Road.actAt at h
  split at h
  · cases h; exact hI
  · rename_i v hv
    obtain ⟨⟨w, rng⟩, hw, h⟩ := bind_ok h
    cases h
    exact forall_set hI (k.act r v w a rng rfl (hI v (List.mem_of_getElem? hv)) hw)

theorem KeptFree.roadAct {G : Globals} {r r' : Road} {I : Vehicle → Prop} (k : KeptFree G r.network I)
    (h : r.act G = .ok r') (hI : ∀ v ∈ r.vehicles, I v) : ∀ v ∈ r'.vehicles, I v := by
  unfold Road.act at h
  have := foldlM_inv (I := fun s : Road => s.network = r.network ∧ ∀ v ∈ s.vehicles, I v) ?_ _ _ _ ⟨rfl, hI⟩ h
  · exact this.2
  · rintro s i s' ⟨h1, h2⟩ hs
    exact ⟨(actAt_frame hs).2.network.trans h1, KeptFree.actAt (h1 ▸ k) hs h2⟩

theorem KeptFree.stepBase {G : Globals} {r r' : Road} {I : Vehicle → Prop} (k : KeptFree G r.network I) {dt : ℝ}
    (h : r.stepBase dt = .ok r') (hI : ∀ v ∈ r.vehicles, I v) : ∀ v ∈ r'.vehicles, I v := by
  refine (stepBase_frame h).1.forall ?_ hI
  rintro v w ⟨u, hu, hb⟩ hv
  have h1 := k.step _ _ _ _ hv hu
  obtain ⟨s, b, rfl, h1', h2, h3⟩ := hb
  rcases h3 with h3 | ⟨_, h3⟩
  · rw [h3]; exact h1
  · have := k.collide u s h1 h1'
    rw [h3]; exact this

theorem KeptFree.run {G : Globals} {r r' : Road} {I : Vehicle → Prop} (k : KeptFree G r.network I) (hr : r.regulated = false)
    (h : RoadRun G r r') (hI : ∀ v ∈ r.vehicles, I v) : r'.network = r.network ∧ r'.regulated = false ∧ ∀ v ∈ r'.vehicles, I v := by
  induction h with
  | refl => exact ⟨rfl, hr, hI⟩
  | tail _ hev ih =>
    obtain ⟨i1, i2, i3⟩ := ih
    refine ⟨(RoadEvent.network hev).trans i1, ?_, ?_⟩
    · rw [← i2]
      cases hev with
      | actAt i a h => exact (Road.actAt_frame h).2.regulated
      | act h => exact (Road.act_frame h).2.regulated
      | step dt h => exact (Road.step_frame h).2.2.2.1
    · rw [← i1] at k
      cases hev with
      | actAt i a h => exact k.actAt h i3
      | act h => exact k.roadAct h i3
      | step dt h =>
        unfold Road.step at h
        rw [i2, if_neg (by simp)] at h
        exact k.stepBase h i3

end Road

/-- Traffic vehicles keep their target speed on unregulated roads. -/
theorem idm_target_kept (G : Globals) (g : Graph) (P : ℝ → Prop) : Road.KeptFree G g (fun v => v.kind.isIDM = true → P v.targetSpeed) where
  act r v v' a rng' e hv h hk := by
    have hb := Vehicle.act_body h
    rw [hb.kind] at hk
    have h2 := Vehicle.act_idm hk h
    by_cases hc : v.crashed = true
    · unfold Vehicle.idmAct at h2
      rw [if_pos hc] at h2
      cases h2; exact hv hk
    · have hc : v.crashed = false := by simpa using hc
      obtain ⟨w, t, tm, st, acc, front, rear, hw, -, -, -, rfl⟩ := Vehicle.idmAct_shape hc h2
      obtain ⟨t', r', rfl⟩ := Vehicle.followRoad_shape hw
      exact hv hk
  step rec dt v v' hv h hk := by
    have hm := Vehicle.step_mind h
    rw [hm.kind] at hk
    rw [hm.targetSpeed]
    exact hv hk
  collide v s hv _ hk := hv hk

end HighwayEnv
