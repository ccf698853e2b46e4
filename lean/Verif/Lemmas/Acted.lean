import Verif.Lemmas.Invariant

/-! What one pass of `Road.act` does to each vehicle; shape of the decision of a traffic vehicle. -/

noncomputable section
namespace HighwayEnv
open Classical Spec Graph

namespace Vehicle

theorem followRoad_shape {g : Graph} {rng rng' : Rng} {v v' : Vehicle} (h : v.followRoad g rng = .ok (v', rng')) :
    ∃ t route, v' = { v with targetLane := t, route := route } := by
  unfold followRoad at h
  obtain ⟨l, hl, h⟩ := bind_ok h
  split at h
  · obtain ⟨⟨i, route, rng2⟩, hn, h⟩ := bind_ok h
    cases h; exact ⟨_, _, rfl⟩
  · cases h; exact ⟨_, _, rfl⟩

/-- Folding `considerLane`: the target lane at the end is the initial one or a candidate that was reachable and approved. -/
theorem considerLanes_shape {G : Globals} {r : Road} (sides : List LaneIndex) {v v' : Vehicle}
    (h : sides.foldlM (considerLane G r) v = .ok v') :
    ∃ t, v' = { v with targetLane := t } ∧
      (t = v.targetLane ∨ ∃ t0 l, t ∈ sides ∧ r.network.getLane t = .ok l ∧ l.isReachableFrom v.pos = true ∧
        ({ v with targetLane := t0 } : Vehicle).mobil G r t = .ok true) := by
  induction sides generalizing v with
  | nil => rw [List.foldlM_nil] at h; cases h; exact ⟨_, rfl, .inl rfl⟩
  | cons i sides ih =>
    rw [List.foldlM_cons] at h
    obtain ⟨w, hw, hrest⟩ := bind_ok h
    clear h
    have hw' : w = v ∨ (w = { v with targetLane := i } ∧ ∃ l, r.network.getLane i = .ok l ∧ l.isReachableFrom v.pos = true ∧
        v.mobil G r i = .ok true) := by
      unfold considerLane at hw
      obtain ⟨l, hl, hw⟩ := bind_ok hw
      split at hw
      · rename_i hre
        obtain ⟨ok, hok, hw⟩ := bind_ok hw
        split at hw
        · rename_i hb
          cases hw
          exact .inr ⟨rfl, l, hl, hre, by rw [hok, hb]⟩
        · cases hw; exact .inl rfl
      · cases hw; exact .inl rfl
    rcases hw' with rfl | ⟨rfl, l, hl, hre, hm⟩
    · obtain ⟨t, e, h⟩ := ih hrest
      refine ⟨t, e, h.imp_right ?_⟩
      rintro ⟨t0, l, h1, h2⟩
      exact ⟨t0, l, by simp [h1], h2⟩
    · obtain ⟨t, e, h⟩ := ih hrest
      refine ⟨t, e, ?_⟩
      right
      rcases h with h | ⟨t0, l', h1, h2⟩
      · exact ⟨v.targetLane, l, by simp [h], by rw [h]; exact hl, hre, by rw [h]; exact hm⟩
      · exact ⟨t0, l', by simp [h1], h2⟩

/-- The lane change policy: what it may change, when, and why. -/
theorem changeLanePolicy_shape {G : Globals} {r : Road} {v v' : Vehicle} (h : v.changeLanePolicy G r = .ok v') :
    ∃ t tm, v' = { v with targetLane := t, timer := tm } ∧
      ((tm = v.timer ∧ v.laneIndex ≠ v.targetLane ∧ (t = v.targetLane ∨ t = v.laneIndex)) ∨
       (tm = v.timer ∧ t = v.targetLane) ∨
       (v.laneIndex = v.targetLane ∧ 1 < v.timer ∧ tm = 0 ∧
        (t = v.targetLane ∨ ∃ t0 l sides, r.network.sideLanes v.laneIndex = .ok sides ∧ t ∈ sides ∧ r.network.getLane t = .ok l ∧
          l.isReachableFrom v.pos = true ∧ ({ v with targetLane := t0, timer := 0 } : Vehicle).mobil G r t = .ok true))) := by
  unfold changeLanePolicy at h
  split at h
  · rename_i hne
    split at h
    · split at h
      · cases h; exact ⟨_, _, rfl, .inl ⟨rfl, hne, .inr rfl⟩⟩
      · cases h; exact ⟨_, _, rfl, .inl ⟨rfl, hne, .inl rfl⟩⟩
    · cases h; exact ⟨_, _, rfl, .inl ⟨rfl, hne, .inl rfl⟩⟩
  · rename_i he
    push Not at he
    split at h
    · rename_i ht
      obtain ⟨sides, hs, h⟩ := bind_ok h
      obtain ⟨t, e, hh⟩ := considerLanes_shape sides h
      have ht' : 1 < v.timer := of_decide_eq_true ht
      refine ⟨t, 0, e, .inr (.inr ⟨he, ht', rfl, ?_⟩)⟩
      rcases hh with hh | ⟨t0, l, h1, h2, h3, h4⟩
      · exact .inl hh
      · exact .inr ⟨t0, l, sides, hs, h1, h2, h3, h4⟩
    · cases h; exact ⟨_, _, rfl, .inr (.inl ⟨rfl, rfl⟩)⟩

theorem maybeChangeLane_shape {G : Globals} {r : Road} {v v' : Vehicle} (h : v.maybeChangeLane G r = .ok v') :
    ∃ t tm, v' = { v with targetLane := t, timer := tm } ∧
      ((tm = v.timer ∧ v.laneIndex ≠ v.targetLane ∧ (t = v.targetLane ∨ t = v.laneIndex)) ∨
       (tm = v.timer ∧ t = v.targetLane) ∨
       (v.laneIndex = v.targetLane ∧ 1 < v.timer ∧ tm = 0 ∧
        (t = v.targetLane ∨ ∃ t0 l sides, r.network.sideLanes v.laneIndex = .ok sides ∧ t ∈ sides ∧ r.network.getLane t = .ok l ∧
          l.isReachableFrom v.pos = true ∧ ({ v with targetLane := t0, timer := 0 } : Vehicle).mobil G r t = .ok true))) := by
  unfold maybeChangeLane at h
  split at h
  · exact changeLanePolicy_shape h
  · cases h; exact ⟨_, _, rfl, .inr (.inl ⟨rfl, rfl⟩)⟩

/-- The whole decision of a traffic vehicle that has not crashed. -/
theorem idmAct_shape {G : Globals} {r : Road} {v v' : Vehicle} {rng' : Rng} (hc : v.crashed = false)
    (h : v.idmAct G r = .ok (v', rng')) :
    ∃ w t tm st acc front rear, v.followRoad r.network r.rng = .ok (w, rng') ∧
      r.neighbourVehicles v = .ok (front, rear) ∧ w.maybeChangeLane G r = .ok { w with targetLane := t, timer := tm } ∧
      accelerationOf G { w with targetLane := t, timer := tm } (some (.veh { w with targetLane := t, timer := tm })) front = .ok acc ∧
      v' = { w with targetLane := t, timer := tm, steering := st, acceleration := npClip acc (-6) 6 } := by
  unfold idmAct at h
  rw [if_neg (by simp [hc])] at h
  obtain ⟨⟨front, rear⟩, hf, h⟩ := bind_ok h
  obtain ⟨⟨v1, rng1⟩, h1, h⟩ := bind_ok h
  obtain ⟨v2, h2, h⟩ := bind_ok h
  obtain ⟨st, h3, h⟩ := bind_ok h
  obtain ⟨acc, h4, h⟩ := bind_ok h
  cases h
  obtain ⟨t, tm, e, _⟩ := maybeChangeLane_shape h2
  subst e
  exact ⟨v1, t, tm, _, acc, front, rear, h1, hf, h2, h4, rfl⟩

theorem act_idm {G : Globals} {r : Road} {v v' : Vehicle} {a : VAction} {rng' : Rng} (hk : v.kind.isIDM = true)
    (h : v.act G r a = .ok (v', rng')) : v.idmAct G r = .ok (v', rng') := by
  unfold act at h
  revert hk h
  cases v.kind <;> simp [VKind.isIDM]

theorem move_timer {v : Vehicle} (dt : ℝ) (hk : v.kind.isIDM = true) : (v.move dt).timer = v.timer + dt := by
  unfold move
  rw [if_pos hk]
  dsimp only
  have h : ∀ w : Vehicle, w.clipActions.timer = w.timer := by
    intro w
    unfold clipActions clipActionsBase
    dsimp only
    split_ifs <;> rfl
  split <;> exact h _

theorem step_timer {g : Graph} {rec : Bool} {dt : ℝ} {v v' : Vehicle} (hk : v.kind.isIDM = true) (h : v.step g rec dt = .ok v') :
    v'.timer = v.timer + dt := by
  obtain ⟨i, l, hist, _, _, rfl⟩ := step_ok h
  exact move_timer dt hk

end Vehicle

namespace Road

/-- One vehicle's decision inside `Road.act`: it is taken on a road with the same scene and bodies. -/
def Acted (G : Globals) (r : Road) (v v' : Vehicle) : Prop :=
  ∃ s rng, SameScene r s ∧ Pointwise SameBody r.vehicles s.vehicles ∧ v.act G s .none = .ok (v', rng)

private theorem act_prefix {G : Globals} {r : Road} (n : ℕ) {r' : Road}
    (h : (List.range n).foldlM (actAt G .none) r = .ok r') :
    SameScene r r' ∧ Pointwise SameBody r.vehicles r'.vehicles ∧
    (∀ i, n ≤ i → r'.vehicles[i]? = r.vehicles[i]?) ∧
    (∀ i v, i < n → r.vehicles[i]? = some v → ∃ w, r'.vehicles[i]? = some w ∧ Acted G r v w) := by
  induction n generalizing r' with
  | zero =>
    simp only [List.range_zero] at h
    rw [List.foldlM_nil] at h
    cases h
    exact ⟨⟨rfl, rfl, rfl, rfl, rfl⟩, .refl' SameBody.refl _, fun _ _ => rfl, fun i v hi => absurd hi (by omega)⟩
  | succ n ih =>
    rw [List.range_succ, List.foldlM_append] at h
    obtain ⟨s, hs, h⟩ := bind_ok h
    obtain ⟨h1, h2, h3, h4⟩ := ih hs
    rw [List.foldlM_cons] at h
    obtain ⟨s', hs', h⟩ := bind_ok h
    rw [List.foldlM_nil] at h
    cases h
    obtain ⟨f1, f2⟩ := actAt_frame hs'
    refine ⟨h1.trans f2, Pointwise.comp (R := SameBody) SameBody.trans h2 f1, ?_, ?_⟩
    · intro i hi
      rw [← h3 i (by omega)]
      unfold actAt at hs'
      split at hs'
      · cases hs'; rfl
      · obtain ⟨⟨w, rng⟩, hw, hs'⟩ := bind_ok hs'
        cases hs'
        exact List.getElem?_set_ne (by omega)
    · intro i v hi hv
      rcases Nat.lt_succ_iff_lt_or_eq.1 hi with hi | rfl
      · obtain ⟨w, hw, ha⟩ := h4 i v hi hv
        refine ⟨w, ?_, ha⟩
        rw [← hw]
        unfold actAt at hs'
        split at hs'
        · cases hs'; rfl
        · obtain ⟨⟨w', rng⟩, hw', hs'⟩ := bind_ok hs'
          cases hs'
          exact List.getElem?_set_ne (by omega)
      · have hvi := h3 i le_rfl
        rw [hv] at hvi
        unfold actAt at hs'
        rw [hvi] at hs'
        obtain ⟨⟨w', rng⟩, hw', hs'⟩ := bind_ok hs'
        cases hs'
        refine ⟨w', ?_, s, rng, h1, h2, hw'⟩
        have hlt := (List.getElem?_eq_some_iff.1 hvi).1
        exact List.getElem?_set_self hlt

/-- `Road.act` applies each vehicle's decision exactly once. -/
theorem act_acted {G : Globals} {r r' : Road} (h : r.act G = .ok r') : Pointwise (Acted G r) r.vehicles r'.vehicles := by
  unfold act at h
  obtain ⟨_, h2, _, h4⟩ := act_prefix _ h
  refine ⟨h2.1, fun i v hv => h4 i v ?_ hv⟩
  exact (List.getElem?_eq_some_iff.1 hv).1

end Road
end HighwayEnv
