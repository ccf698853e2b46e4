import Verif.Lemmas.Cone
import Verif.Lemmas.Straight
import Verif.Props.Merge
import Mathlib.Analysis.Real.Pi.Bounds
import Mathlib.Analysis.SpecialFunctions.Trigonometric.Bounds

/-!
# C87: lane-following vehicles never turn around
-/

noncomputable section
namespace HighwayEnv.Props
open HighwayEnv Spec Classical Real Graph

/-- All lanes of the map point within `e` of the direction `H`, at every abscissa. -/
def Aligned (g : Graph) (H e : ℝ) : Prop := ∀ a b k l, HasLane g a b k l → ∀ s, |l.headingAt s - H| ≤ e

private theorem Aligned.getLane {g : Graph} (hg : IsPyGraph g) {H e : ℝ} (h : Aligned g H e) {i : LaneIndex} {l : Lane} (hl : g.getLane i = .ok l) (s : ℝ) :
    |l.headingAt s - H| ≤ e := by
  obtain ⟨ls, h1, h2⟩ := (getLane_ok_iff hg).1 hl
  rcases pyIndex_ok_iff.1 h2 with ⟨_, h3⟩ | ⟨_, _, h3⟩
  · exact h _ _ _ l ⟨ls, h1, h3⟩ s
  · exact h _ _ _ l ⟨ls, h1, h3⟩ s

/-- A lane-following vehicle (controlled by high-level actions or by a non-linear traffic model) is heading within `π/4 + e` of `H`. -/
def LooksAlong (H e : ℝ) (v : Vehicle) : Prop := v.kind.isControlled = true → v.kind.isLinear = false → |v.heading - H| ≤ π / 4 + e

/-- **C87.**  On a map whose lanes all point within `e < π/4` of a direction `H`, every lane-following vehicle (controlled by high-level actions
or by a non-linear traffic model) that starts within `π/4 + e` of `H` stays within, for ever: for any number of frames of at most 1/5 s, any
commands, any speeds (backwards too), collisions and regulation. -/
theorem heading_stays (G : Globals) (dt H e : ℝ) (h0 : 0 ≤ dt) (h1 : dt ≤ 1 / 5) (he : e < π / 4) (r r' : Road)
    (hpy : IsPyGraph r.network) (hg : Aligned r.network H e) (cmds : List (List (ℕ × VAction))) (h : frames G dt r cmds = .ok r')
    (hI : ∀ v ∈ r.vehicles, LooksAlong H e v) : ∀ v ∈ r'.vehicles, LooksAlong H e v := by
  have := Road.foldlM_inv (I := fun s : Road => s.network = r.network ∧ ∀ v ∈ s.vehicles, LooksAlong H e v) ?_ _ _ _ ⟨rfl, hI⟩ h
  · exact this.2
  · rintro s c s' ⟨i1, i2⟩ hs
    have k1 : ∀ (t : Road) v a v' rng, t.network = s.network → LooksAlong H e v → v.act G t a = .ok (v', rng) → LooksAlong H e v' := by
      intro t v a v' rng _ hv hact k1 k2
      have hb := Vehicle.act_body hact
      rw [hb.kind] at k1 k2
      rw [hb.heading]
      exact hv k1 k2
    have k2 : ∀ (t : Road) v v' rng, t.network = s.network → LooksAlong H e v → v.act G t .none = .ok (v', rng) →
        LooksAlong H e v' ∧ (v'.kind.isControlled = true → v'.kind.isLinear = false → Steers s.network v') := by
      intro t v v' rng ht hv hact
      refine ⟨k1 t v _ v' rng ht hv hact, fun k1 k2 => ?_⟩
      have hb := Vehicle.act_body hact
      rw [hb.kind] at k1 k2
      rw [← ht]
      exact steers_of_act k1 k2 hact
    have k3 : ∀ v w : Vehicle, Road.SameButYield v w →
        LooksAlong H e v ∧ (v.kind.isControlled = true → v.kind.isLinear = false → Steers s.network v) →
        LooksAlong H e w ∧ (w.kind.isControlled = true → w.kind.isLinear = false → Steers s.network w) := by
      rintro v w hy ⟨hv, hv'⟩
      have hst := fun h => Steers.yield (g := s.network) hy h
      have hb := hy.body
      refine ⟨fun k1 k2 => ?_, fun k1 k2 => ?_⟩ <;> rw [hb.kind] at k1 k2
      · rw [hb.heading]; exact hv k1 k2
      · exact hst (hv' k1 k2)
    have k4 : ∀ v w : Vehicle, LooksAlong H e v ∧ (v.kind.isControlled = true → v.kind.isLinear = false → Steers s.network v) →
        v.step s.network s.recordHistory dt = .ok w → LooksAlong H e w := by
      rintro v w ⟨hv, hv'⟩ hst k1 k2
      have hm := Vehicle.step_mind hst
      rw [hm.kind] at k1 k2
      refine (hv' k1 k2).heading h0 h1 he (by rintro hb; rw [hb] at k1; cases k1) ?_ (hv k1 k2) hst
      intro l hl
      rw [i1] at hl
      exact hg.getLane hpy hl
    obtain ⟨q1, q2, _⟩ := Road.frame_each k1 k2 (fun _ => k3) k4 (fun v t b _ hv => hv) i2 hs
    exact ⟨q2.trans i1, q1⟩

/-- Moving within 45° of `H` with admissible steering is a progress along `H`: the displacement along `H` is a positive share of the distance
driven. -/
theorem moves_forward (dt H : ℝ) (r r' : Road) (h : r.step dt = .ok r') (i : ℕ) (v w : Vehicle) (hv : r.vehicles[i]? = some v)
    (hw : r'.vehicles[i]? = some w) (hk : v.kind ≠ .bicycle) (hh : |v.heading - H| ≤ π / 4) (hs : |v.steering| ≤ π / 3) :
    ∃ c : ℝ, 0 < c ∧ c ≤ 1 ∧ (w.pos.x - v.pos.x) * Real.cos H + (w.pos.y - v.pos.y) * Real.sin H = c * (v.speed * dt) := by
  obtain ⟨hp, _⟩ := Road.step_frame h
  obtain ⟨w', hw', u, hu, x, hx, s, b, hbump, _⟩ := hp.2 i v hv
  rw [hw] at hw'
  injection hw' with hw'
  have hwx : w.pos = x.pos := by rw [hw', hbump]; rfl
  have hb := hu.body
  have hsteer : u.steering = v.steering := by obtain ⟨_, _, _, _, hu⟩ := hu; rw [hu]
  obtain ⟨hpos, _, _⟩ := step_kin (by rw [hb.kind]; exact hk) hx
  have hex0 : executedSteering u = executedSteering v := by unfold executedSteering; rw [hb.crashed, hsteer]
  rw [hex0, hb.pos, hb.speed, hb.heading] at hpos
  rw [hwx]
  set d := Vehicle.slip (executedSteering v) with hd
  have hex : |executedSteering v| ≤ π / 3 := by
    unfold executedSteering
    split
    · rw [abs_zero]; positivity
    · exact hs
  have hsl : |d| < π / 4 := slip_lt hex
  refine ⟨Real.cos (v.heading + d - H), ?_, Real.cos_le_one _, ?_⟩
  · apply Real.cos_pos_of_mem_Ioo
    rw [abs_le] at hh
    rw [abs_lt] at hsl
    constructor <;> linarith [hh.1, hh.2, hsl.1, hsl.2]
  · rw [hpos, Real.cos_sub]
    simp only [Vec2.add_x, Vec2.add_y, Vec2.smul_x, Vec2.smul_y, Vec2.dir]
    ring

/-! ### Maps to which this applies -/

/-- The lanes of the highway all have heading 0. -/
theorem highway_aligned (n : ℕ) (len : ℝ) (hl : 0 < len) : Aligned (straightNet n len) 0 0 := by
  intro a b k l h s
  obtain ⟨_, _, _, rfl⟩ := straightNet_hasLane.1 h
  rw [straightLane_heading hl]; simp

/-- The lanes of the merge environment, ramp included, all point within 1/5 rad (11.5°) of the highway. -/
theorem merge_aligned : Aligned mergeNet 0 (1 / 5) := by
  have flat : ∀ (x0 x1 y : ℝ) (f : Bool) (s : ℝ), x0 < x1 → |(levelLane x0 x1 y f).headingAt s - 0| ≤ 1 / 5 := by
    intro x0 x1 y f s h
    rw [level_heading h]; norm_num
  have ramp : ∀ s, |rampLane.headingAt s - 0| ≤ 1 / 5 := by
    intro s
    have h0 : Lane.straightHeading ⟨150, 11.25⟩ ⟨230, 11.25⟩ = 0 := by
      have := level_heading (x0 := 150) (x1 := 230) (y := 11.25) (f := false) (by norm_num) 0
      exact this
    change |Lane.straightHeading ⟨150, 11.25⟩ ⟨230, 11.25⟩ + Real.arctan (3.25 * (π / 80) * Real.cos (π / 80 * s + π / 2)) - 0| ≤ 1 / 5
    rw [h0, zero_add, sub_zero]
    have hlip : ∀ x : ℝ, |Real.arctan x| ≤ |x| := by
      have pos : ∀ x : ℝ, 0 ≤ x → Real.arctan x ≤ x := by
        intro x hx
        rcases eq_or_lt_of_le hx with rfl | hx
        · simp
        have h1 : 0 < Real.arctan x := by rw [← Real.arctan_zero]; exact Real.arctan_strictMono hx
        have h2 := Real.lt_tan h1 (Real.arctan_lt_pi_div_two x)
        rw [Real.tan_arctan] at h2
        exact h2.le
      intro x
      rcases le_total 0 x with h | h
      · rw [abs_of_nonneg h, abs_of_nonneg (by rw [← Real.arctan_zero]; exact Real.arctan_strictMono.monotone h)]
        exact pos x h
      · rw [abs_of_nonpos h, abs_of_nonpos (by rw [← Real.arctan_zero]; exact Real.arctan_strictMono.monotone h), ← Real.arctan_neg]
        exact pos (-x) (by linarith)
    refine (hlip _).trans ?_
    rw [abs_mul, abs_of_pos (by positivity)]
    have hpi := Real.pi_lt_d2
    have hpp := Real.pi_pos
    calc 3.25 * (π / 80) * |Real.cos (π / 80 * s + π / 2)| ≤ 3.25 * (π / 80) * 1 :=
          mul_le_mul_of_nonneg_left (Real.abs_cos_le_one _) (by positivity)
      _ ≤ 1 / 5 := by norm_num at hpi ⊢; linarith
  intro a b k l h s
  rcases mergeNet_lanes.1 h with ⟨_, _, ⟨_, rfl⟩ | ⟨_, rfl⟩⟩ | ⟨_, _, ⟨_, rfl⟩ | ⟨_, rfl⟩ | ⟨_, rfl⟩⟩ | ⟨_, _, ⟨_, rfl⟩ | ⟨_, rfl⟩⟩ | ⟨_, _, _, rfl⟩ | ⟨_, _, _, rfl⟩
  all_goals first
    | exact ramp s
    | exact flat _ _ _ _ s (by norm_num)

/-- In the merge environment, from any reset, lane-following vehicles never turn around, whatever happens. -/
theorem merge_heading (G : Globals) (cfg : MergeConfig) (hc : MergeOk G cfg) (rng : Rng) (dt : ℝ) (h0 : 0 ≤ dt) (h1 : dt ≤ 1 / 5) :
    ∃ e, Merge.reset G cfg rng = .ok e ∧ ∀ cmds r', frames G dt e.road cmds = .ok r' →
      ∀ v ∈ r'.vehicles, v.kind.isControlled = true → |v.heading| < π / 2 := by
  obtain ⟨e, q1, q2, q3, _, _, _, _, _, q4, q5, _⟩ := merge_reset G cfg hc rng
  refine ⟨e, q1, ?_⟩
  intro cmds r' h v hv hk
  have hp := Real.pi_gt_three
  have hkinds := kinds_run (Road.frames_run h)
  have hlin : v.kind.isLinear = false := by
    have : (v.uid, v.kind) ∈ r'.vehicles.map fun v => (v.uid, v.kind) := List.mem_map.2 ⟨v, hv, rfl⟩
    rw [hkinds] at this
    obtain ⟨u, hu, e1⟩ := List.mem_map.1 this
    have hu' : (u.kind, u.pos, u.speed, u.laneIndex) ∈ mergeTraffic .mdp cfg.otherVehiclesType := by
      rw [← q4]; exact List.mem_map.2 ⟨u, hu, rfl⟩
    rw [Prod.mk.injEq] at e1
    rw [← e1.2]
    have hother : cfg.otherVehiclesType.isLinear = false := by
      rcases hc.traffic with h | h | h <;> rw [h] <;> rfl
    simp only [mergeTraffic, List.mem_cons, Prod.mk.injEq, List.not_mem_nil, or_false] at hu'
    rcases hu' with h | h | h | h | h <;> rw [h.1] <;> first | exact hother | rfl
  have := heading_stays G dt 0 (1 / 5) h0 h1 (by linarith) e.road r' (by rw [q3.network]; exact mergeNet_wf.toIsPyGraph)
    (by rw [q3.network]; exact merge_aligned) cmds h (by
      intro u hu _ _
      rw [(q5 u hu).1]
      rw [sub_zero, abs_zero]; linarith) v hv hk hlin
  rw [sub_zero] at this
  linarith

end HighwayEnv.Props
