import Verif.Lemmas.MirrorMind
import Verif.Spec.Quarter
import Verif.Props.Cone
import Verif.Props.Merge
import Verif.Props.Highway
import Verif.Lemmas.Level
import Verif.Lemmas.Num
import Verif.Props.EnvSafe

/-!
# C121 — driving in a mirror

The scene reflected in the axis of abscissas, driven with the same accelerations and the opposite steering.
-/

noncomputable section
open Classical
namespace HighwayEnv.Props
open HighwayEnv Spec

private theorem road_in {r : Road} {L : Set Lane} {P : Set Vec2} (hL : ∀ l, LaneOf r l → l ∈ L) (hP : ∀ p, Occupied r p → p ∈ P)
    (hd : ∀ v ∈ r.vehicles, Decided L v) : RM P L r :=
  ⟨fun nd hnd ml hml l hl => hL l (.inl ⟨nd, hnd, ml, hml, hl⟩), fun v hv => ⟨hP _ (.inl ⟨v, hv, rfl⟩), hL _ (.inr ⟨v, hv, rfl⟩), hd v hv⟩,
    fun o ho => hP _ (.inr ⟨o, ho, rfl⟩)⟩

private theorem frame_m {P : Set Vec2} {L : Set Lane} (hPL : ∀ l ∈ L, ∀ p ∈ P, HasImage l p) {G : Globals} {dt : ℝ} {r r' : Road}
    {cmds : List (ℕ × VAction)} (hr : RM P L r) (hn : ∀ v ∈ r'.vehicles, v.pos ∈ P) (h : frame G dt r cmds = .ok r') :
    frame G dt r.mirror (cmds.map fun c => (c.1, c.2.mirror)) = .ok r'.mirror := by
  unfold frame at h
  obtain ⟨s1, h1, h⟩ := bind_ok h
  obtain ⟨s2, h2, h⟩ := bind_ok h
  have i1 := Road.commands_mem hr h1
  have i2 := Road.act_mem i1 h2
  unfold frame
  have e1 := Road.commands_m hPL G cmds hr
  rw [h1] at e1
  have e2 := Road.act_m hPL G i1
  rw [h2] at e2
  rw [e1]
  show (do let r ← s1.mirror.act G; r.step dt) = _
  rw [e2]
  exact Road.step_m hPL i2 h hn

/-- **C121, one frame.** If a frame leads from `r` to `r'`, then the reflected commands (the same decisions and accelerations, the opposite
steering) lead from the reflected `r` to the reflected `r'` — same speeds, lanes, targets, crashes and random draws; positions, headings and
steering reflected — provided that everything on these roads has an image along the lanes, and that no vehicle is a dynamic bicycle or
(if it has a lane controller) faces exactly backwards on a lane. -/
theorem mirrored_frame (G : Globals) (dt : ℝ) (r r' : Road) (cmds : List (ℕ × VAction)) (h : frame G dt r cmds = .ok r')
    (hd : ∀ v ∈ r.vehicles, Decided {l | LaneOf r l} v) (hp : ∀ l p, LaneOf r l → Occupied r p ∨ Occupied r' p → HasImage l p) :
    frame G dt r.mirror (cmds.map fun c => (c.1, c.2.mirror)) = .ok r'.mirror :=
  frame_m (P := {p | Occupied r p ∨ Occupied r' p}) (L := {l | LaneOf r l}) (fun l hl p hpp => hp l p hl hpp)
    (road_in (fun _ h => h) (fun _ h => .inl h) hd) (fun v hv => .inr (.inl ⟨v, hv, rfl⟩)) h

/-- **C121.** A run of `n` frames, under the same two conditions on the states it goes through, goes through the reflected states in the mirror. -/
theorem mirrored_run (G : Globals) (dt : ℝ) (n : ℕ) (s : ℕ → Road) (cmds : ℕ → List (ℕ × VAction))
    (h : ∀ t < n, frame G dt (s t) (cmds t) = .ok (s (t + 1))) (hd : ∀ t < n, ∀ v ∈ (s t).vehicles, Decided {l | LaneOf (s t) l} v)
    (hp : ∀ t < n, ∀ l p, LaneOf (s t) l → Occupied (s t) p ∨ Occupied (s (t + 1)) p → HasImage l p) :
    ∀ t < n, frame G dt (s t).mirror ((cmds t).map fun c => (c.1, c.2.mirror)) = .ok (s (t + 1)).mirror :=
  fun t ht => mirrored_frame G dt _ _ _ (h t ht) (hd t ht) (hp t ht)

/-- What a frame keeps. -/
theorem frame_keeps {G : Globals} {dt : ℝ} {r r' : Road} {cmds : List (ℕ × VAction)} (h : frame G dt r cmds = .ok r') :
    r'.network = r.network ∧ (∀ w ∈ r'.vehicles, (∃ v ∈ r.vehicles, w.kind = v.kind) ∧ ∃ i, r.network.getLane i = .ok w.lane) := by
  unfold frame at h
  obtain ⟨s1, h1, h⟩ := bind_ok h
  obtain ⟨s2, h2, h⟩ := bind_ok h
  have b1 : Pointwise SameBody r.vehicles s1.vehicles ∧ Road.SameScene r s1 := by
    refine Vehicle.foldlM_rel (R := fun r r' : Road => Pointwise SameBody r.vehicles r'.vehicles ∧ Road.SameScene r r') ?_ ?_ ?_ _ _ _ h1
    · exact fun b => ⟨.refl' SameBody.refl _, rfl, rfl, rfl, rfl, rfl⟩
    · exact fun a b c h1 h2 => ⟨Pointwise.comp (R := SameBody) SameBody.trans h1.1 h2.1, h1.2.trans h2.2⟩
    · exact fun b a b' h => Road.actAt_frame h
  have b2 := Road.act_frame h2
  have hs := b1.2.trans b2.2
  have hb := Pointwise.comp (R := SameBody) SameBody.trans b1.1 b2.1
  obtain ⟨f1, f2, -⟩ := Road.step_frame h
  refine ⟨f2.trans hs.network, fun w hw => ?_⟩
  obtain ⟨i, hi⟩ := List.getElem?_of_mem hw
  have hlt : i < s2.vehicles.length := by rw [← f1.1]; exact (List.getElem?_eq_some_iff.1 hi).1
  have hlt' : i < r.vehicles.length := by rw [← hb.1]; exact hlt
  obtain ⟨w', hw', y, hy, x, hx, b, c, rfl, -⟩ := f1.2 i _ (List.getElem?_eq_getElem hlt)
  rw [hi] at hw'
  cases hw'
  obtain ⟨u, hu, hsame⟩ := hb.2 i _ (List.getElem?_eq_getElem hlt')
  rw [List.getElem?_eq_getElem hlt] at hu
  cases hu
  obtain ⟨j, l, hist, -, hl, rfl⟩ := Vehicle.step_ok hx
  refine ⟨⟨_, List.getElem_mem hlt', ?_⟩, j, by rw [← hs.network]; exact hl⟩
  exact Eq.trans (Vehicle.move_mind y _).kind (hy.body.kind.trans hsame.kind)

private theorem run_m {L : Set Lane} (hL : ∀ l ∈ L, ∀ p, HasImage l p) (G : Globals) (dt : ℝ) (r r' : Road) (cmds : List (List (ℕ × VAction)))
    (I : Road → Prop) (hI : ∀ s c s', I s → frame G dt s c = .ok s' → I s') (hd : ∀ s, I s → ∀ v ∈ s.vehicles, Decided L v)
    (hr : I r) (hl : ∀ l, LaneOf r l → l ∈ L) (h : frames G dt r cmds = .ok r') :
    frames G dt r.mirror (cmds.map fun cs => cs.map fun c => (c.1, c.2.mirror)) = .ok r'.mirror := by
  unfold frames at h ⊢
  induction cmds generalizing r with
  | nil => cases h; rfl
  | cons c cs ih =>
    rw [List.foldlM_cons] at h
    obtain ⟨s, h1, h⟩ := bind_ok h
    rw [List.map_cons, List.foldlM_cons,
      frame_m (P := Set.univ) (fun l hl p _ => hL l hl p) (road_in hl (fun _ _ => trivial) (hd r hr)) (fun _ _ => trivial) h1]
    refine ih s (hI _ _ _ hr h1) ?_ h
    obtain ⟨f1, f2⟩ := frame_keeps h1
    rintro l (hl' | ⟨w, hw, rfl⟩)
    · exact hl l (.inl (by rw [← f1]; exact hl'))
    · obtain ⟨i, hi⟩ := (f2 w hw).2
      exact Graph.getLane_in (fun nd hnd ml hml l hl' => hl l (.inl ⟨nd, hnd, ml, hml, hl'⟩)) hi

private theorem image_of_line {l : Lane} (h : ∃ a b : Vec2, a ≠ b ∧ (l.shape = .straight a b ∨ ∃ amp w ph, l.shape = .sine a b amp w ph)) (p : Vec2) :
    HasImage l p := by
  obtain ⟨a, b, hab, hs | ⟨amp, w, ph, hs⟩⟩ := h <;> (unfold HasImage; rw [hs]; exact hab)

/-- **C121, vehicles driven by commands.** Any number of frames, on a road whose lanes are straight or sinusoidal, without any condition on the run. -/
theorem mirrored_world (G : Globals) (dt : ℝ) (r r' : Road) (cmds : List (List (ℕ × VAction))) (hk : AllPlain r)
    (hl : ∀ l, LaneOf r l → ∃ a b : Vec2, a ≠ b ∧ (l.shape = .straight a b ∨ ∃ amp w ph, l.shape = .sine a b amp w ph))
    (h : frames G dt r cmds = .ok r') :
    frames G dt r.mirror (cmds.map fun cs => cs.map fun c => (c.1, c.2.mirror)) = .ok r'.mirror := by
  refine run_m (L := {l | ∀ p, HasImage l p}) (fun l hl => hl) G dt r r' cmds AllPlain ?_ ?_ hk (fun l h p => image_of_line (hl l h) p) h
  · intro s c s' hs h1 w hw
    obtain ⟨⟨v, hv, e⟩, -⟩ := (frame_keeps h1).2 w hw
    exact e.trans (hs v hv)
  · intro s hs v hv
    refine ⟨fun hc => ?_, fun hc => ?_⟩
    · rw [hs v hv] at hc
      cases hc
    · rw [hs v hv] at hc
      cases hc

/-- A vehicle heading within `π/4 + e` of a direction from which no lane deviates by more than `e < π/4` is not facing backwards. -/
theorem looksAlong_decided {L : Set Lane} {H e : ℝ} (he : e < Real.pi / 4) (hL : ∀ l ∈ L, ∀ s, |l.headingAt s - H| ≤ e) {v : Vehicle}
    (hb : v.kind ≠ .bicycle) (hlin : v.kind.isLinear = false) (hv : LooksAlong H e v) : Decided L v := by
  refine ⟨hb, fun hc l hl => ?_⟩
  rintro ⟨k, hk⟩
  have hpi := Real.pi_pos
  have h1 := abs_le.1 (hv hc hlin)
  unfold aim at hk
  rw [if_neg (by rw [hlin]; simp)] at hk
  have h2 := abs_le.1 (hL l hl ((l.localCoordinates v.pos).1 + v.speed * (1 / 10)))
  have h3 := npClip_mem (x := Real.arcsin (npClip (-(5 / 3) * (l.localCoordinates v.pos).2 / notZero v.speed) (-1) 1))
    (show -Real.pi / 4 ≤ Real.pi / 4 by linarith)
  generalize npClip (Real.arcsin (npClip (-(5 / 3) * (l.localCoordinates v.pos).2 / notZero v.speed) (-1) 1)) (-Real.pi / 4) (Real.pi / 4) = c at hk h3
  generalize l.headingAt ((l.localCoordinates v.pos).1 + v.speed * (1 / 10)) = x at hk h2
  have b1 : Real.pi + 2 * Real.pi * k < Real.pi := by rw [← hk]; linarith [h3.2]
  have b2 : -Real.pi < Real.pi + 2 * Real.pi * k := by rw [← hk]; linarith [h3.1]
  have k1 : (k : ℝ) < 0 := by nlinarith
  have k2 : (-1 : ℝ) < k := by nlinarith
  have k1' : k < 0 := by exact_mod_cast k1
  have k2' : -1 < k := by exact_mod_cast k2
  omega

/-- **C121, traffic.** On a road whose lanes are straight or sinusoidal and all point within `e < π/4` of a direction `H`, with vehicles that
are neither dynamic bicycles nor linear-model vehicles and of which those with a controller start within `π/4 + e` of `H`, any run of any number
of frames of at most 1/5 s — decisions of the agents and of the traffic, lane changes, collisions, regulation — is reflected. -/
theorem mirrored_traffic (G : Globals) (dt H e : ℝ) (h0 : 0 ≤ dt) (h1 : dt ≤ 1 / 5) (he : e < Real.pi / 4) (r r' : Road)
    (cmds : List (List (ℕ × VAction))) (hpy : IsPyGraph r.network)
    (hl : ∀ l, LaneOf r l → (∃ a b : Vec2, a ≠ b ∧ (l.shape = .straight a b ∨ ∃ amp w ph, l.shape = .sine a b amp w ph)) ∧ ∀ s, |l.headingAt s - H| ≤ e)
    (hk : ∀ v ∈ r.vehicles, v.kind ≠ .bicycle ∧ v.kind.isLinear = false) (hv : ∀ v ∈ r.vehicles, LooksAlong H e v)
    (h : frames G dt r cmds = .ok r') :
    frames G dt r.mirror (cmds.map fun cs => cs.map fun c => (c.1, c.2.mirror)) = .ok r'.mirror := by
  refine run_m (L := {l | (∀ p, HasImage l p) ∧ ∀ s, |l.headingAt s - H| ≤ e}) (fun l hl => hl.1) G dt r r' cmds
    (fun s => s.network = r.network ∧ ∀ v ∈ s.vehicles, (v.kind ≠ .bicycle ∧ v.kind.isLinear = false) ∧ LooksAlong H e v) ?_ ?_
    ⟨rfl, fun v hv' => ⟨hk v hv', hv v hv'⟩⟩ (fun l h => ⟨image_of_line (hl l h).1, (hl l h).2⟩) h
  · rintro s c s' ⟨hn, hs⟩ hf
    obtain ⟨f1, f2⟩ := frame_keeps hf
    refine ⟨f1.trans hn, fun w hw => ⟨?_, ?_⟩⟩
    · obtain ⟨⟨v, hv', e⟩, -⟩ := f2 w hw
      rw [e]
      exact (hs v hv').1
    · refine heading_stays G dt H e h0 h1 he s s' (by rw [hn]; exact hpy) ?_ [c] ?_ (fun v hv' => (hs v hv').2) w hw
      · rw [hn]
        rintro a b k l ⟨ls, ⟨d, e1, e3⟩, e2⟩ x
        exact (hl l (.inl ⟨_, e1, _, e3, List.mem_of_getElem? e2⟩)).2 x
      · simp only [frames, List.foldlM_cons, List.foldlM_nil, hf, bind, Except.bind, pure, Except.pure]
  · rintro s ⟨-, hs⟩ v hv'
    exact looksAlong_decided he (fun l hl => hl.2) (hs v hv').1.1 (hs v hv').1.2 (hs v hv').2

theorem mirror_lane_of {r : Road} (hh : Healthy r) {l : Lane} (h : LaneOf r l) : ∃ a b k, HasLane r.network a b k l := by
  rcases h with ⟨nd, hnd, ml, hml, hl⟩ | ⟨v, hv, rfl⟩
  · obtain ⟨k, hk⟩ := List.getElem?_of_mem hl
    exact ⟨nd.1, ml.1, k, ml.2, ⟨nd.2, hnd, hml⟩, hk⟩
  · obtain ⟨ls, h2, h3⟩ := (Graph.getLane_ok_iff hh.wf.toIsPyGraph).1 (hh.attached v hv).1.lane
    rcases pyIndex_ok_iff.1 h3 with ⟨_, h4⟩ | ⟨_, _, h4⟩
    · exact ⟨_, _, _, ls, h2, h4⟩
    · exact ⟨_, _, _, ls, h2, h4⟩

/-- **C121, highway.** From any reset of the highway environment whose vehicles are neither dynamic bicycles nor linear-model vehicles,
whatever the commands and for any number of frames: the mirrored scene goes through the mirrored states. -/
theorem mirrored_highway (G : Globals) (cfg : HighwayConfig) (hc : HighwayOk cfg)
    (hk : ∀ k, k = cfg.sim.action.agent.vehicleClass ∨ k = cfg.otherVehiclesType → k ≠ .bicycle ∧ k.isLinear = false) (rng : Rng) (dt : ℝ)
    (h0 : 0 ≤ dt) (h1 : dt ≤ 1 / 5) : ∃ e, Highway.reset G cfg rng = .ok e ∧ ∀ cmds r', frames G dt e.road cmds = .ok r' →
      frames G dt e.road.mirror (cmds.map fun cs => cs.map fun c => (c.1, c.2.mirror)) = .ok r'.mirror := by
  obtain ⟨e, q1, q2, q3, _, _, _, _, _, _, q4, _⟩ := highway_reset G cfg hc rng
  refine ⟨e, q1, fun cmds r' h => ?_⟩
  have hp := Real.pi_gt_three
  have hlt : (0 : ℝ) < 10000 := by norm_num
  refine mirrored_traffic G dt 0 0 h0 h1 (by linarith) e.road r' cmds q2.healthy.wf.toIsPyGraph ?_ ?_ ?_ h
  · intro l hl
    obtain ⟨a, b, k, hk⟩ := mirror_lane_of q2.healthy hl
    rw [q3] at hk
    refine ⟨?_, highway_aligned _ _ hlt a b k l hk⟩
    obtain ⟨_, _, _, rfl⟩ := straightNet_hasLane.1 hk
    exact ⟨_, _, fun he => by have := congrArg Vec2.x he; norm_num at this, .inl rfl⟩
  · intro v hv
    obtain ⟨i, hi⟩ := List.getElem?_of_mem hv
    obtain ⟨_, _, _, c1, c2⟩ := q4 i v hi
    rcases lt_or_ge i cfg.controlledVehicles with hlt | hge
    · rw [(c1 hlt).1]; exact hk _ (.inl rfl)
    · rw [(c2 hge).1]; exact hk _ (.inr rfl)
  · intro v hv _ _
    obtain ⟨i, hi⟩ := List.getElem?_of_mem hv
    rw [(q4 i v hi).2.1.heading, sub_zero, abs_zero]
    linarith

/-- All lanes of the merge road are straight or sinusoidal. -/
theorem merge_lines (a b : String) (k : ℕ) (l : Lane) (hl : HasLane mergeNet a b k l) :
    ∃ a b : Vec2, a ≠ b ∧ (l.shape = .straight a b ∨ ∃ amp w ph, l.shape = .sine a b amp w ph) := by
  have lev : ∀ (x0 x1 y : ℝ) (f : Bool), x0 ≠ x1 →
      (∃ a b : Vec2, a ≠ b ∧ ((levelLane x0 x1 y f).shape = .straight a b ∨ ∃ amp w ph, (levelLane x0 x1 y f).shape = .sine a b amp w ph)) :=
    fun x0 x1 y f hx => ⟨_, _, fun he => hx (congrArg Vec2.x he), .inl rfl⟩
  rcases mergeNet_lanes.1 hl with ⟨_, _, ⟨_, rfl⟩ | ⟨_, rfl⟩⟩ | ⟨_, _, ⟨_, rfl⟩ | ⟨_, rfl⟩ | ⟨_, rfl⟩⟩ | ⟨_, _, ⟨_, rfl⟩ | ⟨_, rfl⟩⟩ |
    ⟨_, _, _, rfl⟩ | ⟨_, _, _, rfl⟩
  all_goals first
    | exact lev _ _ _ _ (by norm_num)
    | exact ⟨_, _, fun he => by have := congrArg Vec2.x he; norm_num at this, .inr ⟨_, _, _, rfl⟩⟩

/-- **C121, merge.** From any reset of the merge environment with driver-model or uncontrolled traffic, whatever the commands and for any number
of frames: the mirrored scene — the access on the left — goes through the mirrored states. -/
theorem mirrored_merge (G : Globals) (cfg : MergeConfig) (hc : MergeOk G cfg) (hb : cfg.otherVehiclesType ≠ .bicycle) (rng : Rng) (dt : ℝ)
    (h0 : 0 ≤ dt) (h1 : dt ≤ 1 / 5) : ∃ e, Merge.reset G cfg rng = .ok e ∧ ∀ cmds r', frames G dt e.road cmds = .ok r' →
      frames G dt e.road.mirror (cmds.map fun cs => cs.map fun c => (c.1, c.2.mirror)) = .ok r'.mirror := by
  obtain ⟨e, q1, q2, q3, _, _, _, _, _, q4, q5, _⟩ := merge_reset G cfg hc rng
  refine ⟨e, q1, fun cmds r' h => ?_⟩
  have hp := Real.pi_gt_three
  refine mirrored_traffic G dt 0 (1 / 5) h0 h1 (by linarith) e.road r' cmds (by rw [q3.network]; exact mergeNet_wf.toIsPyGraph) ?_ ?_ ?_ h
  · intro l hl
    obtain ⟨a, b, k, hk⟩ := mirror_lane_of q2.healthy hl
    rw [q3.network] at hk
    exact ⟨merge_lines a b k l hk, merge_aligned a b k l hk⟩
  · intro v hv
    have hu : (v.kind, v.pos, v.speed, v.laneIndex) ∈ mergeTraffic .mdp cfg.otherVehiclesType := by
      rw [← q4]; exact List.mem_map.2 ⟨v, hv, rfl⟩
    have hother : cfg.otherVehiclesType ≠ .bicycle ∧ cfg.otherVehiclesType.isLinear = false :=
      ⟨hb, by rcases hc.traffic with h | h | h <;> rw [h] <;> rfl⟩
    simp only [mergeTraffic, List.mem_cons, Prod.mk.injEq, List.not_mem_nil, or_false] at hu
    rcases hu with h | h | h | h | h <;> rw [h.1] <;> first | exact hother | exact ⟨(by decide : VKind.mdp ≠ VKind.bicycle), rfl⟩
  · intro u hu _ _
    rw [(q5 u hu).1, sub_zero, abs_zero]
    linarith

/-- What the reflected road consists of: the same vehicles with the same speeds, lanes and crashes, reflected positions and headings. -/
theorem mirrored_vehicles (r : Road) : r.mirror.vehicles.length = r.vehicles.length ∧
    ∀ (i : ℕ) (v : Vehicle), r.vehicles[i]? = some v → ∃ w, r.mirror.vehicles[i]? = some w ∧ w.pos = ⟨v.pos.x, -v.pos.y⟩ ∧ w.heading = -v.heading ∧
      w.speed = v.speed ∧ w.laneIndex = v.laneIndex ∧ w.crashed = v.crashed ∧ w.steering = -v.steering ∧ w.acceleration = v.acceleration := by
  refine ⟨List.length_map _, fun i v hv => ⟨v.mirror, ?_, rfl, rfl, rfl, rfl, rfl, rfl, rfl⟩⟩
  show (r.vehicles.map Vehicle.mirror)[i]? = _
  rw [List.getElem?_map, hv]
  rfl

/-- **C121, lanes.** The reflected lane has the reflected points; a point with an image along the lane has the same longitudinal coordinate and the
opposite lateral coordinate. -/
theorem mirrored_lane (l : Lane) (s d : ℝ) (p : Vec2) (h : HasImage l p) : l.mirror.length = l.length ∧
    l.mirror.position s (-d) = (l.position s d).mirror ∧ l.mirror.localCoordinates p.mirror = ((l.localCoordinates p).1, -(l.localCoordinates p).2) :=
  ⟨Lane.length_m l, Lane.position_m l s d, Lane.localCoordinates_m h⟩

/-- **C121, the exception.** A vehicle exactly opposite the start of a circular lane of radius 1 has the same longitudinal coordinate `-π` on the
reflected lane of the other sense only up to a whole turn: there it is `π`. -/
theorem mirrored_opposite : ∃ l : Lane, ¬ HasImage l ⟨-1, 0⟩ ∧ (l.localCoordinates ⟨-1, 0⟩).1 = -Real.pi ∧ (l.mirror.localCoordinates (Vec2.mirror ⟨-1, 0⟩)).1 = Real.pi := by
  have hw : wrapToPi Real.pi = -Real.pi := by
    have h1 : -Real.pi < Real.pi := by linarith [Real.pi_pos]
    exact (wrapToPi_unique (x := Real.pi) le_rfl h1 (-1) (by push_cast; ring)).symm
  have ha : arctan2 0 (-1) = Real.pi := by
    unfold arctan2
    rw [show ((⟨-1, 0⟩ : ℂ)) = -1 from by apply Complex.ext <;> simp]
    exact Complex.arg_neg_one
  refine ⟨{ shape := .circular ⟨0, 0⟩ 1 0 3 true }, fun h => ?_, ?_, ?_⟩
  · have h' : ∀ x : ℝ, 0 ≤ x → (⟨-1, 0⟩ : Vec2) ≠ ⟨0, 0⟩ - x • Vec2.dir 0 := h
    apply h' 1 (by norm_num)
    ext <;> simp [Vec2.dir]
  · simp [Lane.localCoordinates, ha, hw, Lane.circDir]
  · simp [Lane.localCoordinates, Lane.mirror, LaneShape.mirror, Vec2.mirror, ha, hw, Lane.circDir]

/-- **C121, why vehicles with a controller are excepted.** A vehicle facing exactly backwards on the axis of its lane steers to the same side in the
world and in its mirror. -/
theorem mirrored_backwards : ∃ (v : Vehicle) (l : Lane), v.steeringToLane l < 0 ∧ v.mirror.steeringToLane l.mirror = v.steeringToLane l := by
  have hw : wrapToPi (-Real.pi) = -Real.pi := wrapToPi_of_mem le_rfl (by linarith [Real.pi_pos])
  have hw' : wrapToPi Real.pi = -Real.pi := by
    have h1 : -Real.pi < Real.pi := by linarith [Real.pi_pos]
    exact (wrapToPi_unique (x := Real.pi) le_rfl h1 (-1) (by push_cast; ring)).symm
  let v : Vehicle := { Sample.car 0 .mdp 50 0 10 with heading := Real.pi }
  have hm : (levelLane 0 100 0 false).mirror = levelLane 0 100 0 false := by
    simp [levelLane, Lane.mirror, LaneShape.mirror, Vec2.mirror]
  have hs : ∀ u : Vehicle, u.pos = ⟨50, 0⟩ → u.speed = 10 → wrapToPi (-u.heading) = -Real.pi →
      u.steeringToLane (levelLane 0 100 0 false) = npClip (Real.arcsin (-1)) (-Vehicle.MAX_STEERING_ANGLE) Vehicle.MAX_STEERING_ANGLE := by
    intro u hp hsp hh
    have hc : (levelLane 0 100 0 false).localCoordinates u.pos = (50, 0) := by rw [level_local (by norm_num), hp]; norm_num
    have hz : notZero u.speed = 10 := by rw [hsp]; unfold notZero; rw [if_pos (by norm_num [abs_of_pos])]
    have h0 : npClip (0 : ℝ) (-1) 1 = 0 := npClip_of_mem (by norm_num) (by norm_num)
    have h0' : npClip (0 : ℝ) (-Real.pi / 4) (Real.pi / 4) = 0 := npClip_of_mem (by linarith [Real.pi_pos]) (by linarith [Real.pi_pos])
    unfold Vehicle.steeringToLane
    simp only [hc, level_heading (y := 0) (f := false) (by norm_num : (0 : ℝ) < 100), hz, mul_zero, zero_div, h0, Real.arcsin_zero, h0', add_zero, zero_sub, hh]
    rw [npClip_of_le (a := -1) _ (by norm_num)]
    unfold Vehicle.LENGTH Vehicle.KP_HEADING
    nlinarith [Real.two_le_pi]
  have e1 := hs v rfl rfl hw
  refine ⟨v, levelLane 0 100 0 false, ?_, ?_⟩
  · rw [e1, Real.arcsin_neg_one]
    unfold npClip Vehicle.MAX_STEERING_ANGLE
    have := Real.pi_pos
    exact lt_of_le_of_lt (min_le_left _ _) (max_lt (by linarith) (by linarith))
  · rw [hm, e1]
    exact hs v.mirror (by show Vec2.mirror ⟨50, 0⟩ = _; simp [Vec2.mirror]) rfl (by show wrapToPi (- -Real.pi) = _; rw [neg_neg, hw'])

private theorem sample_lanes {vs : List Vehicle} {b : Bool} (hv : ∀ v ∈ vs, ∃ k, v.lane = Sample.lane k) {l : Lane}
    (hl : LaneOf { network := Sample.net, rng := ⟨fun _ => 0, fun _ => 0, 0, 0⟩, regulated := b, vehicles := vs } l) : ∃ k, l = Sample.lane k := by
  rcases hl with ⟨nd, hnd, ml, hml, hl⟩ | ⟨v, hv', rfl⟩
  · simp only [Sample.net, List.mem_cons, List.not_mem_nil, or_false] at hnd
    subst hnd
    simp only [List.mem_cons, List.not_mem_nil, or_false] at hml
    subst hml
    simp only [List.mem_cons, List.not_mem_nil, or_false] at hl
    rcases hl with rfl | rfl <;> exact ⟨_, rfl⟩
  · exact hv v hv'

private theorem sample_line (k : ℕ) : (∃ a b : Vec2, a ≠ b ∧ ((Sample.lane k).shape = .straight a b ∨ ∃ amp w ph, (Sample.lane k).shape = .sine a b amp w ph)) ∧
    ∀ s, |(Sample.lane k).headingAt s - 0| ≤ 0 := by
  refine ⟨⟨_, _, fun he => ?_, .inl rfl⟩, fun s => ?_⟩
  · have := congrArg Vec2.x he
    norm_num at this
  · have e : (Sample.lane k).headingAt s = 0 := level_heading (x0 := 0) (x1 := 100) (y := 4 * k) (f := false) (by norm_num) s
    rw [e]
    simp

/-- Non-vacuity of C121: on the two-lane sample road, a plain vehicle steered to the left while accelerating for a frame, in the world and
steered to the right in its mirror. -/
example : ∃ r r' : Road, AllPlain r ∧ (∃ v ∈ r.vehicles, v.speed = 20) ∧ frames {} (1 / 15) r [[(0, .control (1 / 10) 1)]] = .ok r' ∧
    frames {} (1 / 15) r.mirror [[(0, .control (-(1 / 10)) 1)]] = .ok r'.mirror := by
  let v : Vehicle := Sample.car 0 .plain 10 0 20
  let r : Road := { network := Sample.net, rng := ⟨fun _ => 0, fun _ => 0, 0, 0⟩, vehicles := [v] }
  have h0 : Healthy r := by
    refine ⟨Sample.net_wf, ?_, ?_, ?_⟩
    · intro w hw
      rcases List.mem_singleton.1 hw with rfl
      exact ⟨⟨⟨0, _, rfl, Sample.net_has0⟩, Graph.getLane_of_hasLane (k := 0) Sample.net_py rfl Sample.net_has0, ⟨0, _, rfl, Sample.net_has0⟩⟩,
        by simp [RouteExists, v, Sample.car]⟩
    · simp [r, v, Sample.car, VKind.isLinear]
    · intro hc; cases hc
  obtain ⟨r1, h1⟩ := (never_raises {} _ _ h0 (.refl _)).1 0 v (.control (1 / 10) 1) rfl (.inr (.inr ⟨_, _, rfl⟩))
  have hr1 : RoadRun {} r r1 := .tail (.refl _) (.actAt 0 (.control (1 / 10) 1) h1)
  obtain ⟨r2, h2⟩ := (never_raises {} _ _ h0 hr1).2.1
  have hr2 : RoadRun {} r r2 := .tail hr1 (.act h2)
  obtain ⟨r3, h3⟩ := (never_raises {} _ _ h0 hr2).2.2 (1 / 15) (fun _ => ⟨by norm_num, by norm_num⟩)
  have h : frames {} (1 / 15) r [[(0, .control (1 / 10) 1)]] = .ok r3 := by
    simp only [frames, frame, List.foldlM_cons, List.foldlM_nil, bind, Except.bind, pure, Except.pure, h1, h2, h3]
  have hk : AllPlain r := by
    intro w hw
    rcases List.mem_singleton.1 hw with rfl
    rfl
  refine ⟨r, r3, hk, ⟨v, .head _, rfl⟩, h, mirrored_world _ _ _ _ _ hk ?_ h⟩
  intro l hl
  obtain ⟨k, rfl⟩ := sample_lanes (vs := [v]) (b := false) (fun w hw => ⟨0, by rcases List.mem_singleton.1 hw with rfl; rfl⟩) hl
  exact (sample_line k).1

/-- Non-vacuity of C121 with traffic: the regulated sample road, with an agent that changes lane while accelerating behind a traffic vehicle
(IDM), for one frame. -/
example : ∃ r' : Road, frames {} (1 / 15) sampleEnv.road [[(0, .laneRight)]] = .ok r' ∧
    frames {} (1 / 15) sampleEnv.road.mirror [[(0, .laneRight)]] = .ok r'.mirror := by
  have h0 : Healthy sampleEnv.road := sample_healthy true
  obtain ⟨r1, h1⟩ := (never_raises {} _ _ h0 (.refl _)).1 0 (Sample.car 0 .mdp 10 0 20) .laneRight rfl (.inl rfl)
  have hr1 : RoadRun {} sampleEnv.road r1 := .tail (.refl _) (.actAt 0 .laneRight h1)
  obtain ⟨r2, h2⟩ := (never_raises {} _ _ h0 hr1).2.1
  have hr2 : RoadRun {} sampleEnv.road r2 := .tail hr1 (.act h2)
  obtain ⟨r3, h3⟩ := (never_raises {} _ _ h0 hr2).2.2 (1 / 15) (fun _ => ⟨by norm_num, by norm_num⟩)
  have h : frames {} (1 / 15) sampleEnv.road [[(0, .laneRight)]] = .ok r3 := by
    simp only [frames, frame, List.foldlM_cons, List.foldlM_nil, bind, Except.bind, pure, Except.pure, h1, h2, h3]
  have hp := Real.pi_pos
  refine ⟨r3, h, mirrored_traffic {} (1 / 15) 0 0 (by norm_num) (by norm_num) (by positivity) _ _ [[(0, .laneRight)]] Sample.net_py ?_ ?_ ?_ h⟩
  · intro l hl
    obtain ⟨k, rfl⟩ := sample_lanes (vs := [Sample.car 0 .mdp 10 0 20, Sample.car 1 .idm 40 0 10]) (b := true)
      (fun w hw => ⟨0, by simp only [List.mem_cons, List.not_mem_nil, or_false] at hw; rcases hw with rfl | rfl <;> rfl⟩) hl
    exact sample_line k
  · simp [sampleEnv, Sample.car, VKind.isLinear]
  · intro v hv _ _
    simp only [sampleEnv, List.mem_cons, List.not_mem_nil, or_false] at hv
    rcases hv with rfl | rfl <;> (simp [Sample.car]; positivity)

end HighwayEnv.Props
