import Verif.Spec.Contract
import Verif.Props.Full
import Verif.Props.Merge
import Verif.Props.Roundabout
import Verif.Props.Intersection
import Verif.Props.TwoWayRun

/-!
# C104: the environments keep the gym contract, with kinematics and occupancy grids, for one agent or several
-/

noncomputable section
open Classical
namespace HighwayEnv.Props
open HighwayEnv Spec Graph

/-- What one observation configuration builds. -/
private structure Builds (G : Globals) (q : ObsParams) (mk : Option ℕ → ObsType) (sp : Space) : Prop where
  flat : ∀ c, Factory.observer c (.flat q) = .ok (mk none)
  bound : ∀ uid, Factory.bind uid (mk none) = mk (some uid)
  space : ∀ G' v s, (mk v).space G' s = .ok sp
  serves : ∀ us v, (∀ uid, v = some uid → uid ∈ us) → Serves G (Seen us) (mk v) sp

private theorem good_builds {G : Globals} {q : ObsParams} (h : GoodFlat G q) : ∃ mk sp, Builds G q mk sp := by
  cases h with
  | kinematics h hn =>
    refine ⟨fun v => .kinematics (Factory.kinematics q) v, _, ⟨?_, fun _ => rfl, fun _ v s => by rw [ObsType.space], fun us v hv =>
      kinematics_serves G us _ hn v hv⟩⟩
    · intro c
      rw [Factory.observer, h]; rfl
  | occupancy h step hs hx hy hgrid hf hr ha hG =>
    generalize hgs : q.gridSize.getD ((-27.5, 27.5), (-27.5, 27.5)) = gs at hgrid
    obtain ⟨⟨a, b⟩, c, d⟩ := gs
    obtain ⟨hab, hcd⟩ := hgrid
    dsimp only at hab hcd
    have n1 : 0 ≤ ⌊(b - a) / step.1⌋ := Int.floor_nonneg.2 (div_nonneg (by linarith) hx.le)
    have n2 : 0 ≤ ⌊(d - c) / step.2⌋ := Int.floor_nonneg.2 (div_nonneg (by linarith) hy.le)
    let o : Occupancy := ⟨q.features.getD ["presence", "vx", "vy"], ((a, b), (c, d)), step,
      Grid3.zeros (q.features.getD ["presence", "vx", "vy"]).length ⌊(b - a) / step.1⌋.toNat ⌊(d - c) / step.2⌋.toNat, q.featuresRange,
      q.absolute.getD false⟩
    have ho : OccupancyOk G o := ⟨rfl, hx, hy, hG, hr⟩
    refine ⟨fun v => .occupancy o v, _, ⟨?_, fun _ => rfl, fun _ v s => by rw [ObsType.space], fun us v hv => occupancy_serves G us o ho ha hf v hv⟩⟩
    · intro cs
      rw [Factory.observer, h]
      simp [Factory.keyed, bind, Except.bind, Factory.singleObserver, Factory.occupancy, Occupancy.init, hs, hgs, Except.map, n1.not_gt, n2.not_gt, o]

private theorem good_defined {G : Globals} {od : ObsDict} (h : GoodObs G od) (ad : ActDict) (s : Scene) (b : Factory.Built)
    (hb : Factory.action s.controlled ad = .ok b) :
    ∃ sp, Factory.defineSpaces G od ad s = .ok sp ∧ sp.action = b ∧ ∀ us, us = s.controlled → Serves G (Seen us) sp.observer sp.observationSpace := by
  unfold Factory.defineSpaces
  rw [hb]
  cases h with
  | one q hq =>
    obtain ⟨mk, sp, h1, h2, h3, h4⟩ := good_builds hq
    rw [h1]
    simp only [bind, Except.bind]
    rw [h3]
    exact ⟨_, rfl, rfl, fun us _ => h4 us none (by simp)⟩
  | several p q hp hq =>
    obtain ⟨mk, sp, h1, h2, h3, h4⟩ := good_builds hq
    have hm : Factory.observer s.controlled (.nested p (.flat q)) = .ok (.multi (s.controlled.map fun uid => mk (some uid))) := by
      rw [Factory.observer, hp]
      simp only [Factory.keyed, bind, Except.bind, if_true]
      have : ∀ l : List ℕ, l.mapM (fun uid => (Factory.observer s.controlled (.flat q)).map (Factory.bind uid)) =
          .ok (l.map fun uid => mk (some uid)) := by
        intro l
        induction l with
        | nil => rfl
        | cons a l ih => rw [List.mapM_cons, ih, h1]; simp only [Except.map, h2]; rfl
      rw [this]
      rfl
    rw [hm]
    simp only [bind, Except.bind]
    rw [ObsType.space]
    have hl : ∀ l : List ℕ, (∀ G', ObsType.spaceList G' s (l.map fun uid => mk (some uid)) = .ok (l.map fun _ => sp)) ∧
        ∀ us, (∀ uid ∈ l, uid ∈ us) → List.Forall₂ (Serves G (Seen us)) (l.map fun uid => mk (some uid)) (l.map fun _ => sp) := by
      intro l
      induction l with
      | nil => exact ⟨fun _ => by rw [List.map_nil, ObsType.spaceList]; rfl, fun _ _ => .nil⟩
      | cons a l ih =>
        obtain ⟨i1, i2⟩ := ih
        refine ⟨fun G' => ?_, fun us hus => ?_⟩
        · rw [List.map_cons, ObsType.spaceList, h3, i1]
          rfl
        · rw [List.map_cons]
          exact .cons (h4 us (some a) fun u hu => by cases hu; exact hus a (by simp)) (i2 us fun u hu => hus u (by simp [hu]))
    obtain ⟨i1, i2⟩ := hl s.controlled
    rw [i1]
    exact ⟨_, rfl, rfl, fun us hus => serves_multi G _ (seen_random us) _ _ (i2 us (by rw [hus]; exact fun _ h => h))⟩

/-- What lasts while the environment is played and observed. -/
private def Watchable (us : List ℕ) (J : Env → Prop) (e : Env) : Prop := J e ∧ Observable e.road ∧ e.controlled = us

/-- C104: a reliable environment, on an observable road, keeps the gym contract after `reset` with any of the good observation configurations. -/
theorem observed_contract (G : Globals) (c : SimConfig) (cls : EnvClass) (view : View) (J : Env → Prop) (hrel : Reliable G c cls J)
    (hrand : ∀ e e', SameButRandom e e' → J e → J e')
    (hafter : ∀ e e', Ready c e → J e → Observable e.road → cls.after e = .ok e' → Observable e'.road ∧ e'.controlled = e.controlled)
    (hp : c.policyFrequency ≠ 0) (od : ObsDict) (hod : GoodObs (view.classes G) od) (ad : ActDict)
    (had : ∀ us, ∃ b, Factory.action us ad = .ok b ∧ SameType b c.action) (make : Factory.Built → Py Env) (e : Env) (hmake : ∀ b, make b = .ok e)
    (h : Ready c e) (hJ : J e) (hobs : Observable e.road) (old : Scene) :
    ∃ x sp f, Full.reset G od ad c view make old = .ok (x, sp, f) ∧ Member sp.observationSpace x ∧ SameButRandom e f.env ∧
      Playing G c cls view J sp f := by
  have hreli : Reliable G c cls (Watchable e.controlled J) := {
    lasting := fun f r t s h hr => ⟨hrel.lasting f r t s h.1 hr, ⟨by
      show WellFormed r.network
      rw [run_network hr]; exact h.2.1.1, by
      show ∀ v ∈ r.vehicles, Attached r.network v ∧ RouteEnd r.network v.route
      rw [run_network hr]; exact routeEnd_forever G _ _ h.2.1.1 h.2.1.2 hr⟩, h.2.2⟩
    terminal := fun f h hI => hrel.terminal f h hI.1
    reward := fun f a h hI ha => hrel.reward f a h hI.1 ha
    cost := fun f h hI => hrel.cost f h hI.1
    after := fun f h hI => by
      obtain ⟨f', h1, h2, h3⟩ := hrel.after f h hI.1
      obtain ⟨h4, h5⟩ := hafter f f' h hI.1 hI.2.1 h1
      exact ⟨f', h1, h2, h3, h4, h5.trans hI.2.2⟩ }
  have hran : ∀ f f', SameButRandom f f' → Watchable e.controlled J f → Watchable e.controlled J f' := by
    intro f f' hs hI
    refine ⟨hrand f f' hs hI.1, ?_⟩
    rw [hs]
    exact hI.2
  have hok : ∀ f, Ready c f → Watchable e.controlled J f → Seen e.controlled (f.scene view c) := by
    intro f hr hI
    refine ⟨h.manned.someone, hI.2.2, f.road, rfl, hI.2.1, ?_⟩
    rw [← hI.2.2]
    exact hr.manned.onRoad
  obtain ⟨b0, hb0, -⟩ := had old.controlled
  obtain ⟨first, hfirst, -⟩ := good_defined hod ad old b0 hb0
  obtain ⟨b, hb, hbs⟩ := had e.controlled
  obtain ⟨sp, hsp, hspb, hserve⟩ := good_defined hod ad (e.scene view c) b hb
  obtain ⟨x, sp', f, r1, r2, r3, r4, r5, r6⟩ := reset_contract G c cls view _ hreli hran (Seen e.controlled) hok hp od ad
    make old first hfirst e (hmake _) h ⟨hJ, hobs, rfl⟩ sp hsp (by rw [hspb]; exact hbs) (hserve _ rfl)
  refine ⟨x, sp', f, r1, r4, r5, fun as ha => ?_⟩
  obtain ⟨rs, f', p1, p2, p3, p4, p5⟩ := r6 as ha
  refine ⟨rs, f', p1, p2, fun r hr => ⟨(p3 r hr).1, ?_⟩, p4, p5.1⟩
  obtain ⟨E, a, j1, j2, j3⟩ := (p3 r hr).2
  exact ⟨E, a, j1, j2.1, j3⟩

/-! ## Merge -/

/-- C104: **the merge environment is a gym environment.**  With any good observation configuration, one action type, any seed and whatever was there
before: `reset` returns an observation of the declared space, and `step` keeps its contract for ever. -/
theorem merge_contract (G : Globals) (cfg : MergeConfig) (hc : MergeOk G cfg) (hp : cfg.sim.policyFrequency ≠ 0) (view : View) (hview : view.classes = id)
    (od : ObsDict) (hod : GoodObs G od) (ad : ActDict) (had : ∀ us, ∃ b, Factory.action us ad = .ok b ∧ SameType b cfg.sim.action) (rng : Rng) (old : Scene) :
    ∃ x sp f, Full.reset G od ad cfg.sim view (fun _ => Merge.reset G cfg rng) old = .ok (x, sp, f) ∧ Member sp.observationSpace x ∧
      Playing G cfg.sim (Merge.cls G) view (MergeState G) sp f := by
  obtain ⟨e, h1, h2, h3, -, -, -, -, -, -, h10, -⟩ := merge_reset G cfg hc rng
  obtain ⟨x, sp, f, r1, r2, -, r4⟩ := observed_contract G cfg.sim (Merge.cls G) view (MergeState G) (merge_reliable G cfg hc)
    (fun f f' hs hI => by rw [hs]; exact ⟨hI.network, hI.free, hI.traffic, hI.ladder, hI.kinds⟩)
    (fun f f' _ _ ho ha => by cases ha; exact ⟨ho, rfl⟩) hp od (by rw [hview]; exact hod) ad had (fun _ => Merge.reset G cfg rng) e (fun _ => h1) h2 h3
    ⟨h2.healthy.wf, fun v hv => ⟨(h2.healthy.attached v hv).1, by rw [(h10 v hv).2.2.2]; intro s hs; cases hs⟩⟩ old
  exact ⟨x, sp, f, r1, r2, r4⟩

/-! ## Environments that rewrite class attributes -/

private theorem resetIn_of_reset {G G' Gsim : Globals} {od : ObsDict} {ad : ActDict} {c : SimConfig} {view : View}
    {make : Factory.Built → Py (Globals × Env)} {e : Env} (hmake : ∀ b, make b = .ok (G', e)) {old : Scene} {first : Factory.Spaces}
    (hfirst : Factory.defineSpaces G od ad old = .ok first) {x : Obs} {sp : Factory.Spaces} {f : Full}
    (hcl : view.classes Gsim = view.classes G') (h : Full.reset Gsim od ad c view (fun _ => .ok e) old = .ok (x, sp, f)) : Full.resetIn G od ad c view make old = .ok (x, sp, G', f) := by
  unfold Full.reset at h
  obtain ⟨_, -, h⟩ := bind_ok h
  obtain ⟨e1, he, h⟩ := bind_ok h
  cases he
  obtain ⟨sp1, h1, h⟩ := bind_ok h
  obtain ⟨⟨x1, f1⟩, h2, h⟩ := bind_ok h
  cases h
  have h2' : Full.observe G' c view ⟨e, sp1.observer⟩ = .ok (x, f) := by
    unfold Full.observe at h2 ⊢
    rw [← hcl]; exact h2
  rw [hcl] at h1
  unfold Full.resetIn
  rw [hfirst]
  simp only [bind, Except.bind, hmake, h1, h2']
  rfl

private theorem good_of {G G' : Globals} (hG : 0 < G.speedMax → 0 < G'.speedMax) {od : ObsDict} (h : GoodObs G od) : GoodObs G' od := by
  have key : ∀ q, GoodFlat G q → GoodFlat G' q := by
    intro q h
    cases h with
    | kinematics h1 h2 => exact .kinematics h1 h2
    | occupancy h1 step h2 h3 h4 h5 h6 h7 h8 h9 => exact .occupancy h1 step h2 h3 h4 h5 h6 h7 h8 (hG h9)
  cases h with
  | one q h => exact .one q (key q h)
  | several p q hp h => exact .several p q hp (key q h)

/-- C104: **so is the roundabout.**  The new ladder of speeds, 0, 8, 16 m/s, is in force from the reset on. -/
theorem round_contract (G : Globals) (cfg : RoundaboutConfig) (hc : RoundOk G cfg) (hp : cfg.sim.policyFrequency ≠ 0) (view : View) (hview : view.classes = id)
    (od : ObsDict) (hod : GoodObs G od) (ad : ActDict) (had : ∀ us, ∃ b, Factory.action us ad = .ok b ∧ SameType b cfg.sim.action) (ord : SetOrder) (rng : Rng)
    (old : Scene) :
    ∃ x sp G' f, Full.resetIn G od ad cfg.sim view (fun _ => Roundabout.reset G cfg ord rng) old = .ok (x, sp, G', f) ∧
      G' = { G with speedMin := 0, speedMax := 16, speedCount := 3 } ∧ Member sp.observationSpace x ∧
      Playing G' cfg.sim (Roundabout.cls G' cfg) view RoundState sp f := by
  obtain ⟨e, ego, v1, v2, v3, v4, h1, h2, h3, -, -, -, -, h8, h9, h10, h11, h12, h13⟩ := round_reset G cfg hc ord rng
  have hobs : Observable e.road := by
    refine ⟨h2.healthy.wf, fun v hv => ⟨(h2.healthy.attached v hv).1, ?_⟩⟩
    rw [h3.network]
    rw [h8] at hv
    simp only [List.mem_cons, List.not_mem_nil, or_false] at hv
    rcases hv with rfl | rfl | rfl | rfl | rfl
    · rw [h9.route]
      intro s hs
      have : s = ⟨"nx", "nxs", none⟩ := by simpa [egoTrip] using hs.symm
      subst this
      exact ⟨_, rfl⟩
    · exact h10.final
    · exact h11.final
    · exact h12.final
    · exact h13.final
  obtain ⟨x, sp, f, r1, r2, -, r4⟩ := observed_contract { G with speedMin := 0, speedMax := 16, speedCount := 3 } cfg.sim
    (Roundabout.cls { G with speedMin := 0, speedMax := 16, speedCount := 3 } cfg) view RoundState (round_reliable G cfg hc)
    (fun f f' hs hI => by rw [hs]; exact ⟨hI.network, hI.free, hI.ladder⟩)
    (fun f f' _ _ ho ha => by cases ha; exact ⟨ho, rfl⟩) hp od (by rw [hview]; exact good_of (fun _ => by norm_num) hod) ad had (fun _ => .ok e) e (fun _ => rfl) h2 h3 hobs old
  obtain ⟨b, hb, -⟩ := had old.controlled
  obtain ⟨first, hfirst, -⟩ := good_defined hod ad old b hb
  exact ⟨x, sp, _, f, resetIn_of_reset (fun _ => h1) hfirst rfl r1, rfl, r2, r4⟩

/-! ## Intersection -/

/-- The intersection: a road of the intersection is observable. -/
private theorem inter_observable {k : VKind} {r : Road} (h : InterRoad k r) : Observable r := by
  refine ⟨by rw [h.network]; exact interNet_wf, fun v hv => ?_⟩
  rw [h.network]
  exact ⟨(h.fleet v hv).attached, routeEnd_of_precise (h.fleet v hv).precise⟩

/-- C104: **and so is the intersection**, one agent or several, whatever drives in and out, provided no agent was removed at the start (which may only
happen to one of several agents, see `inter_reset`).  The traffic attributes are those written by the reset; the agents have the ladder 0, 4.5, 9 m/s,
while observers keep reading the attributes of the class. -/
theorem inter_contract (G : Globals) (cfg : IntersectionConfig) (hc : InterOk cfg) (hp : cfg.sim.policyFrequency ≠ 0) (view : View)
    (hview : view.classes = fun _ => Intersection.setTraffic cfg.otherVehiclesType G) (od : ObsDict) (hod : GoodObs G od) (ad : ActDict)
    (had : ∀ us, ∃ b, Factory.action us ad = .ok b ∧ SameType b cfg.sim.action) (ord : SetOrder) (rng : Rng) (old : Scene) :
    ∃ e, Intersection.reset G cfg ord rng = .ok (Intersection.setTraffic cfg.otherVehiclesType G, e) ∧
      (cfg.controlledVehicles = 1 ∨ (∀ uid ∈ e.controlled, ∃ v ∈ e.road.vehicles, v.uid = uid) →
        ∃ x sp G' f, Full.resetIn G od ad cfg.sim view (fun _ => Intersection.reset G cfg ord rng) old = .ok (x, sp, G', f) ∧
          G' = Intersection.setTraffic cfg.otherVehiclesType G ∧ Member sp.observationSpace x ∧
          Playing (Intersection.egoLadder G') cfg.sim (Intersection.cls G' cfg ord) view (fun e => InterRoad cfg.otherVehiclesType e.road) sp f) := by
  obtain ⟨e, ws, h1, h2, -, -, -, -, hnodup, -, hstarts, hall, hone⟩ := inter_reset G cfg hc ord rng
  refine ⟨e, h1, fun hpres => ?_⟩
  set G1 := Intersection.setTraffic cfg.otherVehiclesType G with hG1
  have hready : Ready cfg.sim e := by
    rcases hpres with h | h
    · exact hone h
    · refine hall fun w hw => ?_
      have hu : w.uid ∈ e.controlled := by rw [← hstarts.identities]; exact List.mem_map_of_mem hw
      obtain ⟨v, hv, hvw⟩ := h _ hu
      have hvs := hstarts.unchanged v hv (by rw [hvw]; exact hu)
      have hnd : (ws.map (·.uid)).Nodup := by rw [hstarts.identities]; exact hnodup
      rw [← List.inj_on_of_nodup_map hnd hvs hw hvw]
      exact hv
  obtain ⟨x, sp, f, r1, r2, -, r4⟩ := observed_contract (Intersection.egoLadder G1) cfg.sim (Intersection.cls G1 cfg ord) view
    (fun e => InterRoad cfg.otherVehiclesType e.road) (inter_reliable G1 cfg hc ord)
    (fun f f' hs hI => by rw [hs]; exact ⟨hI.network, hI.regulated, hI.free, hI.distinct, hI.fleet⟩)
    (fun f f' hr hI _ ha => by
      obtain ⟨f'', a1, -, a3, -, a5, -⟩ := inter_after G1 cfg hc ord f hr hI
      rw [ha] at a1
      cases a1
      exact ⟨inter_observable a3, a5⟩) hp od (by rw [hview]; exact good_of (G := G) (G' := G1) (fun h => h) hod) ad had (fun _ => .ok e) e
    (fun _ => rfl) hready h2 (inter_observable h2) old
  obtain ⟨b, hb, -⟩ := had old.controlled
  obtain ⟨first, hfirst, -⟩ := good_defined hod ad old b hb
  exact ⟨x, sp, G1, f, resetIn_of_reset (fun _ => h1) hfirst (by rw [hview]) r1, rfl, r2, r4⟩

/-! ## Times to collision -/

private theorem ttc_observes {G : Globals} {f horizon : ℝ} (hf : 0 < f) (hh : 0 ≤ horizon) {s : Scene} (hs : TtcScene G f none s) :
    ∃ x, ObsType.observeTtc G s horizon none = .ok x := by
  obtain ⟨h0, h | ⟨r, ego, v, ls, h1, h2, h3, h4, h5, h6, h7, h8⟩⟩ := hs
  · unfold ObsType.observeTtc
    rw [h]
    exact ⟨_, rfl⟩
  · rw [h2] at h3
    cases h3
    obtain ⟨grid, hg⟩ := ttc_never_raises G r ego (1 / f) horizon h4 (by positivity) hh
    unfold ObsType.observeTtc
    rw [h1]
    simp only [h2, ObsType.need, bind, Except.bind, h0, ttcObserve, if_neg hf.ne', hg]
    exact ⟨_, rfl⟩

/-- C104: observers of the times to collision never raise and return what they declared. -/
theorem ttc_serves (G : Globals) (hS : 2 ≤ G.speedCount) (f horizon : ℝ) (hf : 0 < f) (hh : 0 ≤ horizon) :
    Serves G (TtcScene G f none) (.ttc horizon none) (.box 0 1 [3, 3, (pyInt (horizon * f)).toNat]) := by
  refine ⟨fun o => o = .ttc horizon none, rfl, ?_⟩
  rintro _ s rfl hs
  obtain ⟨x, hx⟩ := ttc_observes hf hh hs
  refine ⟨x, .ttc horizon none, s, ?_, (ttc_step hS hf hs hx).1, rfl⟩
  rw [ObsType.observe, hx]; rfl

private theorem ttc_defined {G : Globals} (hS : 2 ≤ G.speedCount) {q : ObsParams} (hq : q.type = some "TimeToCollision") {f : ℝ} (hf : 0 < f)
    (hh : 0 ≤ q.horizon.getD 10) (ad : ActDict) {s : Scene} (hs : TtcScene G f none s) {b : Factory.Built} (hb : Factory.action s.controlled ad = .ok b) :
    ∃ sp, Factory.defineSpaces G (.flat q) ad s = .ok sp ∧ sp.action = b ∧ Serves G (TtcScene G f none) sp.observer sp.observationSpace := by
  have ho : Factory.observer s.controlled (.flat q) = .ok (.ttc (q.horizon.getD 10) none) := by
    rw [Factory.observer, hq]; rfl
  obtain ⟨x, hx⟩ := ttc_observes hf hh hs
  have hsp : (ObsType.ttc (q.horizon.getD 10) none).space G s = .ok (.box 0 1 [3, 3, (pyInt (q.horizon.getD 10 * f)).toNat]) := by
    rw [ObsType.space, hx, ← (ttc_step hS hf hs hx).2]
    rfl
  unfold Factory.defineSpaces
  rw [hb, ho]
  simp only [bind, Except.bind]
  rw [hsp]
  exact ⟨_, rfl, rfl, ttc_serves G hS f _ hf hh⟩

private def Levelled (G : Globals) (e : Env) : Prop := ∀ v ∈ e.road.vehicles, v.kind = .mdp → 0 ≤ v.speedIndex ∧ v.speedIndex < G.speedCount

/-- The scene of a ready environment whose agents are discrete-action vehicles at existing levels. -/
private theorem ready_ttc {G : Globals} {c : SimConfig} (hk : c.action.agent.vehicleClass = .mdp) (view : View) {e : Env} (h : Ready c e) (hl : Levelled G e) :
    TtcScene G c.policyFrequency none (e.scene view c) := by
  refine ⟨rfl, .inr ?_⟩
  obtain ⟨u, us, hu⟩ := List.exists_cons_of_ne_nil h.manned.someone
  obtain ⟨v, hv⟩ := vehicle?_some (h.manned.onRoad u (by rw [hu]; simp))
  have hmem := vehicle?_mem hv
  have huid : v.uid = u := by
    have := List.find?_some hv
    simpa using this
  have hm : v.kind = .mdp := (h.fitted v hmem (by rw [huid, hu]; simp)).trans hk
  obtain ⟨k, l, hk', ls, hls, hkl⟩ := (h.healthy.attached v hmem).1.here
  have := (List.getElem?_eq_some_iff.1 hkl).1
  refine ⟨e.road, v, v, ls, rfl, by simp [ObsType.watched, Env.scene, hu, hv], by simp [ObsType.watched, Env.scene, hu, hv],
    ⟨h.healthy.wf.toIsPyGraph, hm, (h.healthy.attached v hmem).1.here, fun w hw => (h.healthy.attached w hw).1.here⟩, (hl v hmem hm).1, (hl v hmem hm).2,
    hls, by omega⟩

/-- C104: a reliable environment whose agents are discrete-action vehicles at existing speed levels keeps the gym contract with the observation of
the times to collision, provided what was there before the `reset` could be observed. -/
theorem ttc_contract (G : Globals) (hS : 2 ≤ G.speedCount) (c : SimConfig) (cls : EnvClass) (view : View) (hview : view.classes = id) (J : Env → Prop)
    (hrel : Reliable G c cls J) (hrand : ∀ e e', SameButRandom e e' → J e → J e') (hk : c.action.agent.vehicleClass = .mdp)
    (hlevel : ∀ e, Ready c e → J e → ∀ v ∈ e.road.vehicles, v.kind = .mdp → 0 ≤ v.speedIndex ∧ v.speedIndex < G.speedCount)
    (hp : 0 < c.policyFrequency) (q : ObsParams) (hq : q.type = some "TimeToCollision") (hh : 0 ≤ q.horizon.getD 10) (ad : ActDict)
    (had : ∀ us, ∃ b, Factory.action us ad = .ok b ∧ SameType b c.action) (make : Factory.Built → Py Env) (e : Env) (hmake : ∀ b, make b = .ok e)
    (h : Ready c e) (hJ : J e) (old : Scene) (hold : TtcScene G c.policyFrequency none old) :
    ∃ x sp f, Full.reset G (.flat q) ad c view make old = .ok (x, sp, f) ∧ Member sp.observationSpace x ∧ SameButRandom e f.env ∧
      Playing G c cls view J sp f := by
  have hcl : view.classes G = G := by rw [hview]; rfl
  obtain ⟨b0, hb0, -⟩ := had old.controlled
  obtain ⟨first, hfirst, -⟩ := ttc_defined hS hq hp hh ad hold hb0
  obtain ⟨b, hb, hbs⟩ := had e.controlled
  obtain ⟨sp, hsp, hspb, hserve⟩ := ttc_defined hS hq hp hh ad (ready_ttc hk view h (hlevel e h hJ)) hb
  obtain ⟨x, sp', f, r1, r2, r3, r4, r5, r6⟩ := reset_contract G c cls view J hrel hrand (TtcScene G c.policyFrequency none)
    (fun f hr hI => ready_ttc hk view hr (hlevel f hr hI)) hp.ne' (.flat q) ad
    make old first (by rw [hcl]; exact hfirst) e (hmake _) h hJ sp (by rw [hcl]; exact hsp) (by rw [hspb]; exact hbs) (by rw [hcl]; exact hserve)
  exact ⟨x, sp', f, r1, r4, r5, r6⟩

/-- C104: **the merge environment with its default observation**, the times to collision. -/
theorem merge_ttc_contract (G : Globals) (cfg : MergeConfig) (hc : MergeOk G cfg) (hp : 0 < cfg.sim.policyFrequency) (view : View)
    (hview : view.classes = id) (q : ObsParams) (hq : q.type = some "TimeToCollision") (hh : 0 ≤ q.horizon.getD 10) (ad : ActDict)
    (had : ∀ us, ∃ b, Factory.action us ad = .ok b ∧ SameType b cfg.sim.action) (rng : Rng) (old : Scene)
    (hold : TtcScene G cfg.sim.policyFrequency none old) :
    ∃ x sp f, Full.reset G (.flat q) ad cfg.sim view (fun _ => Merge.reset G cfg rng) old = .ok (x, sp, f) ∧ Member sp.observationSpace x ∧
      Playing G cfg.sim (Merge.cls G) view (MergeState G) sp f := by
  obtain ⟨e, h1, h2, h3, -⟩ := merge_reset G cfg hc rng
  obtain ⟨lo, la, hact, -⟩ := hc.action
  obtain ⟨x, sp, f, r1, r2, -, r4⟩ := ttc_contract G hc.count cfg.sim (Merge.cls G) view hview (MergeState G) (merge_reliable G cfg hc)
    (fun f f' hs hI => by rw [hs]; exact ⟨hI.network, hI.free, hI.traffic, hI.ladder, hI.kinds⟩) (by rw [hact]; rfl)
    (fun f _ hI v hv hk => ⟨(hI.ladder v hv hk).1.1, (hI.ladder v hv hk).1.2.1⟩) hp q hq hh ad had (fun _ => Merge.reset G cfg rng) e (fun _ => h1) h2 h3 old hold
  exact ⟨x, sp, f, r1, r2, r4⟩

private theorem addRandom_ladder {G : Globals} (hn : 0 < G.speedCount) {kind : VKind} {speed : Option ℝ} {laneId : Option Int} {spacing : ℝ} (m uid : ℕ)
    (r r' : Road) (h : r.addRandom G kind speed laneId spacing m uid = .ok r')
    (h0 : ∀ v ∈ r.vehicles, v.kind = .mdp → OnLadder G v ∧ v.isYielding = false) :
    ∀ v ∈ r'.vehicles, v.kind = .mdp → OnLadder G v ∧ v.isYielding = false := by
  induction m generalizing uid r with
  | zero => cases h; exact h0
  | succ m ih =>
    unfold Road.addRandom at h
    obtain ⟨⟨v, rng⟩, h1, h⟩ := bind_ok h
    refine ih _ _ h fun w hw hm => ?_
    rcases List.mem_append.1 hw with hw | hw
    · exact h0 w hw hm
    · obtain rfl : w = v := by simpa using hw
      unfold Vehicle.createRandom at h1
      obtain ⟨_, -, h1⟩ := bind_ok h1
      obtain ⟨_, -, h1⟩ := bind_ok h1
      obtain ⟨_, -, h1⟩ := bind_ok h1
      obtain ⟨_, -, h1⟩ := bind_ok h1
      obtain ⟨_, -, h1⟩ := bind_ok h1
      obtain ⟨_, -, h1⟩ := bind_ok h1
      obtain ⟨w', h2, h1⟩ := bind_ok h1
      obtain rfl : w' = w := congrArg Prod.fst (Except.ok.inj h1)
      have hk : w'.kind = kind := by
        have h3 := h2
        unfold Vehicle.mk' at h3
        obtain ⟨_, -, h3⟩ := bind_ok h3
        obtain ⟨_, -, h3⟩ := bind_ok h3
        exact (congrArg Vehicle.kind (Except.ok.inj h3)).symm
      rw [hk] at hm
      rw [hm] at h2
      exact construction_ladder G hn _ _ _ _ _ _ _ _ _ _ _ h2

private theorem highway_ladder (G : Globals) (hn : 0 < G.speedCount) (cfg : HighwayConfig) (rng : Rng) (e : Env) (h : Highway.reset G cfg rng = .ok e) :
    ∀ v ∈ e.road.vehicles, v.kind = .mdp → OnLadder G v ∧ v.isYielding = false := by
  unfold Highway.reset at h
  obtain ⟨_, -, h⟩ := bind_ok h
  obtain ⟨r, h1, h⟩ := bind_ok h
  cases h
  unfold Highway.createVehicles at h1
  obtain ⟨r1, h2, h1⟩ := bind_ok h1
  split at h1
  · cases h1
  · exact addRandom_ladder hn _ _ _ _ h1 (addRandom_ladder hn _ _ _ _ h2 (by intro v hv; exact absurd hv (List.not_mem_nil)))

/-- C104: the highway environment with the times to collision and meta-actions. -/
theorem highway_ttc_contract (G : Globals) (hS : 2 ≤ G.speedCount) (cfg : HighwayConfig) (hc : HighwayOk cfg) (hp : 0 < cfg.sim.policyFrequency)
    (hk : cfg.sim.action.agent.vehicleClass = .mdp) (view : View)
    (hview : view.classes = id) (q : ObsParams) (hq : q.type = some "TimeToCollision") (hh : 0 ≤ q.horizon.getD 10) (ad : ActDict)
    (had : ∀ us, ∃ b, Factory.action us ad = .ok b ∧ SameType b cfg.sim.action) (rng : Rng) (old : Scene)
    (hold : TtcScene G cfg.sim.policyFrequency none old) :
    ∃ x sp f, Full.reset G (.flat q) ad cfg.sim view (fun _ => Highway.reset G cfg rng) old = .ok (x, sp, f) ∧ Member sp.observationSpace x ∧
      Playing G cfg.sim (Highway.cls cfg) view (fun e => e.road.network = straightNet cfg.lanesCount 10000) sp f := by
  obtain ⟨e, h1, h2, h3, h4, h5, h6, h7, h8, h9, h10, h11⟩ := highway_reset G cfg hc rng
  have hrel := highway_reliable G cfg cfg.lanesCount hc.lanes 10000
  have hl0 := highway_ladder G (by omega) cfg rng e h1
  let J : Env → Prop := fun e => e.road.network = straightNet cfg.lanesCount 10000 ∧
    ∀ v ∈ e.road.vehicles, v.kind = .mdp → OnLadder G v ∧ v.isYielding = false
  have hrelJ : Reliable G cfg.sim (Highway.cls cfg) J := {
    lasting := fun f r t s h hr => ⟨hrel.lasting f r t s h.1 hr, fun v hv hm => ⟨always_on_ladder G (by omega) f.road r h.2 hr v hv hm,
      mdp_not_yielding G (by omega) f.road r h.2 hr v hv hm⟩⟩
    terminal := fun f h hI => hrel.terminal f h hI.1
    reward := fun f a h hI ha => hrel.reward f a h hI.1 ha
    cost := fun f h hI => hrel.cost f h hI.1
    after := fun f h hI => ⟨f, rfl, h, hI⟩ }
  obtain ⟨x, sp, f, r1, r2, -, r4⟩ := ttc_contract G hS cfg.sim (Highway.cls cfg) view hview J hrelJ
    (fun f f' hs hI => by rw [hs]; exact hI) hk
    (fun f _ hI v hv hm => ⟨(hI.2 v hv hm).1.1, (hI.2 v hv hm).1.2.1⟩) hp q hq hh ad had (fun _ => Highway.reset G cfg rng) e (fun _ => h1) h2 ⟨h3, hl0⟩ old hold
  refine ⟨x, sp, f, r1, r2, fun as ha => ?_⟩
  obtain ⟨rs, f', p1, p2, p3, p4, p5⟩ := r4 as ha
  refine ⟨rs, f', p1, p2, fun r hr => ⟨(p3 r hr).1, ?_⟩, p4, p5.1⟩
  obtain ⟨E, a, j1, j2, j3⟩ := (p3 r hr).2
  exact ⟨E, a, j1, j2.1, j3⟩

/-! ## Within a horizon: the two-way road -/

/-- What an observer does to the environment: nothing but drawing from its generator. -/
theorem observed_same {G : Globals} {o o' : ObsType} {c : SimConfig} {view : View} {e : Env} {x : Obs} {s' : Scene}
    (h : o.observe G (e.scene view c) = .ok (x, o', s')) : SameButRandom e (e.observed s') := by
  have hs : ∃ rng, s'.road = some { e.road with rng := rng } := by
    have hn : NoRandom (fun s => ∃ rng, s.road = some { e.road with rng := rng }) := by
      rintro s ⟨g, hg⟩ r' rng hr
      rw [hg] at hr
      cases hr
      exact ⟨rng, rfl⟩
    exact observe_scene _ hn _ _ _ _ _ h ⟨e.road.rng, rfl⟩
  obtain ⟨rng, hr⟩ := hs
  unfold SameButRandom Env.observed
  rw [hr]

/-- C104: an environment that can be relied upon during `N` frames keeps the contract of `step` during `N` frames. -/
theorem play_until (G : Globals) (c : SimConfig) (cls : EnvClass) (view : View) (N : ℕ) (I : Env → Prop) (hcls : ReliableUntil G c cls N I)
    (hrand : ∀ e e', SameButRandom e e' → I e → I e') (Ok : Scene → Prop) (hok : ∀ e, Ready c e → I e → Ok (e.scene view c))
    (hc : GoodRates c) (f : Full) (sp : Space) (hs : Serves (view.classes G) Ok f.observer sp) (h : Ready c f.env) (hI : I f.env)
    (as : List AgentAction) (ha : ∀ a ∈ as, InEnvSpace c.action a) (ht : f.env.time + period c * as.length ≤ N) :
    ∃ rs f', Play G c cls view f as rs f' ∧ rs.length = as.length ∧ (∀ r ∈ rs, Member sp r.1 ∧ Judged c cls I as r.2) ∧
      Serves (view.classes G) Ok f'.observer sp ∧ Ready c f'.env ∧ I f'.env ∧ f'.env.time ≤ f.env.time + period c * as.length := by
  induction as using List.reverseRecOn with
  | nil => exact ⟨[], f, .start, rfl, by simp, hs, h, hI, by simp⟩
  | append_singleton as a ih =>
    have e0 : period c * (as ++ [a]).length = period c * as.length + period c := by
      rw [List.length_append, List.length_singleton, Nat.mul_succ]
    rw [e0] at ht ⊢
    obtain ⟨rs, f1, h1, h2, h3, h4, h5, h6, h7⟩ := ih (fun x hx => ha x (by simp [hx])) (by omega)
    obtain ⟨e1, _, _, _, _, hr1, hi1, -, t1, -, -, -, -, -, -, -, -, -, -, -, -, hsim⟩ :=
      step_until G c cls N I hcls hc f1.env h5 h6 (by omega) a (ha a (by simp))
    obtain ⟨x, o', s', q1, q2, q3⟩ := serves_step h4 (hok _ hr1 hi1)
    have hobs : Full.observe G c view ⟨e1, f1.observer⟩ = .ok (x, ⟨e1.observed s', o'⟩) := by
      unfold Full.observe
      rw [q1]
      rfl
    have hsame := observed_same q1
    have htE : (e1.observed s').time = e1.time := by rw [hsame]
    generalize hE : e1.observed s' = E at hobs hsame htE
    have hr2 := ready_random hsame hr1
    have hi2 := hrand _ _ hsame hi1
    have htN : E.time ≤ N := by omega
    obtain ⟨x1, hx1⟩ := hcls.reward E a hr2 hi2 htN (ha a (by simp))
    obtain ⟨x2, hx2⟩ := hcls.terminal E hr2 hi2 htN
    obtain ⟨x3, hx3, -⟩ := vehicle_total hr2
    have hcost : ∃ y, Env.tryCost cls E = .ok y := by
      unfold Env.tryCost
      rcases hcls.cost E hr2 hi2 htN with ⟨y, hy⟩ | hy
      · rw [hy]; exact ⟨_, rfl⟩
      · rw [hy]; exact ⟨_, rfl⟩
    obtain ⟨x4, hx4⟩ := hcost
    obtain ⟨e2', hx5, hr3, hi3, ht3⟩ := hcls.after E hr2 hi2 htN
    have hcon : Full.conclude cls E (some a) = .ok (e2', ⟨x1, x2, x3.speed, x3.crashed, x4⟩) := by
      unfold Full.conclude
      simp only [hx1, hx2, hx3, hx4, hx5, bind, Except.bind]
      rfl
    refine ⟨rs ++ [(x, ⟨x1, x2, x3.speed, x3.crashed, x4⟩)], ⟨e2', o'⟩, .step h1 ?_, by simp [h2], ?_, q3, hr3, hi3, by dsimp only; omega⟩
    · unfold Full.step
      rw [if_neg h5.manned.someone, hsim]
      simp only [bind, Except.bind, hobs, hcon]
      rfl
    · intro y hy
      rcases List.mem_append.1 hy with hy | hy
      · obtain ⟨m, E', a', j1, j2, j3, j4, j5⟩ := h3 y hy
        exact ⟨m, E', a', j1, j2, by simp [j3], j4, j5⟩
      · simp only [List.mem_singleton] at hy
        subst hy
        exact ⟨q2, E, a, hr2, hi2, by simp, hx1, hx2, x3, hx3, rfl, rfl⟩

/-- C104: **the two-way environment with its default observation**, the times to collision, until the vehicle can have reached the end of the road. -/
theorem twoWay_ttc_contract (G : Globals) (cfg : TwoWayConfig) (hc : TwoWayOk G cfg) (V : ℝ) (hV : TwoWayRates G cfg V) (N : ℕ)
    (hN : 30 + V * (N / cfg.sim.simulationFrequency) ≤ 797.5) (hp : 0 < cfg.sim.policyFrequency) (view : View)
    (hview : view.classes = id) (q : ObsParams) (hq : q.type = some "TimeToCollision") (hh : 0 ≤ q.horizon.getD 10) (ad : ActDict)
    (had : ∀ us, ∃ b, Factory.action us ad = .ok b ∧ SameType b cfg.sim.action) (rng : Rng) (old : Scene)
    (hold : TtcScene G cfg.sim.policyFrequency none old) :
    ∃ x sp f, Full.reset G (.flat q) ad cfg.sim view (fun _ => TwoWay.reset G cfg rng) old = .ok (x, sp, f) ∧ Member sp.observationSpace x ∧
      PlayingUntil N G cfg.sim (TwoWay.cls G) view (TwoWayRolling G cfg.sim.simulationFrequency V) sp f := by
  have hcl : view.classes G = G := by rw [hview]; rfl
  obtain ⟨e, h1, h2, h3, h4⟩ := twoWay_rolling G cfg hc V hV rng
  obtain ⟨lo, la, hact, -⟩ := hc.action
  have hk : cfg.sim.action.agent.vehicleClass = .mdp := by rw [hact]; rfl
  have hok : ∀ f, Ready cfg.sim f → TwoWayRolling G cfg.sim.simulationFrequency V f → TtcScene G cfg.sim.policyFrequency none (f.scene view cfg.sim) :=
    fun f hr hI => ready_ttc hk view hr fun v hv hm => ⟨(hI.ego v hv hm).ladder.1, (hI.ego v hv hm).ladder.2.1⟩
  obtain ⟨b0, hb0, -⟩ := had old.controlled
  obtain ⟨first, hfirst, -⟩ := ttc_defined hc.count hq hp hh ad hold hb0
  obtain ⟨b, hb, hbs⟩ := had e.controlled
  obtain ⟨sp, hsp, hspb, hserve⟩ := ttc_defined hc.count hq hp hh ad (hok e h2 h3) hb
  obtain ⟨x, o', s', e1, e2, e3⟩ := serves_step hserve (hok e h2 h3)
  have hsame := observed_same e1
  have hrand : ∀ f f', SameButRandom f f' → TwoWayRolling G cfg.sim.simulationFrequency V f → TwoWayRolling G cfg.sim.simulationFrequency V f' :=
    fun f f' hs hI => by rw [hs]; exact ⟨hI.network, hI.free, hI.ego⟩
  refine ⟨x, { sp with observer := o' }, ⟨e.observed s', o'⟩, ?_, e2, fun as ha hl => ?_⟩
  · unfold Full.reset Full.observe
    rw [hcl, hfirst]
    simp only [bind, Except.bind, h1, hsp, e1]
    rfl
  · obtain ⟨rs, f', p1, p2, p3, -, p4, p5, -⟩ := play_until G cfg.sim (TwoWay.cls G) view N _ (twoWay_reliable G cfg hc V hV N hN) hrand
      (TtcScene G cfg.sim.policyFrequency none) hok hV.rates ⟨e.observed s', o'⟩ sp.observationSpace (by rw [hcl]; exact e3) (ready_random hsame h2)
      (hrand _ _ hsame h3) as (fun a hmem => by
        have := ha a hmem
        dsimp only at this
        rw [(define_ok hsp).2.2.2] at this
        exact (declared_actions_accepted sp.action cfg.sim.action (by rw [hspb]; exact hbs) a this).1) (by
        have : (e.observed s').time = 0 := by rw [hsame]; exact h4
        dsimp only
        omega)
    exact ⟨rs, f', p1, p2, p3, p4, p5⟩

/-! ### The hypotheses are met -/

/-- The default observation of the roundabout — roundabout_env.py:24-28. -/
def roundObs : ObsParams :=
  { type := some "Kinematics", absolute := some true, featuresRange := some [("x", (-100, 100)), ("y", (-100, 100)), ("vx", (-15, 15)), ("vy", (-15, 15))] }

/-- The default observation of the intersection — intersection_env.py:30-43. -/
def interObs : ObsParams :=
  { type := some "Kinematics", vehiclesCount := some 15, features := some ["presence", "x", "y", "vx", "vy", "cos_h", "sin_h"],
    featuresRange := some [("x", (-100, 100)), ("y", (-100, 100)), ("vx", (-20, 20)), ("vy", (-20, 20))], absolute := some true,
    observeIntentions := some false }

private theorem roundObs_good : GoodObs {} (.flat roundObs) :=
  .one _ (.kinematics rfl
    ⟨⟨by simp [roundObs, Factory.kinematics, Kinematics.init, featureNames], by simp [roundObs, Factory.kinematics, Kinematics.init]⟩,
      by simp [roundObs, Factory.kinematics, Kinematics.init], by simp [roundObs, Factory.kinematics, Kinematics.init],
      by simp [roundObs, Factory.kinematics, Kinematics.init], by simp [roundObs, Factory.kinematics, Kinematics.init],
      by simp [roundObs, Factory.kinematics, Kinematics.init]⟩)

theorem interObs_good : GoodObs {} (.flat interObs) :=
  .one _ (.kinematics rfl
    ⟨⟨by simp [interObs, Factory.kinematics, Kinematics.init, featureNames], by simp [interObs, Factory.kinematics, Kinematics.init]⟩,
      by simp [interObs, Factory.kinematics, Kinematics.init], by simp [interObs, Factory.kinematics, Kinematics.init],
      by simp [interObs, Factory.kinematics, Kinematics.init], by simp [interObs, Factory.kinematics, Kinematics.init],
      by simp [interObs, Factory.kinematics, Kinematics.init]⟩)

private theorem duoObs_good : GoodObs {} (.nested { type := some "MultiAgentObservation" } (.flat { type := some "Kinematics" })) :=
  .several _ _ rfl (.kinematics rfl default_normalised)

private theorem gridObs_good : GoodObs {} (.flat { type := some "OccupancyGrid", gridStep := some (5, 5) }) :=
  .one _ (.occupancy rfl (5, 5) rfl (by norm_num) (by norm_num) (by norm_num) (by simp [featureNames]) (by simp) rfl (by norm_num))

/-- The merge environment with an occupancy grid. -/
example (rng : Rng) : ∃ x sp f, Full.reset {} (.flat { type := some "OccupancyGrid", gridStep := some (5, 5) }) { outer := { type := some "DiscreteMetaAction" } }
      {} {} (fun _ => Merge.reset {} {} rng) { road := none, controlled := [] } = .ok (x, sp, f) ∧ Member sp.observationSpace x :=
  let ⟨x, sp, f, h1, h2, _⟩ := merge_contract {} {} merge_default_ok (by norm_num) {} rfl _ gridObs_good { outer := { type := some "DiscreteMetaAction" } }
    (fun _ => ⟨.single (.discrete true true), rfl, rfl⟩) rng { road := none, controlled := [] }
  ⟨x, sp, f, h1, h2⟩

/-- The merge environment as registered. -/
example (rng : Rng) : ∃ x sp f, Full.reset {} (.flat { type := some "TimeToCollision" }) { outer := { type := some "DiscreteMetaAction" } }
      {} {} (fun _ => Merge.reset {} {} rng) { road := none, controlled := [], policyFrequency := 1 } = .ok (x, sp, f) ∧ Member sp.observationSpace x :=
  let ⟨x, sp, f, h1, h2, _⟩ := merge_ttc_contract {} {} merge_default_ok (by norm_num) {} rfl { type := some "TimeToCollision" } rfl (by norm_num)
    { outer := { type := some "DiscreteMetaAction" } } (fun _ => ⟨.single (.discrete true true), rfl, rfl⟩) rng
    { road := none, controlled := [], policyFrequency := 1 } ⟨rfl, .inl rfl⟩
  ⟨x, sp, f, h1, h2⟩

/-- The roundabout as registered. -/
example (ord : SetOrder) (rng : Rng) : ∃ x sp G' f, Full.resetIn {} (.flat roundObs) { outer := { type := some "DiscreteMetaAction" } }
      {} {} (fun _ => Roundabout.reset {} {} ord rng) { road := none, controlled := [] } = .ok (x, sp, G', f) ∧ Member sp.observationSpace x :=
  let ⟨x, sp, G', f, h1, _, h2, _⟩ := round_contract {} {} round_default_ok.1 (by norm_num) {} rfl _ roundObs_good
    { outer := { type := some "DiscreteMetaAction" } } (fun _ => ⟨.single (.discrete true true), rfl, rfl⟩) ord rng { road := none, controlled := [] }
  ⟨x, sp, G', f, h1, h2⟩

/-- The intersection as registered, with one agent. -/
example (ord : SetOrder) (rng : Rng) : ∃ x sp G' f,
    Full.resetIn {} (.flat interObs) { outer := { type := some "DiscreteMetaAction", longitudinal := some true, lateral := some false } }
      ({} : IntersectionConfig).sim { classes := fun _ => Intersection.setTraffic .idm {} } (fun _ => Intersection.reset {} {} ord rng)
      { road := none, controlled := [] } = .ok (x, sp, G', f) ∧ Member sp.observationSpace x := by
  obtain ⟨e, -, h⟩ := inter_contract {} {} inter_default_ok.1 (by norm_num) { classes := fun _ => Intersection.setTraffic .idm {} } rfl _ interObs_good
    { outer := { type := some "DiscreteMetaAction", longitudinal := some true, lateral := some false } }
    (fun _ => ⟨.single (.discrete true false), rfl, rfl⟩) ord rng { road := none, controlled := [] }
  obtain ⟨x, sp, G', f, h1, -, h2, -⟩ := h (.inl rfl)
  exact ⟨x, sp, G', f, h1, h2⟩

/-- The intersection with two agents. -/
example (ord : SetOrder) (rng : Rng) : ∃ e G', Intersection.reset {} { sim := { action := .multi (.discrete true false) }, controlledVehicles := 2 } ord rng =
      .ok (G', e) ∧ ((∀ uid ∈ e.controlled, ∃ v ∈ e.road.vehicles, v.uid = uid) → ∃ x sp G' f,
    Full.resetIn {} (.nested { type := some "MultiAgentObservation" } (.flat { type := some "Kinematics" }))
      { outer := { type := some "MultiAgentAction" }, inner := some { type := some "DiscreteMetaAction", longitudinal := some true, lateral := some false } }
      { action := .multi (.discrete true false) } { classes := fun _ => Intersection.setTraffic .idm {} }
      (fun _ => Intersection.reset {} { sim := { action := .multi (.discrete true false) }, controlledVehicles := 2 } ord rng)
      { road := none, controlled := [] } = .ok (x, sp, G', f) ∧ Member sp.observationSpace x) := by
  obtain ⟨e, h0, h⟩ := inter_contract {} { sim := { action := .multi (.discrete true false) }, controlledVehicles := 2 } inter_default_ok.2 (by norm_num)
    { classes := fun _ => Intersection.setTraffic .idm {} } rfl _ duoObs_good
    { outer := { type := some "MultiAgentAction" }, inner := some { type := some "DiscreteMetaAction", longitudinal := some true, lateral := some false } }
    (fun us => ⟨.multi (us.map fun _ => .discrete true false), by
      have : ∀ l : List ℕ, l.mapM (fun _ => (.ok (.discrete true false) : Py AgentType)) = .ok (l.map fun _ => .discrete true false) := by
        intro l
        induction l with
        | nil => rfl
        | cons a l ih => rw [List.mapM_cons, ih]; rfl
      simp only [Factory.action, Factory.keyed, Factory.required, bind, Except.bind, if_true, Factory.agentTypes]
      rw [show (fun _ : ℕ => Factory.singleAction { type := some "DiscreteMetaAction", longitudinal := some true, lateral := some false } "DiscreteMetaAction") =
        fun _ => (.ok (.discrete true false) : Py AgentType) from rfl, this]
      rfl, by simp [SameType]⟩) ord rng { road := none, controlled := [] }
  refine ⟨e, _, h0, fun hp => ?_⟩
  obtain ⟨x, sp, G', f, h1, -, h2, -⟩ := h (.inr hp)
  exact ⟨x, sp, G', f, h1, h2⟩

/-- The two-way environment as registered, for 25 seconds. -/
example (rng : Rng) : ∃ x sp f, Full.reset {} (.flat { type := some "TimeToCollision", horizon := some 5 }) { outer := { type := some "DiscreteMetaAction" } }
      {} {} (fun _ => TwoWay.reset {} {} rng) { road := none, controlled := [], policyFrequency := 1 } = .ok (x, sp, f) ∧ Member sp.observationSpace x ∧
    PlayingUntil 375 {} {} (TwoWay.cls {}) {} (TwoWayRolling {} 15 30) sp f :=
  twoWay_ttc_contract {} {} twoWay_default_ok 30
    ⟨⟨by norm_num, by norm_num, rfl⟩, by norm_num, ⟨by norm_num, by norm_num, by norm_num⟩, ⟨le_rfl, by norm_num⟩⟩ 375 (by norm_num) (by norm_num) {} rfl
    { type := some "TimeToCollision", horizon := some 5 } rfl (by norm_num)
    { outer := { type := some "DiscreteMetaAction" } } (fun _ => ⟨.single (.discrete true true), rfl, rfl⟩) rng
    { road := none, controlled := [], policyFrequency := 1 } ⟨rfl, .inl rfl⟩

end HighwayEnv.Props
