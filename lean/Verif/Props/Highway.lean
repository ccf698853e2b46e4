import Verif.Lemmas.Straight
import Verif.Props.EnvSafe
import Verif.Spec.Geometry

/-!
# The highway environment (C53, C54, C79, C80)
-/

noncomputable section
namespace HighwayEnv.Props
open HighwayEnv Spec Graph

private theorem le_foldl_max (xs : List ℝ) (a : ℝ) : a ≤ xs.foldl max a ∧ ∀ x ∈ xs, x ≤ xs.foldl max a := by
  induction xs generalizing a with
  | nil => simp
  | cons y ys ih =>
    obtain ⟨h1, h2⟩ := ih (max a y)
    simp only [List.foldl_cons]
    refine ⟨le_trans (le_max_left _ _) h1, ?_⟩
    intro x hx
    rcases List.mem_cons.1 hx with rfl | hx
    · exact le_trans (le_max_right _ _) h1
    · exact h2 x hx

theorem le_npMax {l : List ℝ} {x : ℝ} (h : x ∈ l) : x ≤ npMax l := by
  cases l with
  | nil => cases h
  | cons y ys =>
    obtain ⟨h1, h2⟩ := le_foldl_max ys y
    rcases List.mem_cons.1 h with rfl | h
    · exact h1
    · exact h2 x h

theorem npMax_mem {l : List ℝ} (h : l ≠ []) : npMax l ∈ l := by
  cases l with
  | nil => exact absurd rfl h
  | cons y ys =>
    clear h
    change List.foldl max y ys ∈ y :: ys
    induction ys generalizing y with
    | nil => simp
    | cons z zs ih =>
      simp only [List.foldl_cons]
      have := ih (max y z)
      rcases List.mem_cons.1 this with h | h
      · rw [h]
        rcases max_choice y z with h' | h' <;> rw [h'] <;> simp
      · simp [h]

theorem randint_ok (r : Rng) {n : ℕ} (h : 0 < n) : ∃ k r', r.randint n = .ok (k, r') ∧ k < n := by
  unfold Rng.randint
  rw [if_neg (by omega)]
  exact ⟨_, _, rfl, Nat.mod_lt _ h⟩

theorem choice_ok {α : Type} (r : Rng) {l : List α} (h : l ≠ []) : ∃ a r', r.choice l = .ok (a, r') ∧ a ∈ l := by
  obtain ⟨k, r', hk, hlt⟩ := randint_ok r (List.length_pos_iff.2 h)
  refine ⟨l[k], r', ?_, List.getElem_mem _⟩
  unfold Rng.choice
  simp only [hk, bind, Except.bind, List.getElem?_eq_getElem hlt]; rfl

theorem uniform_range (r : Rng) {a b : ℝ} (h : a < b) : a ≤ (r.uniform a b).1 ∧ (r.uniform a b).1 < b := by
  unfold Rng.uniform Rng.uniform01
  dsimp only
  have h0 := Int.fract_nonneg (r.reals r.rpos)
  have h1 := Int.fract_lt_one (r.reals r.rpos)
  constructor
  · nlinarith
  · nlinarith

theorem randomOffset_eq (spacing speed : ℝ) (n : ℕ) : Vehicle.randomOffset spacing speed n = meanGap spacing speed n := by
  unfold Vehicle.randomOffset meanGap
  rw [show (-5 / 30 * (n : ℝ)) = -n / 6 by ring]
  ring

/-! ## C79 — random creation of vehicles -/

/-- **C79, one vehicle.**  On a straight road, whatever the random draws, the new vehicle is put on the centre of an existing lane (the
requested one, if any), with the requested speed or one in [23, 25) m/s, ahead of the foremost vehicle by the mean gap times a factor
in [0.9, 1.1) (from three mean gaps after the start of the road if it is the first one). -/
theorem createRandom_spec (G : Globals) (r : Road) (n : ℕ) (hn : 0 < n) (len : ℝ) (hl : 0 < len)
    (hnet : r.network = straightNet n len) (uid : ℕ) (kind : VKind) (speed : Option ℝ) (laneId : Option Int) (spacing : ℝ)
    (hlane : ∀ k, laneId = some k → 0 ≤ k ∧ k < n) :
    ∃ v rng', Vehicle.createRandom G r uid kind speed laneId spacing = .ok (v, rng') ∧ v.uid = uid ∧ v.kind = kind ∧
      OnCentre n len v ∧ (∀ s, speed = some s → v.speed = s) ∧ (speed = none → 23 ≤ v.speed ∧ v.speed < 25) ∧
      (∀ k, laneId = some k → v.laneIndex.id = k) ∧
      ∃ u, 9 / 10 ≤ u ∧ u < 11 / 10 ∧
        ((r.vehicles = [] ∧ v.pos.x = (3 + u) * meanGap spacing v.speed n) ∨
         ∃ w ∈ r.vehicles, (∀ w' ∈ r.vehicles, w'.pos.x ≤ w.pos.x) ∧ v.pos.x = w.pos.x + u * meanGap spacing v.speed n) := by
  set s := Vehicle.randomSpeed r.rng speed with hs
  have hkeys : Dict.keys r.network = ["0"] := by rw [hnet]; rfl
  obtain ⟨src, rng1, h1, h1'⟩ := choice_ok s.2 (l := Dict.keys r.network) (by rw [hkeys]; simp)
  have hsrc : src = "0" := by rw [hkeys] at h1'; simpa using h1'
  subst hsrc
  have hd : Dict.getItem r.network "0" = .ok [("1", (List.range n).map (straightLane len))] := by
    rw [hnet]; simp [straightNet, Dict.getItem, Dict.get?]
  obtain ⟨dst, rng2, h2, h2'⟩ := choice_ok rng1 (l := Dict.keys [("1", (List.range n).map (straightLane len))]) (by simp [Dict.keys])
  have hdst : dst = "1" := by simpa [Dict.keys] using h2'
  subst hdst
  have hls : r.network.lanesOf "0" "1" = .ok ((List.range n).map (straightLane len)) := by rw [hnet]; exact straightNet_lanesOf n len
  obtain ⟨k, rng3, h3, hk, hkid⟩ : ∃ (k : ℕ) (rng3 : Rng), Vehicle.randomLane rng2 ((List.range n).map (straightLane len)).length laneId
      = .ok ((k : Int), rng3) ∧ k < n ∧ ∀ j, laneId = some j → (k : Int) = j := by
    cases laneId with
    | none =>
      obtain ⟨k, r', hk, hlt⟩ := randint_ok rng2 (n := ((List.range n).map (straightLane len)).length) (by simpa using hn)
      refine ⟨k, r', ?_, by simpa using hlt, by simp⟩
      simp only [Vehicle.randomLane, hk, bind, Except.bind]; rfl
    | some j =>
      obtain ⟨a, b⟩ := hlane j rfl
      refine ⟨j.toNat, rng2, ?_, by omega, ?_⟩
      · simp only [Vehicle.randomLane]; rw [Int.toNat_of_nonneg a]
      · intro j' h; cases h; omega
  simp only [List.length_map, List.length_range] at h3
  have hgl : r.network.getLane ⟨"0", "1", (k : Int)⟩ = .ok (straightLane len k) := by rw [hnet]; exact straightNet_getLane hn hk
  set x0 := Vehicle.lastAbscissa (straightLane len k) r.vehicles (Vehicle.randomOffset spacing s.1 n) +
    Vehicle.randomOffset spacing s.1 n * (rng3.uniform (9 / 10) (11 / 10)).1 with hx0
  obtain ⟨v, hv, b1, b2, b3, b4, b5, b6, b7, b8, b9, b10, b11⟩ := straightNet_build hn hl hk G uid kind x0 s.1
  have hpos : (straightLane len k).position x0 0 = ⟨x0, 4 * k⟩ := by rw [straightLane_position hl]; simp
  refine ⟨v, (rng3.uniform (9 / 10) (11 / 10)).2, ?_, b1, b2, ⟨⟨k, hk, by rw [b3], b6, b8, b7⟩, b4, b9, b10, b11⟩, ?_, ?_, ?_,
    (rng3.uniform (9 / 10) (11 / 10)).1, (uniform_range rng3 (by norm_num)).1, (uniform_range rng3 (by norm_num)).2, ?_⟩
  · unfold Vehicle.createRandom
    simp only [← hs, h1, hd, h2, hls, h3, hgl, bind, Except.bind, List.length_map, List.length_range, ← hx0, hpos,
      straightLane_heading hl]
    rw [hnet, hv]; rfl
  · rintro t rfl; rw [b5]; rfl
  · rintro rfl; rw [b5]; exact uniform_range r.rng (by norm_num)
  · intro j hj; rw [b6]; exact hkid j hj
  · rw [b3, b5]
    dsimp only
    rw [hx0, randomOffset_eq]
    unfold Vehicle.lastAbscissa
    by_cases hnil : r.vehicles = []
    · left
      refine ⟨hnil, ?_⟩
      rw [if_neg (by simp [hnil])]; ring
    · right
      rw [if_pos hnil]
      have hmem := npMax_mem (l := r.vehicles.map fun v => ((straightLane len k).localCoordinates v.pos).1) (by simpa using hnil)
      obtain ⟨w, hw, hwx⟩ := List.mem_map.1 hmem
      refine ⟨w, hw, ?_, ?_⟩
      · intro w' hw'
        have := le_npMax (List.mem_map_of_mem (f := fun v => ((straightLane len k).localCoordinates v.pos).1) hw')
        rw [← hwx] at this
        simpa only [straightLane_local hl] using this
      · rw [← hwx, straightLane_local hl]; ring

theorem meanGap_pos {spacing speed : ℝ} (h1 : 0 < spacing) (h2 : 0 < speed) (n : ℕ) : 0 < meanGap spacing speed n := by
  unfold meanGap; positivity

theorem meanGap_mono {spacing s t : ℝ} (h1 : 0 < spacing) (h : s ≤ t) (n : ℕ) : meanGap spacing s n ≤ meanGap spacing t n := by
  unfold meanGap
  have : 0 < Real.exp (-(n : ℝ) / 6) := Real.exp_pos _
  nlinarith [mul_le_mul_of_nonneg_left h (mul_pos h1 this).le]

/-- **C79, a whole batch.**  Any number of random vehicles can be added to a straight road; they get consecutive identities, and each
is ahead of all previous vehicles by at least 0.9 mean gaps, computed for the lowest possible speed `v0`. -/
theorem addRandom_spec (G : Globals) (n : ℕ) (hn : 0 < n) (len : ℝ) (hl : 0 < len) (kind : VKind) (speed : Option ℝ)
    (laneId : Option Int) (spacing v0 : ℝ) (hsp : 0 < spacing) (hlane : ∀ k, laneId = some k → 0 ≤ k ∧ k < n) (hv0 : 0 < v0)
    (hs : ∀ s, speed = some s → v0 ≤ s) (hs' : speed = none → v0 ≤ 23) (m uid : ℕ) (r : Road) (hnet : r.network = straightNet n len) :
    ∃ vs rng', r.addRandom G kind speed laneId spacing m uid = .ok { r with vehicles := r.vehicles ++ vs, rng := rng' } ∧
      vs.length = m ∧
      (∀ (i : ℕ) (v : Vehicle), vs[i]? = some v → v.uid = uid + i ∧ v.kind = kind ∧ OnCentre n len v ∧
        (∀ s, speed = some s → v.speed = s) ∧ (speed = none → 23 ≤ v.speed ∧ v.speed < 25) ∧
        (∀ k, laneId = some k → v.laneIndex.id = k)) ∧
      (∀ v ∈ r.vehicles, ∀ w ∈ vs, v.pos.x + 9 / 10 * meanGap spacing v0 n ≤ w.pos.x) ∧
      vs.Pairwise (fun v w => v.pos.x + 9 / 10 * meanGap spacing v0 n ≤ w.pos.x) ∧
      ((∀ v ∈ r.vehicles, 0 < v.pos.x) → ∀ w ∈ vs, 0 < w.pos.x) := by
  induction m generalizing uid r with
  | zero => exact ⟨[], r.rng, by simp [Road.addRandom], rfl, by simp, by simp, by simp, by simp⟩
  | succ m ih =>
    obtain ⟨v, rng1, h1, c1, c2, c3, c4, c5, c6, u, u1, u2, hx⟩ :=
      createRandom_spec G r n hn len hl hnet uid kind speed laneId spacing hlane
    obtain ⟨vs, rng2, d1, d2, d3, d4, d5, d6⟩ := ih (uid + 1) { r with vehicles := r.vehicles ++ [v], rng := rng1 } hnet
    have hsv : v0 ≤ v.speed := by
      cases speed with
      | none => exact le_trans (hs' rfl) (c5 rfl).1
      | some s => rw [c4 s rfl]; exact hs s rfl
    have hg0 := meanGap_pos hsp hv0 n
    have hg1 := meanGap_mono hsp hsv n
    have hfirst : ∀ w ∈ r.vehicles, w.pos.x + 9 / 10 * meanGap spacing v0 n ≤ v.pos.x := by
      intro w hw
      rcases hx with ⟨hnil, _⟩ | ⟨w', _, hmax, hx⟩
      · rw [hnil] at hw; cases hw
      · have := hmax w hw
        rw [hx]; nlinarith
    refine ⟨v :: vs, rng2, ?_, by simp [d2], ?_, ?_, ?_, ?_⟩
    · unfold Road.addRandom
      simp only [h1, bind, Except.bind, d1]
      simp
    · intro i w hw
      cases i with
      | zero =>
        simp only [List.getElem?_cons_zero, Option.some.injEq] at hw
        subst hw
        exact ⟨c1, c2, c3, c4, c5, c6⟩
      | succ i =>
        rw [List.getElem?_cons_succ] at hw
        obtain ⟨e1, e2⟩ := d3 i w hw
        exact ⟨by rw [e1]; omega, e2⟩
    · intro a ha w hw
      rcases List.mem_cons.1 hw with rfl | hw
      · exact hfirst a ha
      · exact d4 a (by simp [ha]) w hw
    · exact List.pairwise_cons.2 ⟨fun w hw => d4 v (by simp) w hw, d5⟩
    · intro hpos
      have hv : 0 < v.pos.x := by
        rcases hx with ⟨_, hx⟩ | ⟨w', hw', _, hx⟩
        · rw [hx]; nlinarith
        · have := hpos w' hw'
          rw [hx]; nlinarith
      intro w hw
      rcases List.mem_cons.1 hw with rfl | hw
      · exact hv
      · refine d6 ?_ w hw
        intro a ha
        rcases List.mem_append.1 ha with ha | ha
        · exact hpos a ha
        · rw [List.mem_singleton.1 ha]; exact hv

/-! ## C80 — resetting the highway -/

theorem agentOf_agent (t : ActionType) : agentOf t = t.agent := by cases t <;> rfl

theorem vehicleClass_cases (t : AgentType) : t.vehicleClass = .plain ∨ t.vehicleClass = .bicycle ∨ t.vehicleClass = .mdp := by
  cases t with
  | continuous c => unfold AgentType.vehicleClass; dsimp only; split <;> simp
  | discrete lo la => simp [AgentType.vehicleClass]

/-- The vehicle is attached to the straight network it was put on. -/
theorem OnCentre.attached {n : ℕ} (hn : 0 < n) {len : ℝ} {v : Vehicle} (h : OnCentre n len v) :
    Attached (straightNet n len) v ∧ RouteExists (straightNet n len) v.route := by
  obtain ⟨k, hk, h1, h2, h3, h4⟩ := h.lane
  refine ⟨⟨?_, ?_, ?_⟩, ?_⟩
  · rw [h2]; exact straightNet_valid.2 ⟨rfl, rfl, by simp, by simpa using hk⟩
  · rw [h2, h4]; exact straightNet_getLane hn hk
  · rw [h3]; exact straightNet_valid.2 ⟨rfl, rfl, by simp, by simpa using hk⟩
  · rw [h.route]; simp [RouteExists]

/-- **C80.**  Whatever the seed, `reset` succeeds and gives an environment in which every action can be played: the controlled vehicles
come first, at 25 m/s and on the requested lane, followed by the requested number of traffic vehicles at 23 to 25 m/s; all are distinct,
centred on existing lanes, unharmed, and each is ahead of all previous ones by at least 0.9 mean gaps. -/
theorem highway_reset (G : Globals) (cfg : HighwayConfig) (hc : HighwayOk cfg) (rng : Rng) :
    ∃ e, Highway.reset G cfg rng = .ok e ∧ Ready cfg.sim e ∧ e.road.network = straightNet cfg.lanesCount 10000 ∧
      e.road.regulated = false ∧ e.controlled = List.range cfg.controlledVehicles ∧ e.steps = 0 ∧ e.time = 0 ∧ e.done = false ∧
      e.road.vehicles.length = cfg.controlledVehicles + cfg.vehiclesCount ∧
      (∀ (i : ℕ) (v : Vehicle), e.road.vehicles[i]? = some v → v.uid = i ∧ OnCentre cfg.lanesCount 10000 v ∧ 0 < v.pos.x ∧
        (i < cfg.controlledVehicles → v.kind = cfg.sim.action.agent.vehicleClass ∧ v.speed = 25 ∧
          ∀ k, cfg.initialLaneId = some k → v.laneIndex.id = k) ∧
        (cfg.controlledVehicles ≤ i → v.kind = cfg.otherVehiclesType ∧ 23 ≤ v.speed ∧ v.speed < 25)) ∧
      (∀ (i j : ℕ) (v w : Vehicle), i < j → e.road.vehicles[i]? = some v → e.road.vehicles[j]? = some w →
        v.pos.x + 9 / 10 * (if j < cfg.controlledVehicles then meanGap cfg.egoSpacing 25 cfg.lanesCount
          else meanGap (1 / cfg.vehiclesDensity) 23 cfg.lanesCount) ≤ w.pos.x) := by
  obtain ⟨t, ht⟩ := hc.action
  have hnet : (Highway.createRoad cfg rng).network = straightNet cfg.lanesCount 10000 := straightRoadNetwork_eq _ hc.lanes _
  obtain ⟨es, rng1, a1, a2, a3, a4, a5, a6⟩ := addRandom_spec G cfg.lanesCount hc.lanes 10000 (by norm_num)
    cfg.sim.action.agent.vehicleClass (some 25) cfg.initialLaneId cfg.egoSpacing 25 hc.spacing hc.initial (by norm_num)
    (by simp) (by simp) cfg.controlledVehicles 0 (Highway.createRoad cfg rng) hnet
  obtain ⟨ts, rng2, b1, b2, b3, b4, b5, b6⟩ := addRandom_spec G cfg.lanesCount hc.lanes 10000 (by norm_num)
    cfg.otherVehiclesType none none (1 / cfg.vehiclesDensity) 23 (by have := hc.density; positivity) (by simp) (by norm_num)
    (by simp) (by simp) cfg.vehiclesCount cfg.controlledVehicles
    { Highway.createRoad cfg rng with vehicles := (Highway.createRoad cfg rng).vehicles ++ es, rng := rng1 } hnet
  have hes : (Highway.createRoad cfg rng).vehicles = [] := rfl
  simp only [hes, List.nil_append] at a1 a6 b1 b4 b6
  set R : Road := { Highway.createRoad cfg rng with vehicles := es ++ ts, rng := rng2 } with hR
  have hRv : R.vehicles = es ++ ts := rfl
  have hx1 : ∀ v ∈ es, 0 < v.pos.x := a6 (by simp)
  have hx2 : ∀ v ∈ ts, 0 < v.pos.x := b6 hx1
  have key : ∀ (i : ℕ) (v : Vehicle), R.vehicles[i]? = some v → v.uid = i ∧ OnCentre cfg.lanesCount 10000 v ∧ 0 < v.pos.x ∧
        (i < cfg.controlledVehicles → v.kind = cfg.sim.action.agent.vehicleClass ∧ v.speed = 25 ∧
          ∀ k, cfg.initialLaneId = some k → v.laneIndex.id = k) ∧
        (cfg.controlledVehicles ≤ i → v.kind = cfg.otherVehiclesType ∧ 23 ≤ v.speed ∧ v.speed < 25) := by
    intro i v hi
    rw [hRv] at hi
    by_cases hlt : i < cfg.controlledVehicles
    · rw [List.getElem?_append_left (by omega)] at hi
      obtain ⟨p1, p2, p3, p4, p5, p6⟩ := a3 i v hi
      exact ⟨by omega, p3, hx1 v (List.mem_of_getElem? hi), fun _ => ⟨p2, p4 25 rfl, p6⟩, fun h => by omega⟩
    · rw [List.getElem?_append_right (by omega), a2] at hi
      obtain ⟨p1, p2, p3, p4, p5, p6⟩ := b3 _ v hi
      exact ⟨by omega, p3, hx2 v (List.mem_of_getElem? hi), fun h => by omega, fun _ => ⟨p2, p5 rfl⟩⟩
  have hmem : ∀ v ∈ R.vehicles, ∃ i : ℕ, R.vehicles[i]? = some v := fun v hv => List.mem_iff_getElem?.1 hv
  have huids : R.vehicles.map (·.uid) = List.range (cfg.controlledVehicles + cfg.vehiclesCount) := by
    apply List.ext_getElem?
    intro i
    rw [List.getElem?_map]
    by_cases hlt : i < R.vehicles.length
    · have hi := List.getElem?_eq_getElem hlt
      rw [hi]
      simp only [Option.map_some]
      rw [(key i _ hi).1, List.getElem?_range (by rw [hRv, List.length_append, a2, b2] at hlt; exact hlt)]
    · rw [List.getElem?_eq_none (by omega)]
      simp only [Option.map_none]
      rw [List.getElem?_eq_none (by rw [hRv, List.length_append, a2, b2] at hlt; simpa using hlt)]
  have hclass := vehicleClass_cases cfg.sim.action.agent
  refine ⟨{ road := R, controlled := List.range cfg.controlledVehicles, nextUid := cfg.controlledVehicles + cfg.vehiclesCount },
    ?_, ⟨?_, ⟨?_, ?_, ?_⟩, ?_, ?_, ?_⟩, hnet, rfl, rfl, rfl, rfl, rfl, ?_, key, ?_⟩
  · unfold Highway.reset Highway.createVehicles
    simp only [ht, a1, bind, Except.bind]
    rw [if_neg (by have := hc.density; rintro ⟨h, _⟩; linarith)]
    simp only [b1]; rfl
  · refine ⟨?_, ?_, ?_, ?_⟩
    · rw [show R.network = straightNet cfg.lanesCount 10000 from hnet]; exact straightNet_wf hc.lanes _
    · intro v hv
      obtain ⟨i, hi⟩ := hmem v hv
      rw [show R.network = straightNet cfg.lanesCount 10000 from hnet]
      exact OnCentre.attached hc.lanes (key i v hi).2.1
    · rintro ⟨v, hv, hlin⟩
      obtain ⟨i, hi⟩ := hmem v hv
      obtain ⟨_, _, _, q1, q2⟩ := key i v hi
      have hlt : ¬ i < cfg.controlledVehicles := by
        intro h
        rw [(q1 h).1] at hlin
        rcases hclass with h' | h' | h' <;> rw [h'] at hlin <;> cases hlin
      rw [(q2 (by omega)).1] at hlin
      have hm := hc.linear hlin
      refine ⟨?_, by intro o ho; cases ho⟩
      intro w hw
      obtain ⟨j, hj⟩ := hmem w hw
      obtain ⟨_, _, _, q1, q2⟩ := key j w hj
      by_cases h : j < cfg.controlledVehicles
      · rw [(q1 h).1, hm]; rfl
      · rw [(q2 (by omega)).1]
        revert hlin
        cases cfg.otherVehiclesType <;> simp [VKind.isLinear, VKind.isControlled]
    · intro h; cases h
  · rw [huids]; exact List.nodup_range
  · intro uid hu
    rw [List.mem_range] at hu
    have hlt : uid < R.vehicles.length := by rw [hRv, List.length_append, a2]; omega
    exact ⟨_, List.getElem_mem hlt, (key uid _ (List.getElem?_eq_getElem hlt)).1⟩
  · intro h
    have := congrArg List.length h
    simp only [List.length_range, List.length_nil] at this
    have := hc.egos
    omega
  · intro v hv hu
    obtain ⟨i, hi⟩ := hmem v hv
    obtain ⟨q0, _, _, q1, q2⟩ := key i v hi
    rw [agentOf_agent]
    rw [List.mem_range, q0] at hu
    exact (q1 hu).1
  · rw [agentOf_agent]; exact hc.action
  · intro h; cases h
  · rw [hRv, List.length_append, a2, b2]
  · intro i j v w hij hv hw
    change R.vehicles[i]? = some v at hv
    change R.vehicles[j]? = some w at hw
    rw [hRv] at hv hw
    by_cases hj : j < cfg.controlledVehicles
    · rw [if_pos hj]
      rw [List.getElem?_append_left (by omega)] at hv hw
      obtain ⟨l1, rfl⟩ := List.getElem?_eq_some_iff.1 hv
      obtain ⟨l2, rfl⟩ := List.getElem?_eq_some_iff.1 hw
      exact List.pairwise_iff_getElem.1 a5 i j l1 l2 hij
    · rw [if_neg hj]
      rw [List.getElem?_append_right (by omega)] at hw
      by_cases hi : i < cfg.controlledVehicles
      · rw [List.getElem?_append_left (by omega)] at hv
        exact b4 v (List.mem_of_getElem? hv) w (List.mem_of_getElem? hw)
      · rw [List.getElem?_append_right (by omega)] at hv
        obtain ⟨l1, rfl⟩ := List.getElem?_eq_some_iff.1 hv
        obtain ⟨l2, rfl⟩ := List.getElem?_eq_some_iff.1 hw
        exact List.pairwise_iff_getElem.1 b5 _ _ l1 l2 (by omega)

/-! ## C53 — the highway reward -/

theorem run_network {G : Globals} {r r' : Road} (h : RoadRun G r r') : r'.network = r.network := by
  induction h with
  | refl => rfl
  | tail _ he ih => exact (Road.RoadEvent.network he).trans ih

private theorem clip_eq (x : ℝ) : npClip x 0 1 = max 0 (min 1 x) := by
  unfold npClip
  rcases le_total x 0 with h | h <;> rcases le_total x 1 with h' | h'
  · rw [max_eq_right h, min_eq_right h', max_eq_left h, min_eq_left (by norm_num)]
  · linarith
  · rw [max_eq_left h, min_eq_right h', max_eq_right h, min_eq_left h']
  · rw [max_eq_left h, min_eq_left h', max_eq_right (by norm_num), min_eq_right h']

private theorem rawReward_eq (cfg : HighwayConfig) (n : ℕ) (v : Vehicle) :
    Highway.rawReward cfg n v =
      highwayScore cfg.collisionReward cfg.rewardSpeedRange n (Highway.rewardLane v) v.speed v.crashed := by
  have hm : (((max ((n : Int) - 1) 1 : Int)) : ℝ) = max ((n : ℝ) - 1) 1 := by push_cast; rfl
  unfold Highway.rawReward highwayScore lmap
  dsimp only
  rw [hm, clip_eq]
  simp only [Highway.ofBool, Highway.RIGHT_LANE_REWARD, Highway.HIGH_SPEED_REWARD]
  have h1 : (0 : ℝ) + (v.speed - cfg.rewardSpeedRange.1) * (1 - 0) / (cfg.rewardSpeedRange.2 - cfg.rewardSpeedRange.1) =
      (v.speed - cfg.rewardSpeedRange.1) / (cfg.rewardSpeedRange.2 - cfg.rewardSpeedRange.1) := by ring
  rw [h1]
  cases v.crashed
  · simp only [Bool.false_eq_true, if_false]
    ring
  · simp only [if_true]
    ring

/-- The vehicle of a ready state: it is a controlled vehicle, attached to the network. -/
theorem ready_vehicle {c : SimConfig} {e : Env} (h : Ready c e) : ∃ v, e.vehicle = .ok v ∧ v ∈ e.road.vehicles ∧
    v.uid ∈ e.controlled ∧ v.kind = (agentOf c.action).vehicleClass ∧ Attached e.road.network v := by
  obtain ⟨v, h1, h2, h3⟩ := vehicle_total h
  exact ⟨v, h1, h2, h3, h.fitted v h2 h3, (h.healthy.attached v h2).1⟩

private theorem rewardLane_eq {c : SimConfig} {v : Vehicle} (h : v.kind = (agentOf c.action).vehicleClass) :
    Highway.rewardLane v = creditedLane v := by
  unfold Highway.rewardLane creditedLane
  rcases vehicleClass_cases (agentOf c.action) with h' | h' | h' <;> rw [h, h'] <;> simp [VKind.isControlled]

private theorem credited_range {n : ℕ} {len : ℝ} {v : Vehicle} (h : Attached (straightNet n len) v) :
    0 ≤ creditedLane v ∧ creditedLane v < n := by
  unfold creditedLane
  split
  · exact (straightNet_valid.1 h.target).2.2
  · exact (straightNet_valid.1 h.here).2.2

/-- **C53, the exact reward.**  In every ready state on an `n`-lane highway, the reward is 0 when the ego vehicle is off the road and
its score otherwise; the lane it is credited for is one of the `n` lanes. -/
theorem highway_reward (cfg : HighwayConfig) (n : ℕ) (hn : 0 < n) (len : ℝ) (e : Env) (h : Ready cfg.sim e)
    (hnet : e.road.network = straightNet n len) (a : Option AgentAction) :
    ∃ v, e.vehicle = .ok v ∧ 0 ≤ creditedLane v ∧ creditedLane v < n ∧
      (Highway.cls cfg).reward e a = .ok (if v.onRoad = true then
        highwayScore cfg.collisionReward cfg.rewardSpeedRange n (creditedLane v) v.speed v.crashed else 0) := by
  obtain ⟨v, h1, h2, h3, h4, h5⟩ := ready_vehicle h
  rw [hnet] at h5
  obtain ⟨r1, r2⟩ := credited_range h5
  refine ⟨v, h1, r1, r2, ?_⟩
  obtain ⟨s1, s2, _⟩ := straightNet_valid.1 h5.here
  have hs : e.road.network.allSideLanes v.laneIndex = .ok ((List.range n).map fun k : ℕ => ⟨"0", "1", (k : Int)⟩) := by
    unfold allSideLanes
    rw [hnet, s1, s2, straightNet_lanesOf]
    simp [bind, Except.bind, pure, Except.pure]
  simp only [Highway.cls, Highway.reward, h1, hs, bind, Except.bind, List.length_map, List.length_range, rawReward_eq,
    rewardLane_eq h4]
  cases v.onRoad <;> simp [pure, Except.pure]

/-- **C53, bounds and anchors.**  For a collision penalty `c ≤ 0` and a lane of the road the score is in [0, 1]; without a crash it is at
least `-c / (0.5 - c)`, with a crash at most `0.5 / (0.5 - c)` (for the default `c = -1`: at least 2/3, at most 1/3). -/
theorem score_bounds (c : ℝ) (hc : c ≤ 0) (range : ℝ × ℝ) (n : ℕ) (lane : Int) (h0 : 0 ≤ lane) (h1 : lane < n) (speed : ℝ)
    (crashed : Bool) :
    0 ≤ highwayScore c range n lane speed crashed ∧ highwayScore c range n lane speed crashed ≤ 1 ∧
    (crashed = false → -c / (0.5 - c) ≤ highwayScore c range n lane speed crashed) ∧
    (crashed = true → highwayScore c range n lane speed crashed ≤ 0.5 / (0.5 - c)) := by
  have hd : (0 : ℝ) < 0.5 - c := by norm_num; linarith
  set q : ℝ := (lane : ℝ) / max ((n : ℝ) - 1) 1 with hq
  set w : ℝ := max 0 (min 1 ((speed - range.1) / (range.2 - range.1))) with hw
  have hw0 : 0 ≤ w := le_max_left _ _
  have hw1 : w ≤ 1 := max_le (by norm_num) (min_le_left _ _)
  have hm : (0 : ℝ) < max ((n : ℝ) - 1) 1 := lt_of_lt_of_le one_pos (le_max_right _ _)
  have hq0 : 0 ≤ q := div_nonneg (by exact_mod_cast h0) hm.le
  have hq1 : q ≤ 1 := by
    rw [hq, div_le_one hm]
    refine le_trans ?_ (le_max_left _ _)
    have : lane ≤ (n : Int) - 1 := by omega
    exact_mod_cast this
  unfold highwayScore
  rw [← hq, ← hw]
  refine ⟨?_, ?_, ?_, ?_⟩
  · apply div_nonneg _ hd.le
    cases crashed <;> simp <;> nlinarith
  · rw [div_le_one hd]
    cases crashed <;> simp <;> nlinarith
  · rintro rfl
    apply div_le_div_of_nonneg_right _ hd.le
    simp; nlinarith
  · rintro rfl
    apply div_le_div_of_nonneg_right _ hd.le
    simp; nlinarith

/-- **C53, monotonicity.**  Further right, or faster, is never worse; a crash is strictly worse for equal lane and speed. -/
theorem score_monotone (c : ℝ) (hc : c < 0) (range : ℝ × ℝ) (hr : range.1 < range.2) (n : ℕ) (lane lane' : Int) (speed speed' : ℝ)
    (b : Bool) (hl : lane ≤ lane') (hs : speed ≤ speed') :
    highwayScore c range n lane speed b ≤ highwayScore c range n lane' speed' b ∧
    highwayScore c range n lane speed true < highwayScore c range n lane speed false := by
  have hd : (0 : ℝ) < 0.5 - c := by norm_num; linarith
  have hm : (0 : ℝ) < max ((n : ℝ) - 1) 1 := lt_of_lt_of_le one_pos (le_max_right _ _)
  have hr' : 0 < range.2 - range.1 := by linarith
  unfold highwayScore
  constructor
  · apply div_le_div_of_nonneg_right _ hd.le
    have h1 : (lane : ℝ) / max ((n : ℝ) - 1) 1 ≤ (lane' : ℝ) / max ((n : ℝ) - 1) 1 :=
      div_le_div_of_nonneg_right (by exact_mod_cast hl) hm.le
    have h2 : max 0 (min 1 ((speed - range.1) / (range.2 - range.1))) ≤ max 0 (min 1 ((speed' - range.1) / (range.2 - range.1))) :=
      max_le_max le_rfl (min_le_min le_rfl (div_le_div_of_nonneg_right (by linarith) hr'.le))
    linarith
  · apply div_lt_div_of_pos_right _ hd
    simp; linarith

/-- **C53, strict monotonicity.**  A lane further right is strictly better at equal speed; within the range of rewarded speeds, faster is strictly better in the same lane. -/
theorem score_strict (c : ℝ) (hc : c < 0) (range : ℝ × ℝ) (hr : range.1 < range.2) (n : ℕ) (lane lane' : Int) (speed speed' : ℝ) (b : Bool) :
    (lane < lane' → highwayScore c range n lane speed b < highwayScore c range n lane' speed b) ∧
    (range.1 ≤ speed → speed < speed' → speed' ≤ range.2 → highwayScore c range n lane speed b < highwayScore c range n lane speed' b) := by
  have hd : (0 : ℝ) < 0.5 - c := by norm_num; linarith
  have hm : (0 : ℝ) < max ((n : ℝ) - 1) 1 := lt_of_lt_of_le one_pos (le_max_right _ _)
  have hr' : 0 < range.2 - range.1 := by linarith
  unfold highwayScore
  constructor
  · intro hl
    apply div_lt_div_of_pos_right _ hd
    have h1 : (lane : ℝ) / max ((n : ℝ) - 1) 1 < (lane' : ℝ) / max ((n : ℝ) - 1) 1 := div_lt_div_of_pos_right (by exact_mod_cast hl) hm
    linarith
  · intro h0 h1 h2
    apply div_lt_div_of_pos_right _ hd
    have e : ∀ x, range.1 ≤ x → x ≤ range.2 → max 0 (min 1 ((x - range.1) / (range.2 - range.1))) = (x - range.1) / (range.2 - range.1) := by
      intro x hx hy
      rw [min_eq_right ((div_le_one hr').2 (by linarith)), max_eq_right (div_nonneg (by linarith) hr'.le)]
    rw [e speed h0 (by linarith), e speed' (by linarith) h2]
    have : (speed - range.1) / (range.2 - range.1) < (speed' - range.1) / (range.2 - range.1) := div_lt_div_of_pos_right (by linarith) hr'
    linarith

/-- The score 1 is reached exactly by driving unharmed in the last lane at the top of the speed range or more. -/
theorem score_one_iff (c : ℝ) (hc : c < 0) (range : ℝ × ℝ) (hr : range.1 < range.2) (n : ℕ) (hn : 2 ≤ n) (lane : Int) (_h0 : 0 ≤ lane)
    (h1 : lane < n) (speed : ℝ) (b : Bool) :
    highwayScore c range n lane speed b = 1 ↔ b = false ∧ lane = n - 1 ∧ range.2 ≤ speed := by
  have hd : (0 : ℝ) < 0.5 - c := by norm_num; linarith
  have hn' : (1 : ℝ) ≤ (n : ℝ) - 1 := by have : (2 : ℝ) ≤ n := by exact_mod_cast hn
                                         linarith
  have hr' : 0 < range.2 - range.1 := by linarith
  set w : ℝ := max 0 (min 1 ((speed - range.1) / (range.2 - range.1))) with hw
  have hw1 : w ≤ 1 := max_le (by norm_num) (min_le_left _ _)
  have hq1 : (lane : ℝ) / max ((n : ℝ) - 1) 1 ≤ 1 := by
    rw [max_eq_left hn', div_le_one (by linarith)]
    have : lane ≤ (n : Int) - 1 := by omega
    exact_mod_cast this
  unfold highwayScore
  rw [← hw, div_eq_one_iff_eq hd.ne']
  constructor
  · intro h
    have hb : b = false := by
      cases b with
      | false => rfl
      | true => exfalso; simp only [if_true] at h; linarith
    subst hb
    simp only [Bool.false_eq_true, if_false] at h
    have e1 : (lane : ℝ) / max ((n : ℝ) - 1) 1 = 1 := by linarith
    have e2 : w = 1 := by linarith
    refine ⟨rfl, ?_, ?_⟩
    · rw [max_eq_left hn', div_eq_one_iff_eq (by linarith)] at e1
      have : ((lane : Int) : ℝ) = (((n : Int) - 1 : Int) : ℝ) := by push_cast; exact e1
      exact_mod_cast this
    · by_contra hlt
      have h2 : (speed - range.1) / (range.2 - range.1) < 1 := by rw [div_lt_one hr']; linarith
      have : w < 1 := max_lt (by norm_num) (lt_of_le_of_lt (min_le_right _ _) h2)
      linarith
  · rintro ⟨rfl, rfl, h⟩
    have e1 : ((((n : Int) - 1 : Int)) : ℝ) / max ((n : ℝ) - 1) 1 = 1 := by
      rw [max_eq_left hn']; push_cast; exact div_self (by linarith)
    have e2 : w = 1 := by
      have : 1 ≤ (speed - range.1) / (range.2 - range.1) := by rw [le_div_iff₀ hr']; linarith
      rw [hw, min_eq_left this]; norm_num
    rw [e1, e2]; norm_num

/-! ## C54 and C80 — highway episodes -/

/-- The methods of the highway environment raise nothing. -/
theorem highway_reliable (G : Globals) (cfg : HighwayConfig) (n : ℕ) (hn : 0 < n) (len : ℝ) :
    Reliable G cfg.sim (Highway.cls cfg) fun e => e.road.network = straightNet n len where
  lasting := fun e r _ _ h hr => (run_network hr).trans h
  terminal := fun e h _ => by
    obtain ⟨v, hv, _⟩ := vehicle_total h
    exact ⟨_, by simp only [Highway.cls, Highway.terminal, hv, bind, Except.bind]; rfl⟩
  reward := fun e a h hI _ => by
    obtain ⟨v, _, _, _, hr⟩ := highway_reward cfg n hn len e h hI (some a)
    exact ⟨_, hr⟩
  cost := fun e h _ => by
    obtain ⟨v, hv, _⟩ := vehicle_total h
    exact .inl ⟨_, by simp only [Highway.cls, Highway.cost, hv, bind, Except.bind]; rfl⟩
  after := fun e h hI => ⟨e, rfl, h, hI⟩

/-- **C54, exact termination.** -/
theorem highway_terminal_iff (cfg : HighwayConfig) (e : Env) (v : Vehicle) (hv : e.vehicle = .ok v) (b : Bool)
    (h : (Highway.cls cfg).terminal e = .ok b) :
    b = true ↔ v.crashed = true ∨ cfg.duration ≤ e.steps ∨ (cfg.offroadTerminal = true ∧ v.onRoad = false) := by
  simp only [Highway.cls, Highway.terminal, hv, bind, Except.bind] at h
  cases h
  simp [or_assoc]

/-- **C53, C54, C80, whole episodes.**  From a reset with any seed, any sequence of actions of the space can be played without an
exception.  Every reward is in [0, 1]; the cost is 1 or 0 according to whether the ego vehicle is crashed; decision number `k` (from 0)
is terminal when the ego is crashed or `k + 1` reaches the duration, and only then — or, if so configured, when the ego is off the
road (with reward 0; see `highway_terminal_iff` for the exact condition). -/
theorem highway_episode (G : Globals) (cfg : HighwayConfig) (hc : HighwayOk cfg) (hcol : cfg.collisionReward ≤ 0)
    (hp : cfg.sim.policyFrequency ≠ 0) (rng : Rng) (as : List AgentAction) (ha : ∀ a ∈ as, InEnvSpace cfg.sim.action a) :
    ∃ e rs e', Highway.reset G cfg rng = .ok e ∧ Episode G cfg.sim (Highway.cls cfg) e as rs e' ∧ rs.length = as.length ∧
      ∀ (k : ℕ) (res : StepResult), rs[k]? = some res →
        (0 ≤ res.reward ∧ res.reward ≤ 1) ∧ res.cost = some (if res.crashed = true then 1 else 0) ∧
        (res.crashed = true ∨ cfg.duration ≤ ((k + 1 : ℕ) : ℝ) → res.terminal = true) ∧
        (res.terminal = true → res.crashed = true ∨ cfg.duration ≤ ((k + 1 : ℕ) : ℝ) ∨
          (cfg.offroadTerminal = true ∧ res.reward = 0)) := by
  obtain ⟨e, h1, h2, h3, h4, h5, h6, h7, h8, h9, h10, h11⟩ := highway_reset G cfg hc rng
  have hrel := highway_reliable G cfg cfg.lanesCount hc.lanes 10000
  obtain ⟨rs, e', hep, hlen, _, _⟩ := episode_never_raises G cfg.sim (Highway.cls cfg) _ hrel hp e h2 h3 as ha
  refine ⟨e, rs, e', h1, hep, hlen, ?_⟩
  intro k res hres
  obtain ⟨_, _, _, _, _, hout⟩ := episode_outcomes G cfg.sim (Highway.cls cfg) _ hrel (tidy_default rfl) hp e e' h2 h3 as rs ha hep
  have hk : k < as.length := by rw [← hlen]; exact (List.getElem?_eq_some_iff.1 hres).1
  obtain ⟨e1, v, q1, q2, q3, q4, q5, q6, q7, q8, q9, q10⟩ := hout k _ res (List.getElem?_eq_getElem hk) hres
  obtain ⟨v', w1, w2, w3, w4⟩ := highway_reward cfg cfg.lanesCount hc.lanes 10000 e1 q1 q2 (some as[k])
  rw [q7] at w1
  cases w1
  rw [q5] at w4
  injection w4 with w4
  have hb := score_bounds cfg.collisionReward hcol cfg.rewardSpeedRange cfg.lanesCount (creditedLane v) w2 w3 v.speed v.crashed
  refine ⟨?_, ?_, ?_⟩
  · rw [w4]; split
    · exact ⟨hb.1, hb.2.1⟩
    · norm_num
  · rw [q10, q9]
    simp only [Highway.cls, Highway.cost, q7, bind, Except.bind, Highway.ofBool]; rfl
  · have := highway_terminal_iff cfg e1 v q7 res.terminal q6
    rw [q3, h6] at this
    simp only [Nat.zero_add] at this
    rw [q9]
    refine ⟨fun h => this.2 (h.imp_right .inl), ?_⟩
    intro ht
    rcases this.1 ht with h | h | ⟨h, h'⟩
    · exact .inl h
    · exact .inr (.inl h)
    · exact .inr (.inr ⟨h, by rw [w4, if_neg (by simp [h'])]⟩)

/-- **C80, no initial contact.**  If 0.9 mean gaps exceed 5 m, then after `reset` no two vehicles (5 m × 2 m) touch. -/
theorem highway_reset_apart (G : Globals) (cfg : HighwayConfig) (hc : HighwayOk cfg)
    (h1 : 5 < 9 / 10 * meanGap cfg.egoSpacing 25 cfg.lanesCount)
    (h2 : 5 < 9 / 10 * meanGap (1 / cfg.vehiclesDensity) 23 cfg.lanesCount) (rng : Rng) (e : Env)
    (he : Highway.reset G cfg rng = .ok e) (i j : ℕ) (v w : Vehicle) (hij : i ≠ j) (hv : e.road.vehicles[i]? = some v)
    (hw : e.road.vehicles[j]? = some w) :
    ¬ Meet (rectSet v.pos 5 2 v.heading) (rectSet w.pos 5 2 w.heading) := by
  obtain ⟨e', q1, _, _, _, _, _, _, _, _, q10, q11⟩ := highway_reset G cfg hc rng
  rw [he] at q1
  cases q1
  have hx : 5 < |v.pos.x - w.pos.x| := by
    rcases lt_or_gt_of_ne hij with hlt | hlt
    · have := q11 i j v w hlt hv hw
      have : v.pos.x + 5 < w.pos.x := by split at this <;> linarith
      rw [abs_sub_comm, lt_abs]; left; linarith
    · have := q11 j i w v hlt hw hv
      have : w.pos.x + 5 < v.pos.x := by split at this <;> linarith
      rw [lt_abs]; left; linarith
  rintro ⟨p, ⟨s, t, hs, _, hp, _⟩, ⟨s', t', hs', _, hp', _⟩⟩
  rw [(q10 i v hv).2.1.heading] at hp
  rw [(q10 j w hw).2.1.heading] at hp'
  simp only [Real.cos_zero, Real.sin_zero, mul_one, mul_zero, sub_zero] at hp hp'
  have : v.pos.x - w.pos.x = s' - s := by linarith
  rw [this] at hx
  have := abs_sub s' s
  linarith

/-- Non-vacuity: the default configuration satisfies all hypotheses, and its gaps exceed 5 m. -/
theorem highway_default_ok : HighwayOk {} ∧ 5 < 9 / 10 * meanGap 2 25 4 ∧ 5 < 9 / 10 * meanGap (1 / 1) 23 4 := by
  have h : (1 : ℝ) / 3 ≤ Real.exp (-((4 : ℕ) : ℝ) / 6) := by
    have := Real.add_one_le_exp (-((4 : ℕ) : ℝ) / 6)
    norm_num at this ⊢
    linarith
  refine ⟨⟨by norm_num, by norm_num, by simp, by norm_num, by norm_num, ⟨_, rfl⟩, by simp [VKind.isLinear]⟩, ?_, ?_⟩
  · unfold meanGap; nlinarith
  · unfold meanGap; nlinarith

example (rng : Rng) : ∃ e rs e', Highway.reset {} {} rng = .ok e ∧
    Episode {} {} (Highway.cls {}) e (List.replicate 40 (.index 3)) rs e' ∧ rs.length = 40 ∧
    ∀ res, rs[39]? = some res → res.terminal = true := by
  obtain ⟨e, rs, e', h1, h2, h3, h4⟩ := highway_episode {} {} highway_default_ok.1 (by norm_num) (by norm_num) rng
    (List.replicate 40 (.index 3)) (by
      intro a ha
      obtain ⟨_, rfl⟩ := List.mem_replicate.1 ha
      exact ⟨by norm_num, by norm_num [AgentType.spaceSize, AgentType.actions]⟩)
  refine ⟨e, rs, e', h1, h2, by simpa using h3, ?_⟩
  intro res hres
  exact (h4 39 res hres).2.2.1 (.inr (by norm_num))

end HighwayEnv.Props
