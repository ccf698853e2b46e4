import Verif.Props.EnvSafe
import Verif.Props.Utils
import Verif.Props.Controller

/-!
# C44 – C47, C69: actions
-/

noncomputable section
open Classical
namespace HighwayEnv.Props
open HighwayEnv Spec Graph

/-! ## C44, C45 — available actions -/

private def num (lo la : Bool) (n : VAction) : Int :=
  match n with
  | .laneLeft => 0
  | .idle => 1
  | .laneRight => 2
  | .faster => if la then 3 else 2
  | .slower => if la then 4 else 0
  | _ => 7

private theorem offer_eq (lo la b : Bool) (n : VAction) (hn : (lo || la) = true)
    (h : n = .idle ∨ (la = true ∧ (n = .laneLeft ∨ n = .laneRight)) ∨ (lo = true ∧ (n = .faster ∨ n = .slower))) :
    Env.offer lo la b n = .ok (if b then [num lo la n] else []) := by
  unfold Env.offer
  cases b
  · rfl
  · simp only [if_true]
    unfold Env.actionIndex AgentType.actionsIndexes AgentType.actions
    rcases h with rfl | ⟨rfl, rfl | rfl⟩ | ⟨rfl, rfl | rfl⟩
    · cases lo <;> cases la <;> simp at hn <;> simp [Dict.getItem, Dict.setItem, Dict.get?, num, Except.map]
    · cases lo <;> simp [Dict.getItem, Dict.setItem, Dict.get?, num, Except.map]
    · cases lo <;> simp [Dict.getItem, Dict.setItem, Dict.get?, num, Except.map]
    · cases la <;> simp [Dict.getItem, Dict.setItem, Dict.get?, num, Except.map]
    · cases la <;> simp [Dict.getItem, Dict.setItem, Dict.get?, num, Except.map]

private theorem offer_false (lo la : Bool) (n : VAction) : Env.offer lo la false n = .ok [] := rfl

private theorem side_eq {g : Graph} (hg : WellFormed g) (v : Vehicle) (lo la : Bool) (hn : (lo || la) = true) (d : Int)
    (hd : d = 1 ∨ d = -1) (hv : ValidIndex g ⟨v.laneIndex.src, v.laneIndex.dst, v.laneIndex.id + d⟩) :
    Env.sideActions g v lo la ⟨v.laneIndex.src, v.laneIndex.dst, v.laneIndex.id + d⟩ =
      .ok (if la = true ∧ CanEnter g v.laneIndex.src v.laneIndex.dst (v.laneIndex.id + d) v.pos then
        [num lo la (if d = 1 then .laneRight else .laneLeft)] else []) := by
  obtain ⟨l, hl⟩ := getLane_of_valid hg.toIsPyGraph hv
  have h0 : 0 ≤ v.laneIndex.id + d := by
    obtain ⟨k, _, hk, _⟩ := hv
    simp only at hk; omega
  have hce := Vehicle.canEnter_iff hg.toIsPyGraph (p := v.pos) (i := ⟨v.laneIndex.src, v.laneIndex.dst, v.laneIndex.id + d⟩) h0 hl
  dsimp only at hce
  unfold Env.sideActions
  simp only [hl, bind, Except.bind]
  rcases hd with rfl | rfl
  · have h1 : decide (v.laneIndex.id + 1 < v.laneIndex.id) = false := by simp
    have h2 : decide (v.laneIndex.id + 1 > v.laneIndex.id) = true := by simp
    rw [h1, h2]
    simp only [Bool.false_and, Bool.true_and, offer_false]
    cases la
    · simp only [Bool.and_false, offer_false]; simp [pure, Except.pure]
    · rw [offer_eq _ _ _ _ hn (by simp)]
      simp only [Bool.and_true, hce]
      simp [pure, Except.pure]
  · have h1 : decide (v.laneIndex.id + -1 < v.laneIndex.id) = true := by simp
    have h2 : decide (v.laneIndex.id + -1 > v.laneIndex.id) = false := by simp
    rw [h1, h2]
    simp only [Bool.false_and, Bool.true_and, offer_false]
    cases la
    · simp only [Bool.and_false, offer_false]; simp [pure, Except.pure]
    · rw [offer_eq _ _ _ _ hn (by simp)]
      simp only [Bool.and_true, hce]
      simp [pure, Except.pure]

private theorem canEnter_valid {g : Graph} {a b : String} {k : Int} {p : Vec2} (h : CanEnter g a b k p) :
    ValidIndex g ⟨a, b, k⟩ := by
  obtain ⟨n, l, hk, hl, _⟩ := h
  exact ⟨n, l, hk, hl⟩

private theorem available_eq (G : Globals) (c : SimConfig) (e : Env) (v : Vehicle) (lo la : Bool) (hc : c.action = .single (.discrete lo la))
    (hn : (lo || la) = true) (hg : WellFormed e.road.network) (hv : e.vehicle = .ok v) (hi : ValidIndex e.road.network v.laneIndex) :
    Env.availableActions G c e = .ok (num lo la .idle ::
      (((if la = true ∧ CanEnter e.road.network v.laneIndex.src v.laneIndex.dst (v.laneIndex.id - 1) v.pos then [num lo la .laneLeft] else []) ++
        (if la = true ∧ CanEnter e.road.network v.laneIndex.src v.laneIndex.dst (v.laneIndex.id + 1) v.pos then [num lo la .laneRight] else [])) ++
       ((if lo = true ∧ v.speedIndex + 1 < G.speedCount then [num lo la .faster] else []) ++
        (if lo = true ∧ 0 < v.speedIndex then [num lo la .slower] else [])))) := by
  have hidle : Env.actionIndex lo la .idle = .ok (num lo la .idle) := by
    have := offer_eq lo la true .idle hn (.inl rfl)
    unfold Env.offer at this
    simp only [if_true] at this
    cases h : Env.actionIndex lo la .idle with
    | error _ => rw [h] at this; cases this
    | ok k =>
      rw [h] at this
      simp only [Except.map, Except.ok.injEq, List.cons.injEq, and_true] at this
      rw [this]
  have hspeed : Env.speedActions G v lo la = .ok ((if lo = true ∧ v.speedIndex + 1 < G.speedCount then [num lo la .faster] else []) ++
        (if lo = true ∧ 0 < v.speedIndex then [num lo la .slower] else [])) := by
    unfold Env.speedActions
    cases lo
    · simp [offer_false, bind, Except.bind, pure, Except.pure]
    · rw [offer_eq _ _ _ _ hn (by simp), offer_eq _ _ _ _ hn (by simp)]
      have : (v.speedIndex < (G.speedCount : Int) - 1) ↔ v.speedIndex + 1 < G.speedCount := by omega
      simp [bind, Except.bind, pure, Except.pure, this]
  obtain ⟨k, l, hk, ls, hr, hl⟩ := hi
  have hlen : k < ls.length := (List.getElem?_eq_some_iff.1 hl).1
  have hside : e.road.network.sideLanes v.laneIndex = .ok
      ((if v.laneIndex.id > 0 then [⟨v.laneIndex.src, v.laneIndex.dst, v.laneIndex.id - 1⟩] else []) ++
       (if v.laneIndex.id < ls.length - 1 then [⟨v.laneIndex.src, v.laneIndex.dst, v.laneIndex.id + 1⟩] else [])) := by
    unfold sideLanes
    rw [(lanesOf_ok_iff hg.toIsPyGraph).2 hr]; rfl
  have hleft : (if v.laneIndex.id > 0 then [(⟨v.laneIndex.src, v.laneIndex.dst, v.laneIndex.id - 1⟩ : LaneIndex)] else []).mapM
      (Env.sideActions e.road.network v lo la) = .ok (if v.laneIndex.id > 0 then
        [if la = true ∧ CanEnter e.road.network v.laneIndex.src v.laneIndex.dst (v.laneIndex.id - 1) v.pos then [num lo la .laneLeft] else []]
        else []) := by
    split
    · rename_i h0
      have := side_eq hg v lo la hn (-1) (.inr rfl) ⟨k - 1, ls[k - 1], by simp only; omega, ls, hr, List.getElem?_eq_getElem (by omega)⟩
      rw [show v.laneIndex.id + -1 = v.laneIndex.id - 1 by ring] at this
      rw [List.mapM_cons, List.mapM_nil, this]
      simp [bind, Except.bind, pure, Except.pure]
    · rfl
  have hright : (if v.laneIndex.id < ls.length - 1 then [(⟨v.laneIndex.src, v.laneIndex.dst, v.laneIndex.id + 1⟩ : LaneIndex)] else []).mapM
      (Env.sideActions e.road.network v lo la) = .ok (if v.laneIndex.id < ls.length - 1 then
        [if la = true ∧ CanEnter e.road.network v.laneIndex.src v.laneIndex.dst (v.laneIndex.id + 1) v.pos then [num lo la .laneRight] else []]
        else []) := by
    split
    · rename_i h0
      have := side_eq hg v lo la hn 1 (.inl rfl)
        ⟨k + 1, ls[k + 1]'(by omega), by simp only; omega, ls, hr, List.getElem?_eq_getElem (by omega)⟩
      rw [List.mapM_cons, List.mapM_nil, this]
      simp [bind, Except.bind, pure, Except.pure]
    · rfl
  have eleft : (if v.laneIndex.id > 0 then
        [if la = true ∧ CanEnter e.road.network v.laneIndex.src v.laneIndex.dst (v.laneIndex.id - 1) v.pos then [num lo la .laneLeft] else []]
        else []).flatten =
      (if la = true ∧ CanEnter e.road.network v.laneIndex.src v.laneIndex.dst (v.laneIndex.id - 1) v.pos then [num lo la .laneLeft] else []) := by
    split
    · simp
    · rw [if_neg]; · rfl
      rintro ⟨_, h⟩
      obtain ⟨n, _, hn, _⟩ := canEnter_valid h
      simp only at hn; omega
  have eright : (if v.laneIndex.id < ls.length - 1 then
        [if la = true ∧ CanEnter e.road.network v.laneIndex.src v.laneIndex.dst (v.laneIndex.id + 1) v.pos then [num lo la .laneRight] else []]
        else []).flatten =
      (if la = true ∧ CanEnter e.road.network v.laneIndex.src v.laneIndex.dst (v.laneIndex.id + 1) v.pos then [num lo la .laneRight] else []) := by
    split
    · simp
    · rw [if_neg]; · rfl
      rintro ⟨_, h⟩
      obtain ⟨n, l', hn, ls', hr', hl'⟩ := canEnter_valid h
      rw [RoadLanes.unique hg.toIsPyGraph hr' hr] at hl'
      have := (List.getElem?_eq_some_iff.1 hl').1
      simp only at hn; omega
  unfold Env.availableActions
  rw [hc]
  simp only [hidle, hv, hside, List.mapM_append, hleft, hright, hspeed, bind, Except.bind, pure, Except.pure, List.flatten_append,
    eleft, eright]

/-- **C44.**  `get_available_actions` lists, without repetition, exactly the indexes of the action space whose meaning makes sense in
the current state of the (first) controlled vehicle. -/
theorem available_exact (G : Globals) (c : SimConfig) (e : Env) (v : Vehicle) (lo la : Bool) (hc : c.action = .single (.discrete lo la))
    (hn : (lo || la) = true) (hg : WellFormed e.road.network) (hv : e.vehicle = .ok v) (hi : ValidIndex e.road.network v.laneIndex) :
    ∃ l, Env.availableActions G c e = .ok l ∧ l.Nodup ∧
      ∀ i, i ∈ l ↔ ∃ n, AgentType.command (.discrete lo la) (.index i) = .ok n ∧ MakesSense G e.road.network v lo la n := by
  refine ⟨_, available_eq G c e v lo la hc hn hg hv hi, ?_, ?_⟩
  · generalize (CanEnter e.road.network v.laneIndex.src v.laneIndex.dst (v.laneIndex.id - 1) v.pos) = A
    generalize (CanEnter e.road.network v.laneIndex.src v.laneIndex.dst (v.laneIndex.id + 1) v.pos) = B
    cases lo <;> cases la <;> simp at hn <;> by_cases hA : A <;> by_cases hB : B <;>
      by_cases hC : v.speedIndex + 1 < (G.speedCount : Int) <;> by_cases hD : 0 < v.speedIndex <;>
      simp [hA, hB, hC, hD, num]
  · intro i
    have hcmd : ∀ n, AgentType.command (.discrete lo la) (.index i) = .ok n ↔
        (n = .idle ∧ i = num lo la .idle) ∨ (la = true ∧ n = .laneLeft ∧ i = num lo la .laneLeft) ∨
        (la = true ∧ n = .laneRight ∧ i = num lo la .laneRight) ∨ (lo = true ∧ n = .faster ∧ i = num lo la .faster) ∨
        (lo = true ∧ n = .slower ∧ i = num lo la .slower) := by
      intro n
      unfold AgentType.command AgentType.actions
      cases lo <;> cases la <;> simp at hn <;> simp only [num, Dict.getItem] <;>
      · by_cases h0 : (0 : Int) = i
        · subst h0; simp [Dict.get?, eq_comm]
        by_cases h1 : (1 : Int) = i
        · subst h1; simp [Dict.get?, eq_comm]
        by_cases h2 : (2 : Int) = i
        · subst h2; simp [Dict.get?, eq_comm]
        by_cases h3 : (3 : Int) = i
        · subst h3; simp [Dict.get?, eq_comm]
        by_cases h4 : (4 : Int) = i
        · subst h4; simp [Dict.get?, eq_comm]
        simp [Dict.get?, h0, h1, h2, h3, h4, Ne.symm h0, Ne.symm h1, Ne.symm h2, Ne.symm h3, Ne.symm h4]
    simp only [hcmd]
    constructor
    · intro h
      simp only [List.mem_cons, List.mem_append] at h
      rcases h with h | (h | h) | (h | h)
      · exact ⟨.idle, .inl ⟨rfl, h⟩, trivial⟩
      · split at h
        · rename_i hx; exact ⟨.laneLeft, .inr (.inl ⟨hx.1, rfl, by simpa using h⟩), hx⟩
        · cases h
      · split at h
        · rename_i hx; exact ⟨.laneRight, .inr (.inr (.inl ⟨hx.1, rfl, by simpa using h⟩)), hx⟩
        · cases h
      · split at h
        · rename_i hx; exact ⟨.faster, .inr (.inr (.inr (.inl ⟨hx.1, rfl, by simpa using h⟩))), hx⟩
        · cases h
      · split at h
        · rename_i hx; exact ⟨.slower, .inr (.inr (.inr (.inr ⟨hx.1, rfl, by simpa using h⟩))), hx⟩
        · cases h
    · rintro ⟨n, h, hs⟩
      simp only [List.mem_cons, List.mem_append]
      rcases h with ⟨rfl, h⟩ | ⟨_, rfl, h⟩ | ⟨_, rfl, h⟩ | ⟨_, rfl, h⟩ | ⟨_, rfl, h⟩
      · exact .inl h
      · simp only [MakesSense] at hs
        right; left; left; rw [if_pos hs, h]; simp
      · simp only [MakesSense] at hs
        right; left; right; rw [if_pos hs, h]; simp
      · simp only [MakesSense] at hs
        right; right; left; rw [if_pos hs, h]; simp
      · simp only [MakesSense] at hs
        right; right; right; rw [if_pos hs, h]; simp

/-- Non-vacuity: the sample environment meets the hypotheses; its ego vehicle on the left lane can change to the right lane. -/
example : ∃ v, sampleEnv.vehicle = .ok v ∧ ValidIndex sampleEnv.road.network v.laneIndex ∧
    MakesSense {} sampleEnv.road.network v true true .laneRight ∧ ¬ MakesSense {} sampleEnv.road.network v true true .laneLeft := by
  refine ⟨Sample.car 0 .mdp 10 0 20, rfl, ⟨0, _, rfl, Sample.net_has0⟩, ⟨rfl, 1, Sample.lane 1, rfl, Sample.net_has1, rfl, ?_⟩, ?_⟩
  · rw [show (Sample.car 0 .mdp 10 0 20).pos = ⟨10, 0⟩ from rfl, Sample.lane_local, Sample.lane_length]
    norm_num [Sample.lane, abs_of_nonneg]
  · rintro ⟨_, k, l, hk, _⟩
    simp only [Sample.car] at hk
    omega

/-- `get_available_actions` refuses environments that are not driven by one discrete agent. -/
theorem available_refuses (G : Globals) (c : SimConfig) (e : Env) (h : ∀ lo la, c.action ≠ .single (.discrete lo la)) :
    Env.availableActions G c e = .error .valueError := by
  unfold Env.availableActions
  split
  · rename_i lo la hx; exact absurd hx (h lo la)
  · rfl

/-- **C45.**  Actions that make sense take effect: for a discrete-action vehicle aiming at its own lane, before the end of that lane,
an offered lane change moves the target to the neighbouring lane; for one whose speed level is the level of its current speed, an
offered speed change moves the target to the next level. -/
theorem available_effective (G : Globals) (hcount : 0 < G.speedCount) (r : Road) (hg : WellFormed r.network) (v v' : Vehicle)
    (lo la : Bool) (n : VAction) (rng' : Rng) (hk : v.kind = .mdp) (hv : Attached r.network v) (hs : MakesSense G r.network v lo la n)
    (h : v.act G r n = .ok (v', rng')) :
    (v.targetLane = v.laneIndex → ¬ PastEnd r.network v.laneIndex v.pos →
      (n = .laneLeft → v'.targetLane = { v.laneIndex with id := v.laneIndex.id - 1 }) ∧
      (n = .laneRight → v'.targetLane = { v.laneIndex with id := v.laneIndex.id + 1 })) ∧
    (v.speedIndex = Vehicle.speedToIndex G v.speed →
      (n = .faster → v'.speedIndex = v.speedIndex + 1 ∧ v'.targetSpeed = level G (v.speedIndex + 1)) ∧
      (n = .slower → v'.speedIndex = v.speedIndex - 1 ∧ v'.targetSpeed = level G (v.speedIndex - 1))) := by
  constructor
  · intro ht hp
    obtain ⟨t0, _, hcont, htl⟩ := command_lane G r hg v v' n rng' (.inr hk) hv h
    have : t0 = v.laneIndex := by
      rw [ht] at hcont
      rcases hcont with ⟨h, _⟩ | ⟨h, _⟩
      · exact h
      · exact absurd h hp
    subst this
    constructor
    · rintro rfl
      rw [htl]; unfold laneAfter
      rw [if_pos hs.2]
    · rintro rfl
      rw [htl]; unfold laneAfter
      rw [if_pos hs.2]
  · intro hsp
    obtain ⟨h1, h2, _⟩ := faster_slower G hcount r v v' n rng' hk h
    constructor
    · rintro rfl
      obtain ⟨e1, e2⟩ := h1 rfl
      have h3 := hs.2
      have : v'.speedIndex = v.speedIndex + 1 := by rw [e1, ← hsp]; omega
      exact ⟨this, by rw [e2, this]⟩
    · rintro rfl
      obtain ⟨e1, e2⟩ := h2 rfl
      have h3 := hs.2
      have : v'.speedIndex = v.speedIndex - 1 := by rw [e1, ← hsp]; omega
      exact ⟨this, by rw [e2, this]⟩

/-! ## C46 — the discrete table -/

/-- **C46.**  The indexes of the discrete action space are numbered from 0 without gap, each names a different meta-action, and
`actions_indexes` gives back the index of every name; names of a switched-off axis are absent. -/
theorem discrete_table (lo la : Bool) (hn : (lo || la) = true) :
    (∀ i : Int, (∃ n, AgentType.command (.discrete lo la) (.index i) = .ok n) ↔ 0 ≤ i ∧ i < AgentType.spaceSize (.discrete lo la)) ∧
    (∀ i n, AgentType.command (.discrete lo la) (.index i) = .ok n ↔ Dict.getItem (AgentType.actionsIndexes lo la) n = .ok i) ∧
    (∀ n, (∃ i, AgentType.command (.discrete lo la) (.index i) = .ok n) ↔
      n = .idle ∨ (la = true ∧ (n = .laneLeft ∨ n = .laneRight)) ∨ (lo = true ∧ (n = .faster ∨ n = .slower))) := by
  have hcmd : ∀ i n, AgentType.command (.discrete lo la) (.index i) = .ok n ↔
        (n = .idle ∧ i = num lo la .idle) ∨ (la = true ∧ n = .laneLeft ∧ i = num lo la .laneLeft) ∨
        (la = true ∧ n = .laneRight ∧ i = num lo la .laneRight) ∨ (lo = true ∧ n = .faster ∧ i = num lo la .faster) ∨
        (lo = true ∧ n = .slower ∧ i = num lo la .slower) := by
    intro i n
    unfold AgentType.command AgentType.actions
    cases lo <;> cases la <;> simp at hn <;> simp only [num, Dict.getItem] <;>
    · by_cases h0 : (0 : Int) = i
      · subst h0; simp [Dict.get?, eq_comm]
      by_cases h1 : (1 : Int) = i
      · subst h1; simp [Dict.get?, eq_comm]
      by_cases h2 : (2 : Int) = i
      · subst h2; simp [Dict.get?, eq_comm]
      by_cases h3 : (3 : Int) = i
      · subst h3; simp [Dict.get?, eq_comm]
      by_cases h4 : (4 : Int) = i
      · subst h4; simp [Dict.get?, eq_comm]
      simp [Dict.get?, h0, h1, h2, h3, h4, Ne.symm h0, Ne.symm h1, Ne.symm h2, Ne.symm h3, Ne.symm h4]
  refine ⟨fun i => ?_, fun i n => ?_, fun n => ?_⟩
  · simp only [hcmd]
    cases lo <;> cases la <;> simp at hn <;> simp [num, AgentType.spaceSize, AgentType.actions, or_and_right, exists_or] <;> omega
  · rw [hcmd]
    unfold AgentType.actionsIndexes AgentType.actions
    cases lo <;> cases la <;> simp at hn <;> cases n <;> simp [num, Dict.getItem, Dict.setItem, Dict.get?, eq_comm]
  · simp only [hcmd]
    cases lo <;> cases la <;> simp at hn <;> cases n <;> simp [num]

/-- The axes an agent type controls. -/
def controlsAxis : AgentType → Prop
  | .continuous c => c.lateral = true ∨ c.longitudinal = true
  | .discrete lo la => lo = true ∨ la = true

/-- An environment can be configured with any set of controlled axes but the empty one. -/
theorem no_axis_refused (t : AgentType) : (controlsAxis t → t.init = .ok t) ∧ (¬ controlsAxis t → t.init = .error .valueError) := by
  cases t with
  | continuous c =>
    cases h1 : c.lateral <;> cases h2 : c.longitudinal <;> simp [controlsAxis, AgentType.init, h1, h2]
  | discrete lo la => cases lo <;> cases la <;> simp [controlsAxis, AgentType.init, AgentType.actions]

/-! ## C47 — continuous actions -/

private theorem clip_one (x : ℝ) : -1 ≤ npClip x (-1) 1 ∧ npClip x (-1) 1 ≤ 1 :=
  ⟨le_min (le_max_right _ _) (by norm_num), min_le_right _ _⟩

/-- **C47.**  Whatever the numbers in the action array, a continuous agent that clips sends a steering angle and an acceleration
within the configured ranges; an agent that does not clip does so for arrays with entries in [-1, 1].  A switched-off axis gets 0. -/
theorem continuous_ranges (cfg : ContinuousConfig) (xs : List ℝ) (s a : ℝ) (hacc : cfg.accelerationRange.1 ≤ cfg.accelerationRange.2)
    (hst : cfg.steeringRange.1 ≤ cfg.steeringRange.2) (hx : cfg.clip = true ∨ ∀ x ∈ xs, -1 ≤ x ∧ x ≤ 1)
    (h : AgentType.command (.continuous cfg) (.vector xs) = .ok (.control s a)) :
    (cfg.longitudinal = true → cfg.accelerationRange.1 ≤ a ∧ a ≤ cfg.accelerationRange.2) ∧
    (cfg.longitudinal = true ∨ cfg.lateral = true → cfg.longitudinal = false → a = 0) ∧
    (cfg.lateral = true → cfg.steeringRange.1 ≤ s ∧ s ≤ cfg.steeringRange.2) ∧
    (cfg.longitudinal = true → cfg.lateral = false → s = 0) := by
  have hall : ∀ y ∈ AgentType.clipVector cfg xs, -1 ≤ y ∧ y ≤ 1 := by
    intro y hy
    unfold AgentType.clipVector at hy
    split at hy
    · obtain ⟨x, _, rfl⟩ := List.mem_map.1 hy
      exact clip_one x
    · rename_i hc
      rcases hx with hx | hx
      · exact absurd hx hc
      · exact hx y hy
  have hidx : ∀ (i : Int) (y : ℝ), pyIndex (AgentType.clipVector cfg xs) i = .ok y → -1 ≤ y ∧ y ≤ 1 := by
    intro i y hy
    apply hall
    rcases pyIndex_ok_iff.1 hy with ⟨_, h⟩ | ⟨_, _, h⟩ <;> exact List.mem_of_getElem? h
  have hl : ∀ (y : ℝ) (rg : ℝ × ℝ), rg.1 ≤ rg.2 → -1 ≤ y ∧ y ≤ 1 → rg.1 ≤ lmap y (-1, 1) rg ∧ lmap y (-1, 1) rg ≤ rg.2 := fun y rg hr hy =>
    lmap_mem (-1, 1) rg y (by norm_num) hr hy
  simp only [AgentType.command, AgentType.continuousCommand] at h
  cases hlo : cfg.longitudinal <;> cases hla : cfg.lateral <;>
    simp only [hlo, hla, Bool.and_true, Bool.and_false, Bool.false_eq_true, if_false, if_true, Bool.true_and, Bool.false_and, Bool.and_self] at h
  · refine ⟨by simp, by simp, by simp, by simp⟩
  · obtain ⟨y, hy, h⟩ := bind_ok h
    cases h
    exact ⟨by simp, fun _ _ => rfl, fun _ => hl _ _ hst (hidx _ _ hy), by simp⟩
  · obtain ⟨y, hy, h⟩ := bind_ok h
    cases h
    exact ⟨fun _ => hl _ _ hacc (hidx _ _ hy), by simp, by simp, fun _ _ => rfl⟩
  · obtain ⟨y, hy, h⟩ := bind_ok h
    obtain ⟨z, hz, h⟩ := bind_ok h
    cases h
    exact ⟨fun _ => hl _ _ hacc (hidx _ _ hy), by simp, fun _ => hl _ _ hst (hidx _ _ hz), by simp⟩

/-- With both axes on, the first entry is the acceleration and the second the steering; -1 and 1 give the ends of the ranges, and the
command is increasing in each entry inside [-1, 1]. -/
theorem continuous_full (cfg : ContinuousConfig) (hlo : cfg.longitudinal = true) (hla : cfg.lateral = true) (x y : ℝ)
    (hx : -1 ≤ x ∧ x ≤ 1) (hy : -1 ≤ y ∧ y ≤ 1) :
    AgentType.command (.continuous cfg) (.vector [x, y]) = .ok (.control
      (cfg.steeringRange.1 + (y + 1) / 2 * (cfg.steeringRange.2 - cfg.steeringRange.1))
      (cfg.accelerationRange.1 + (x + 1) / 2 * (cfg.accelerationRange.2 - cfg.accelerationRange.1))) := by
  have hc : AgentType.clipVector cfg [x, y] = [x, y] := by
    unfold AgentType.clipVector
    split
    · simp [npClip, max_eq_left hx.1, max_eq_left hy.1, min_eq_left hx.2, min_eq_left hy.2]
    · rfl
  simp only [AgentType.command, AgentType.continuousCommand, hc, hlo, hla]
  simp [pyIndex, lmap, bind, Except.bind, pure, Except.pure]
  constructor <;> ring

/-- Without clipping the commands leave the configured ranges: an entry of 2 asks for an acceleration beyond the range. -/
theorem unclipped_exceeds (cfg : ContinuousConfig) (hlo : cfg.longitudinal = true) (hla : cfg.lateral = true) (hclip : cfg.clip = false)
    (hacc : cfg.accelerationRange.1 < cfg.accelerationRange.2) :
    ∃ s a, AgentType.command (.continuous cfg) (.vector [2, 0]) = .ok (.control s a) ∧ cfg.accelerationRange.2 < a := by
  have hc : AgentType.clipVector cfg [2, 0] = [2, 0] := by
    unfold AgentType.clipVector; rw [hclip]; rfl
  refine ⟨lmap 0 (-1, 1) cfg.steeringRange, lmap 2 (-1, 1) cfg.accelerationRange, ?_, ?_⟩
  · simp only [AgentType.command, AgentType.continuousCommand, hc, hlo, hla]
    simp [pyIndex, bind, Except.bind, pure, Except.pure]
  · unfold lmap
    norm_num
    linarith

/-! ## C69 — several agents -/

theorem agentAct_eff {G : Globals} {t : AgentType} {r r' : Road} {uid : ℕ} {x : AgentAction} (hd : r.uids.Nodup)
    (h : r.agentAct G t uid x = .ok r') :
    r'.network = r.network ∧ r'.uids = r.uids ∧ ∀ (i : ℕ) (v : Vehicle), r.vehicles[i]? = some v →
      (v.uid ≠ uid → r'.vehicles[i]? = some v) ∧
      (v.uid = uid → ∃ c w rng, t.command x = .ok c ∧ v.act G r c = .ok (w, rng) ∧ r'.vehicles[i]? = some w) := by
  unfold Road.agentAct at h
  obtain ⟨c, hc, h⟩ := bind_ok h
  cases hi : r.indexOf uid with
  | none =>
    rw [hi] at h
    cases h
    refine ⟨rfl, rfl, fun i v hv => ⟨fun _ => hv, fun hu => ?_⟩⟩
    rw [Road.indexOf_at hd ⟨v, hv, hu⟩] at hi; cases hi
  | some j =>
    rw [hi] at h
    dsimp only at h
    have huid : r'.uids = r.uids := Road.uids_event (G := G) (.actAt _ _ h)
    have hnet := (Road.actAt_frame h).2.network
    refine ⟨hnet, huid, fun i v hv => ?_⟩
    unfold Road.actAt at h
    cases hj : r.vehicles[j]? with
    | none =>
      rw [hj] at h; cases h
      refine ⟨fun _ => hv, fun hu => ?_⟩
      have := Road.indexOf_at hd ⟨v, hv, hu⟩
      rw [this] at hi; cases hi
      rw [hj] at hv; cases hv
    | some u =>
      rw [hj] at h
      dsimp only at h
      obtain ⟨⟨w, rng⟩, hw, h⟩ := bind_ok h
      cases h
      constructor
      · intro hne
        have : j ≠ i := by
          rintro rfl
          rw [hj] at hv; cases hv
          unfold Road.indexOf at hi
          obtain ⟨hlt, h2, _⟩ := List.findIdx?_eq_some_iff_getElem.1 hi
          have h3 := List.getElem?_eq_getElem hlt
          rw [hj] at h3
          cases h3
          exact hne (by simpa using h2)
        dsimp only
        rw [List.getElem?_set_ne this]; exact hv
      · intro hu
        have := Road.indexOf_at hd ⟨v, hv, hu⟩
        rw [this] at hi; cases hi
        rw [hj] at hv; cases hv
        exact ⟨c, w, rng, hc, hw, List.getElem?_set_self (List.getElem?_eq_some_iff.1 hj).1⟩

private theorem multi_eff {G : Globals} {t : AgentType} (l : List (AgentAction × ℕ)) (r r' : Road) (hd : r.uids.Nodup)
    (hl : (l.map Prod.snd).Nodup) (h : l.foldlM (fun r au => r.agentAct G t au.2 au.1) r = .ok r') :
    ∀ (i : ℕ) (v : Vehicle), r.vehicles[i]? = some v →
      (v.uid ∉ l.map Prod.snd → r'.vehicles[i]? = some v) ∧
      (∀ x, (x, v.uid) ∈ l → ∃ c s w rng, t.command x = .ok c ∧ s.network = r.network ∧ v.act G s c = .ok (w, rng) ∧
        r'.vehicles[i]? = some w) := by
  induction l generalizing r with
  | nil =>
    intro i v hv
    rw [List.foldlM_nil] at h; cases h
    exact ⟨fun _ => hv, by simp⟩
  | cons au l ih =>
    intro i v hv
    rw [List.foldlM_cons] at h
    obtain ⟨r1, h1, h⟩ := bind_ok h
    obtain ⟨n1, n2, n3⟩ := agentAct_eff hd h1
    obtain ⟨a1, a2⟩ := n3 i v hv
    rw [List.map_cons, List.nodup_cons] at hl
    have ih' := ih r1 (by rw [n2]; exact hd) hl.2 h
    constructor
    · intro hnot
      rw [List.map_cons, List.mem_cons, not_or] at hnot
      exact (ih' i v (a1 hnot.1)).1 hnot.2
    · intro x hx
      rcases List.mem_cons.1 hx with hx | hx
      · obtain ⟨c, w, rng, hc, hw, hr1⟩ := a2 (by rw [← hx])
        have hwu : w.uid = v.uid := (Vehicle.act_body hw).uid
        have hne : w.uid ∉ l.map Prod.snd := by
          rw [hwu]
          have : v.uid = au.2 := by rw [← hx]
          rw [this]; exact hl.1
        rw [← hx] at hc
        exact ⟨c, r, w, rng, hc, rfl, hw, (ih' i w hr1).1 hne⟩
      · have hne : v.uid ≠ au.2 := by
          rintro he
          exact hl.1 (by rw [← he]; exact List.mem_map.2 ⟨_, hx, rfl⟩)
        obtain ⟨c, s, w, rng, hc, hs, hw, hr'⟩ := (ih' i v (a1 hne)).2 x hx
        exact ⟨c, s, w, rng, hc, hs.trans n1, hw, hr'⟩

/-- **C69.**  With several agents, the `j`-th controlled vehicle executes the command of the `j`-th action of the tuple and nothing
else; vehicles that no action is addressed to (traffic, and controlled vehicles beyond the length of the tuple) are left exactly as
they were. -/
theorem agents_isolated (G : Globals) (t : AgentType) (ctl : List ℕ) (r r' : Road) (as : List AgentAction)
    (hd : (r.vehicles.map (·.uid)).Nodup) (hctl : ctl.Nodup) (h : r.envAct G (.multi t) ctl (.tuple as) = .ok r') (i : ℕ) (v : Vehicle)
    (hv : r.vehicles[i]? = some v) :
    (v.uid ∉ ctl.take as.length → r'.vehicles[i]? = some v) ∧
    (∀ (j : ℕ) (x : AgentAction), ctl[j]? = some v.uid → as[j]? = some x →
      ∃ c s w rng, t.command x = .ok c ∧ s.network = r.network ∧ v.act G s c = .ok (w, rng) ∧ r'.vehicles[i]? = some w) := by
  have hsnd : (as.zip ctl).map Prod.snd = ctl.take as.length := by
    clear h hv hd hctl
    induction as generalizing ctl with
    | nil => simp
    | cons a as ih =>
      cases ctl with
      | nil => simp
      | cons u ctl => simp [ih ctl]
  obtain ⟨h1, h2⟩ := multi_eff (G := G) (t := t) (as.zip ctl) r r' hd (by rw [hsnd]; exact hctl.sublist (List.take_sublist _ _)) h i v hv
  refine ⟨by rw [← hsnd]; exact h1, fun j x hj hx => h2 x ?_⟩
  exact List.mem_of_getElem? (i := j) (List.getElem?_zip_eq_some.2 ⟨hx, hj⟩)

/-- A single agent drives the first controlled vehicle; every other vehicle is left exactly as it was. -/
theorem single_agent (G : Globals) (t : AgentType) (uid : ℕ) (ctl : List ℕ) (r r' : Road) (a : AgentAction)
    (hd : (r.vehicles.map (·.uid)).Nodup) (h : r.envAct G (.single t) (uid :: ctl) a = .ok r') (i : ℕ) (v : Vehicle)
    (hv : r.vehicles[i]? = some v) :
    (v.uid ≠ uid → r'.vehicles[i]? = some v) ∧
    (v.uid = uid → ∃ c w rng, t.command a = .ok c ∧ v.act G r c = .ok (w, rng) ∧ r'.vehicles[i]? = some w) :=
  (agentAct_eff hd h).2.2 i v hv

/-- For vehicles driven by steering and acceleration, all agents' commands are in force after the action. -/
theorem agents_continuous (G : Globals) (cfg : ContinuousConfig) (ctl : List ℕ) (r r' : Road) (as : List AgentAction)
    (hd : (r.vehicles.map (·.uid)).Nodup) (hctl : ctl.Nodup)
    (h : r.envAct G (.multi (.continuous cfg)) ctl (.tuple as) = .ok r') (i j : ℕ) (v : Vehicle) (x : AgentAction)
    (hv : r.vehicles[i]? = some v) (hk : v.kind = (AgentType.continuous cfg).vehicleClass) (hj : ctl[j]? = some v.uid)
    (hx : as[j]? = some x) :
    ∃ s a, AgentType.command (.continuous cfg) x = .ok (.control s a) ∧
      r'.vehicles[i]? = some { v with steering := s, acceleration := a } := by
  obtain ⟨c, s, w, rng, hc, _, hw, hr⟩ := (agents_isolated G _ ctl r r' as hd hctl h i v hv).2 j x hj hx
  have hctrl : ∃ st ac, c = .control st ac := by
    cases x with
    | index i => cases hc
    | tuple l => cases hc
    | vector xs =>
      simp only [AgentType.command, AgentType.continuousCommand] at hc
      split at hc
      · obtain ⟨y, _, hc⟩ := bind_ok hc
        obtain ⟨z, _, hc⟩ := bind_ok hc
        cases hc; exact ⟨_, _, rfl⟩
      · split at hc
        · obtain ⟨y, _, hc⟩ := bind_ok hc
          cases hc; exact ⟨_, _, rfl⟩
        · obtain ⟨y, _, hc⟩ := bind_ok hc
          cases hc; exact ⟨_, _, rfl⟩
  obtain ⟨st, ac, rfl⟩ := hctrl
  refine ⟨st, ac, hc, ?_⟩
  rw [hr]
  unfold Vehicle.act at hw
  simp only [AgentType.vehicleClass] at hk
  have hw' : (.ok ({ v with steering := st, acceleration := ac }, s.rng) : Py (Vehicle × Rng)) = .ok (w, rng) := by
    rw [← hw]; split at hk <;> rw [hk]
  injection hw' with hw'
  injection hw' with hw' _
  rw [← hw']

/-- Two continuous agents on the sample road, each with its own command. -/
example : ∃ r', Road.envAct {} (.multi (.continuous {})) [0, 1]
    { network := Sample.net, rng := ⟨fun _ => 0, fun _ => 0, 0, 0⟩
      vehicles := [Sample.car 0 .plain 10 0 20, Sample.car 1 .plain 40 0 10] } (.tuple [.vector [1, 0], .vector [-1, 1]]) = .ok r' ∧
    r'.vehicles = [{ Sample.car 0 .plain 10 0 20 with steering := 0, acceleration := 5 },
      { Sample.car 1 .plain 40 0 10 with steering := Real.pi / 4, acceleration := -5 }] := by
  refine ⟨_, rfl, ?_⟩
  norm_num [Sample.car, lmap, npClip, AgentType.clipVector]
  ring_nf
end HighwayEnv.Props
