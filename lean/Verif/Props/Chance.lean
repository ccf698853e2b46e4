import Verif.Spec.Chance
import Verif.Spec.Merge
import Verif.Spec.TwoWay
import Verif.Spec.Parking
import Verif.Lemmas.Stream
import Verif.Lemmas.Road
import Verif.Props.Highway
import Verif.Props.Full
import Verif.Props.Merge
import Verif.Props.TwoWay
import Verif.Props.Parking
import Verif.Props.Summon
import Verif.Props.LaneKeeping
import Verif.Props.RoundMap
import Verif.Props.InterPlace

/-!
# C115: where the seed matters
-/

noncomputable section
open Classical
namespace HighwayEnv.Props
open HighwayEnv Spec

namespace Chance

theorem Twin.bind {α β γ δ : Type} {R : α → β → Prop} {S : γ → δ → Prop} {x : Py α} {y : Py β} {f : α → Py γ} {g : β → Py δ} (h : Twin R x y)
    (k : ∀ a b, R a b → Twin S (f a) (g b)) : Twin S (x >>= f) (y >>= g) := by
  cases h with
  | ok h => exact k _ _ h
  | error e => exact .error e

theorem Twin.same {α : Type} (x : Py α) : Twin Eq x x := by
  cases x with
  | ok a => exact .ok rfl
  | error e => exact .error e

theorem Twin.foldlM {α β γ : Type} {R : α → β → Prop} {f : α → γ → Py α} {g : β → γ → Py β} (k : ∀ a b c, R a b → Twin R (f a c) (g b c)) (l : List γ) :
    ∀ {a : α} {b : β}, R a b → Twin R (l.foldlM f a) (l.foldlM g b) := by
  induction l with
  | nil => intro a b h; exact .ok h
  | cons c l ih =>
    intro a b h
    rw [List.foldlM_cons, List.foldlM_cons]
    exact Twin.bind (k a b c h) fun _ _ h => ih h

/-- Roads on the map `g` that differ at most by the generator. -/
def Alike (g : Graph) (r r' : Road) : Prop := r.network = g ∧ r' = { r with rng := r'.rng }

variable {g : Graph} (hg : NoForks g)
include hg

theorem nextLane (cur : LaneIndex) (route : Option (List RouteStep)) (p : Vec2) (a b : Rng) :
    Twin (fun x y => x.1 = y.1 ∧ x.2.1 = y.2.1) (g.nextLane cur route p a) (g.nextLane cur route p b) := by
  unfold Graph.nextLane
  generalize Graph.nextFromRoute cur route = q
  obtain ⟨ro, nt⟩ := q
  dsimp only
  by_cases ht : Graph.strTruthy nt = true
  · rw [if_pos ht, if_pos ht]
    exact Twin.bind (Twin.same _) fun _ _ h => .ok ⟨h, rfl⟩
  · rw [if_neg ht, if_neg ht]
    cases hd : Dict.get? g cur.dst with
    | none => exact .ok ⟨rfl, rfl⟩
    | some d =>
      dsimp only
      refine Twin.bind (R := fun x y => x.1 = y.1) ?_ ?_
      · have h1 := hg _ _ hd
        unfold Rng.randint
        by_cases h0 : d.length = 0
        · rw [if_pos h0, if_pos h0]; exact .error _
        · rw [if_neg h0, if_neg h0]
          refine .ok ?_
          have : d.length = 1 := by omega
          rw [this]
          dsimp only
          rw [Nat.mod_one, Nat.mod_one]
      · rintro ⟨k, a'⟩ ⟨k', b'⟩ h
        dsimp only at h
        subst h
        exact Twin.bind (Twin.same _) fun _ _ h => .ok ⟨h, rfl⟩

theorem followRoad (v : Vehicle) (a b : Rng) : Twin (fun x y => x.1 = y.1) (v.followRoad g a) (v.followRoad g b) := by
  unfold Vehicle.followRoad
  refine Twin.bind (Twin.same _) ?_
  rintro l _ rfl
  by_cases ha : l.afterEnd v.pos = true
  · rw [if_pos ha, if_pos ha]
    refine Twin.bind (nextLane hg _ _ _ a b) ?_
    rintro ⟨i, ro, a'⟩ ⟨i', ro', b'⟩ ⟨h1, h2⟩
    dsimp only at h1 h2
    subst h1 h2
    exact .ok rfl
  · rw [if_neg ha, if_neg ha]; exact .ok rfl

theorem controlledAct (v : Vehicle) (c : VAction) (a b : Rng) : Twin (fun x y => x.1 = y.1) (v.controlledAct g a c) (v.controlledAct g b c) := by
  unfold Vehicle.controlledAct
  refine Twin.bind (followRoad hg v a b) ?_
  rintro ⟨v1, a'⟩ ⟨v2, b'⟩ h
  dsimp only at h
  subst h
  refine Twin.bind (Twin.same _) ?_
  rintro w _ rfl
  refine Twin.bind (Twin.same _) ?_
  rintro st _ rfl
  exact .ok rfl

theorem mdpAct (G : Globals) (v : Vehicle) (c : VAction) (a b : Rng) : Twin (fun x y => x.1 = y.1) (v.mdpAct G g a c) (v.mdpAct G g b c) := by
  unfold Vehicle.mdpAct
  cases c <;> exact controlledAct hg _ _ a b

theorem idmAct (G : Globals) (r : Road) (hr : r.network = g) (v : Vehicle) (b : Rng) :
    Twin (fun x y => x.1 = y.1) (v.idmAct G r) (v.idmAct G { r with rng := b }) := by
  unfold Vehicle.idmAct
  by_cases hc : v.crashed = true
  · rw [if_pos hc, if_pos hc]; exact .ok rfl
  · rw [if_neg hc, if_neg hc]
    refine Twin.bind (R := Eq) (Twin.same (r.neighbourVehicles v)) ?_
    rintro ⟨front, rear⟩ _ rfl
    refine Twin.bind (R := fun x y => x.1 = y.1) ?_ ?_
    · dsimp only
      rw [hr]
      exact followRoad hg v _ _
    · rintro ⟨v1, a'⟩ ⟨v2, b'⟩ h
      dsimp only at h
      subst h
      refine Twin.bind (R := Eq) (Twin.same (v1.maybeChangeLane G r)) ?_
      rintro w _ rfl
      refine Twin.bind (Twin.same _) ?_
      rintro st _ rfl
      refine Twin.bind (Twin.same _) ?_
      rintro acc _ rfl
      exact .ok rfl

theorem act (G : Globals) (r : Road) (hr : r.network = g) (v : Vehicle) (c : VAction) (b : Rng) :
    Twin (fun x y => x.1 = y.1) (v.act G r c) (v.act G { r with rng := b } c) := by
  unfold Vehicle.act
  cases v.kind
  case controlled => dsimp only; rw [hr]; exact controlledAct hg v c _ _
  case mdp => dsimp only; rw [hr]; exact mdpAct hg G v c _ _
  all_goals first
    | exact idmAct hg G r hr v b
    | (cases c <;> first | exact .ok rfl | exact .error _)

theorem actAt (G : Globals) (c : VAction) {r r' : Road} (h : Alike g r r') (i : ℕ) : Twin (Alike g) (r.actAt G c i) (r'.actAt G c i) := by
  obtain ⟨h1, h2⟩ := h
  generalize r'.rng = b at h2
  subst h2
  unfold Road.actAt
  dsimp only
  cases hv : r.vehicles[i]? with
  | none => exact .ok ⟨h1, rfl⟩
  | some v =>
    refine Twin.bind (act hg G r h1 v c b) ?_
    rintro ⟨v1, a'⟩ ⟨v2, b'⟩ h
    dsimp only at h
    subst h
    exact .ok ⟨h1, rfl⟩

theorem roadAct (G : Globals) {r r' : Road} (h : Alike g r r') : Twin (Alike g) (r.act G) (r'.act G) := by
  unfold Road.act
  have : r'.vehicles.length = r.vehicles.length := by rw [h.2]
  rw [this]
  exact Twin.foldlM (fun _ _ i h => actAt hg G .none h i) _ h

omit hg in
theorem stepBase (dt : ℝ) {r r' : Road} (h : Alike g r r') : Twin (Alike g) (r.stepBase dt) (r'.stepBase dt) := by
  obtain ⟨h1, h2⟩ := h
  generalize r'.rng = b at h2
  subst h2
  unfold Road.stepBase
  refine Twin.bind (R := Alike g) ?_ ?_
  · unfold Road.moveAll
    refine Twin.bind (R := Eq) (Twin.same _) ?_
    rintro vs _ rfl
    exact .ok ⟨h1, rfl⟩
  · rintro r1 r2 ⟨h1, h2⟩
    generalize r2.rng = b at h2
    subst h2
    exact .ok ⟨h1, rfl⟩

omit hg in
theorem step (dt : ℝ) {r r' : Road} (h : Alike g r r') : Twin (Alike g) (r.step dt) (r'.step dt) := by
  have hreg : r'.regulated = r.regulated := by rw [h.2]
  unfold Road.step
  rw [hreg]
  split
  · unfold Road.stepRegulated
    dsimp only
    split
    · exact .error _
    · refine Twin.bind (R := Alike g) ?_ fun _ _ h => stepBase dt h
      obtain ⟨h1, h2⟩ := h
      generalize r'.rng = b at h2
      subst h2
      unfold Road.maybeEnforce
      dsimp only
      split
      · unfold Road.enforceRoadRules
        refine Twin.bind (R := Eq) (Twin.same _) ?_
        rintro vs _ rfl
        refine Twin.bind (R := Eq) (Twin.same _) ?_
        rintro vs _ rfl
        exact .ok ⟨h1, rfl⟩
      · exact .ok ⟨h1, rfl⟩
  · exact stepBase dt h

theorem agentAct (G : Globals) (t : AgentType) (uid : ℕ) (a : AgentAction) {r r' : Road} (h : Alike g r r') :
    Twin (Alike g) (r.agentAct G t uid a) (r'.agentAct G t uid a) := by
  unfold Road.agentAct
  refine Twin.bind (Twin.same _) ?_
  rintro c _ rfl
  have : r'.indexOf uid = r.indexOf uid := by rw [h.2]; rfl
  rw [this]
  cases r.indexOf uid with
  | none => exact .ok h
  | some i => exact actAt hg G c h i

theorem envAct (G : Globals) (t : ActionType) (us : List ℕ) (a : AgentAction) {r r' : Road} (h : Alike g r r') :
    Twin (Alike g) (r.envAct G t us a) (r'.envAct G t us a) := by
  unfold Road.envAct
  cases t with
  | single t =>
    cases us with
    | nil => exact .error _
    | cons uid us => exact agentAct hg G t uid a h
  | multi t =>
    cases a with
    | tuple as => exact Twin.foldlM (fun _ _ au h => agentAct hg G t au.2 au.1 h) _ h
    | index i => exact .error _
    | vector xs => exact .error _

/-- Environments on the map `g` that differ at most by the generator. -/
def AlikeEnv (g : Graph) (e e' : Env) : Prop := e.road.network = g ∧ SameButRandom e e'

omit hg in
theorem alike_road {e e' : Env} (h : AlikeEnv g e e') : Alike g e.road e'.road := by
  refine ⟨h.1, ?_⟩
  have := h.2
  unfold SameButRandom at this
  exact congrArg Env.road this

omit hg in
theorem alike_with {e e' : Env} (h : AlikeEnv g e e') {r r' : Road} (hr : Alike g r r') :
    AlikeEnv g { e with road := r } { e' with road := r' } := by
  refine ⟨hr.1, ?_⟩
  have h2 := h.2
  unfold SameButRandom at h2 ⊢
  generalize e'.road.rng = b at h2
  subst h2
  have h3 := hr.2
  generalize r'.rng = b at h3
  subst h3
  rfl

omit hg in
theorem alike_fields {e e' : Env} (h : AlikeEnv g e e') : e'.controlled = e.controlled ∧ e'.time = e.time ∧ e'.steps = e.steps ∧ e'.done = e.done := by
  have h2 := h.2
  unfold SameButRandom at h2
  rw [h2]
  exact ⟨rfl, rfl, rfl, rfl⟩

theorem forward (G : Globals) (c : SimConfig) (k : Int) (a : Option AgentAction) {e e' : Env} (h : AlikeEnv g e e') :
    Twin (AlikeEnv g) (e.forward G c k a) (e'.forward G c k a) := by
  unfold Env.forward
  cases a with
  | none => exact .ok h
  | some a =>
    obtain ⟨h1, h2⟩ := h
    unfold SameButRandom at h2
    generalize e'.road.rng = b at h2
    subst h2
    have h : AlikeEnv g e { e with road := { e.road with rng := b } } := ⟨h1, rfl⟩
    dsimp only
    split
    · refine Twin.bind (envAct hg G _ _ a (alike_road h)) ?_
      intro r r' hr
      exact .ok (alike_with h hr)
    · exact .ok h

theorem frame (G : Globals) (c : SimConfig) (k : Int) (a : Option AgentAction) {e e' : Env} (h : AlikeEnv g e e') :
    Twin (AlikeEnv g) (e.frame G c k a) (e'.frame G c k a) := by
  unfold Env.frame
  refine Twin.bind (forward hg G c k a h) ?_
  intro e1 e2 h
  refine Twin.bind (roadAct hg G (alike_road h)) ?_
  intro r1 r2 hr
  refine Twin.bind (step _ hr) ?_
  intro r3 r4 hr
  have h2 := alike_with h hr
  refine .ok ⟨h2.1, ?_⟩
  have h3 := h2.2
  unfold SameButRandom at h3 ⊢
  have ht := (alike_fields h).2.1
  dsimp only at h3 ⊢
  have := congrArg (fun e : Env => ({ e with time := e1.time + 1 } : Env)) h3
  dsimp only at this
  rw [ht]
  exact this

omit hg in
theorem stops (cls : EnvClass) (hd : Deterministic cls) {e e' : Env} (h : AlikeEnv g e e') : e'.stops cls = e.stops cls := by
  unfold Env.stops
  rw [(alike_fields h).2.2.2, hd.terminal e e' h.2]

theorem simulateLoop (G : Globals) (c : SimConfig) (cls : EnvClass) (hd : Deterministic cls) (k : Int) (a : Option AgentAction) :
    ∀ (n : ℕ) {e e' : Env}, AlikeEnv g e e' → Twin (AlikeEnv g) (e.simulateLoop G c cls k a n) (e'.simulateLoop G c cls k a n)
  | 0, _, _, h => .ok h
  | n + 1, _, _, h => by
    unfold Env.simulateLoop
    refine Twin.bind (frame hg G c k a h) ?_
    intro e1 e2 h
    rw [stops cls hd h]
    refine Twin.bind (Twin.same _) ?_
    rintro b _ rfl
    split
    · exact .ok h
    · exact simulateLoop G c cls hd k a n h

end Chance

open Chance

/-- **C115, one step.**  On a map without forks, the outcome of `step` does not depend on the random generator: two environments that differ only in their generators return the
same reward, end and information, or raise the same exception, and remain equal up to the generators. -/
theorem step_seedless {g : Graph} (hg : NoForks g) (G : Globals) (c : SimConfig) (cls : EnvClass) (hd : Deterministic cls) (hafter : ∀ e, cls.after e = .ok e)
    (a : Option AgentAction) (e e' : Env) (hn : e.road.network = g) (h : SameButRandom e e') :
    Twin (fun x y => x.2 = y.2 ∧ x.1.road.network = g ∧ SameButRandom x.1 y.1) (e.step G c cls a) (e'.step G c cls a) := by
  unfold SameButRandom at h
  generalize e'.road.rng = b at h
  subst h
  unfold Env.step
  dsimp only
  split
  · exact .error _
  · have hs : AlikeEnv g { e with steps := e.steps + 1 } { e with road := { e.road with rng := b }, steps := e.steps + 1 } := ⟨hn, rfl⟩
    refine Twin.bind (R := AlikeEnv g) ?_ ?_
    · unfold Env.simulate
      refine Twin.bind (Twin.same _) ?_
      rintro k _ rfl
      exact simulateLoop hg G c cls hd k a _ hs
    · intro e1 e2 h
      rw [hd.reward e1 e2 a h.2, hd.terminal e1 e2 h.2]
      refine Twin.bind (Twin.same _) ?_
      rintro reward _ rfl
      refine Twin.bind (Twin.same _) ?_
      rintro terminal _ rfl
      have hv : e2.vehicle = e1.vehicle := by
        have h2 := h.2
        unfold SameButRandom at h2
        rw [h2]; rfl
      rw [hv]
      refine Twin.bind (Twin.same _) ?_
      rintro v _ rfl
      have hcost : Env.tryCost cls e2 = Env.tryCost cls e1 := by
        unfold Env.tryCost
        rw [hd.cost e1 e2 h.2]
      rw [hcost]
      refine Twin.bind (Twin.same _) ?_
      rintro cost _ rfl
      rw [hafter, hafter]
      exact .ok ⟨rfl, h.1, h.2⟩

/-- **C115, whole episodes.**  On a map without forks, what happens after the reset is decided by the state and the actions alone: whatever the states of the generators, the same
actions have the same results. -/
theorem episode_seedless {g : Graph} (hg : NoForks g) (G : Globals) (c : SimConfig) (cls : EnvClass) (hd : Deterministic cls) (hafter : ∀ e, cls.after e = .ok e)
    (e e' : Env) (hn : e.road.network = g) (h : SameButRandom e e') (as : List AgentAction) (rs : List StepResult) (e1 : Env) (hep : Episode G c cls e as rs e1) :
    ∃ e1', Episode G c cls e' as rs e1' ∧ e1.road.network = g ∧ SameButRandom e1 e1' := by
  induction hep with
  | start => exact ⟨e', .start, hn, h⟩
  | @step as rs e1 e2 a res hp hs ih =>
    obtain ⟨f, i1, i2, i3⟩ := ih
    have ht := step_seedless hg G c cls hd hafter (some a) e1 f i2 i3
    rw [hs] at ht
    generalize hq : f.step G c cls (some a) = q at ht
    cases ht with
    | @ok x y hxy =>
      obtain ⟨k1, k2, k3⟩ := hxy
      obtain ⟨y1, y2⟩ := y
      dsimp only at k1 k2 k3
      subst k1
      exact ⟨y1, .step i1 hq, k2, k3⟩

/-! ## The environments without forks -/

private theorem single_roads {g : Graph} (h : ∀ nd ∈ g, nd.2.length ≤ 1) : NoForks g := by
  intro node roads hr
  induction g with
  | nil => cases hr
  | cons nd g ih =>
    obtain ⟨n, d⟩ := nd
    unfold Dict.get? at hr
    by_cases hn : n = node
    · rw [if_pos hn] at hr
      cases hr
      exact h _ List.mem_cons_self
    · rw [if_neg hn] at hr
      exact ih (fun nd hnd => h nd (List.mem_cons_of_mem _ hnd)) hr

/-- **C115, the maps.**  The maps of the highway, the merge, the two-way road, the parking lots and the lane keeping task have no forks; those of the roundabout and of the
intersection have. -/
theorem forks_of_maps (n : ℕ) (len : ℝ) (spots : ℕ) :
    NoForks (straightNet n len) ∧ NoForks mergeNet ∧ NoForks (twoWayNet len) ∧ NoForks (parkingNet spots) ∧ NoForks summonNet ∧ NoForks keepingNet ∧
      ¬ NoForks roundNet ∧ ¬ NoForks interNet := by
  refine ⟨single_roads ?_, single_roads ?_, single_roads ?_, single_roads ?_, single_roads ?_, single_roads ?_, ?_, ?_⟩
  · simp [straightNet]
  · simp [mergeNet]
  · simp [twoWayNet]
  · simp [parkingNet]
  · simp [summonNet]
  · simp [keepingNet]
  · intro h
    have := h "ex" [("ee", ringRoad 24 (-24)), ("exs", [swerveLane ⟨25.5, 7⟩ ⟨42.5, 7⟩ exitPhase])] rfl
    simp at this
  · intro h
    have := h "ir0" [("il3", [turnLane ⟨11, 11⟩ 9 180 270 true 1]), ("il1", [turnLane ⟨-11, 11⟩ 13 0 (-90) false 0]), ("il2", [roadLane ⟨2, 11⟩ ⟨2, -11⟩ 1])] rfl
    simp at this

/-- The rewards, ends and costs of the highway do not draw random numbers. -/
theorem highway_deterministic (cfg : HighwayConfig) : Deterministic (Highway.cls cfg) where
  reward := by intro e e' a h; rw [h]; rfl
  terminal := by intro e e' h; rw [h]; rfl
  cost := by intro e e' h; rw [h]; rfl

/-- The rewards, ends and costs of the merge do not draw random numbers. -/
theorem merge_deterministic (G : Globals) : Deterministic (Merge.cls G) where
  reward := by intro e e' a h; rw [h]; rfl
  terminal := by intro e e' h; rw [h]; rfl
  cost := by intro e e' h; rfl

/-- The rewards, ends and costs of the two-way road do not draw random numbers. -/
theorem twoWay_deterministic (G : Globals) : Deterministic (TwoWay.cls G) where
  reward := by intro e e' a h; rw [h]; rfl
  terminal := by intro e e' h; rw [h]; rfl
  cost := by intro e e' h; rw [h]; rfl

/-- The rewards, ends and costs of the parking do not draw random numbers. -/
theorem parking_deterministic (cfg : ParkingConfig) : Deterministic (Parking.cls cfg) where
  reward := by intro e e' a h; rw [h]; rfl
  terminal := by intro e e' h; rw [h]; rfl
  cost := by intro e e' h; rfl

/-- The rewards, ends and costs of the summon parking do not draw random numbers. -/
theorem summon_deterministic (cfg : SummonConfig) : Deterministic (Summon.cls cfg) where
  reward := by intro e e' a h; rw [h]; rfl
  terminal := by intro e e' h; rw [h]; rfl
  cost := by intro e e' h; rfl

/-- **C115, highway.**  After the reset of the highway no random number has an effect: replacing the generator by any other one changes nothing in the rest of the episode. -/
theorem highway_seedless (G : Globals) (cfg : HighwayConfig) (hc : HighwayOk cfg) (rng : Rng) (e : Env) (he : Highway.reset G cfg rng = .ok e) (other : Rng)
    (as : List AgentAction) (rs : List StepResult) (e1 : Env) (hep : Episode G cfg.sim (Highway.cls cfg) e as rs e1) :
    ∃ e1', Episode G cfg.sim (Highway.cls cfg) { e with road := { e.road with rng := other } } as rs e1' ∧ SameButRandom e1 e1' := by
  obtain ⟨e0, h1, _, h3, _⟩ := highway_reset G cfg hc rng
  rw [he] at h1
  cases h1
  obtain ⟨e1', h, _, h'⟩ := episode_seedless (forks_of_maps cfg.lanesCount 10000 0).1 G cfg.sim _ (highway_deterministic cfg) (fun _ => rfl) e
    { e with road := { e.road with rng := other } } h3 rfl as rs e1 hep
  exact ⟨e1', h, h'⟩

/-- **C115, two-way road.**  The same for the two-way road. -/
theorem twoWay_seedless (G : Globals) (cfg : TwoWayConfig) (hc : TwoWayOk G cfg) (rng : Rng) (e : Env) (he : TwoWay.reset G cfg rng = .ok e) (other : Rng)
    (as : List AgentAction) (rs : List StepResult) (e1 : Env) (hep : Episode G cfg.sim (TwoWay.cls G) e as rs e1) :
    ∃ e1', Episode G cfg.sim (TwoWay.cls G) { e with road := { e.road with rng := other } } as rs e1' ∧ SameButRandom e1 e1' := by
  obtain ⟨e0, _, _, _, _, _, _, h1, _, h3, _⟩ := twoWay_reset G cfg hc rng
  rw [he] at h1
  cases h1
  obtain ⟨e1', h, _, h'⟩ := episode_seedless (forks_of_maps 0 800 0).2.2.1 G cfg.sim _ (twoWay_deterministic G) (fun _ => rfl) e
    { e with road := { e.road with rng := other } } h3.network rfl as rs e1 hep
  exact ⟨e1', h, h'⟩

/-- **C115, parking.**  The same for the parking. -/
theorem parking_seedless (G : Globals) (cfg : ParkingConfig) (hc : ParkingOk cfg) (hn : 0 < cfg.controlledVehicles) (rng : Rng) (e : Env) (he : Parking.reset G cfg rng = .ok e) (other : Rng)
    (as : List AgentAction) (rs : List StepResult) (e1 : Env) (hep : Episode G cfg.sim (Parking.cls cfg) e as rs e1) :
    ∃ e1', Episode G cfg.sim (Parking.cls cfg) { e with road := { e.road with rng := other } } as rs e1' ∧ SameButRandom e1 e1' := by
  obtain ⟨e0, _, _, _, h1, _, h3, _⟩ := parking_reset G cfg hc hn rng
  rw [he] at h1
  cases h1
  obtain ⟨e1', h, _, h'⟩ := episode_seedless (forks_of_maps 0 0 15).2.2.2.1 G cfg.sim _ (parking_deterministic cfg) (fun _ => rfl) e
    { e with road := { e.road with rng := other } } h3.network rfl as rs e1 hep
  exact ⟨e1', h, h'⟩

/-- **C115, merge.**  The seed has no effect at all in the merge environment: resets with any two generators give the same scene, and the same actions then have the same
rewards, ends and information. -/
theorem merge_seedless (G : Globals) (cfg : MergeConfig) (rng rng' : Rng) (e : Env) (he : Merge.reset G cfg rng = .ok e) :
    ∃ e', Merge.reset G cfg rng' = .ok e' ∧ SameButRandom e e' ∧
      ∀ (as : List AgentAction) (rs : List StepResult) (e1 : Env), Episode G cfg.sim (Merge.cls G) e as rs e1 →
        ∃ e1', Episode G cfg.sim (Merge.cls G) e' as rs e1' ∧ SameButRandom e1 e1' := by
  obtain ⟨e', h1, h2, h3⟩ : ∃ e', Merge.reset G cfg rng' = .ok e' ∧ SameButRandom e e' ∧ e.road.network = mergeNet := by
    unfold Merge.reset at he ⊢
    obtain ⟨t, ht, he⟩ := bind_ok he
    obtain ⟨r, hr, he⟩ := bind_ok he
    cases he
    unfold Merge.makeVehicles at hr
    obtain ⟨v0, q0, hr⟩ := bind_ok hr
    obtain ⟨v1, q1, hr⟩ := bind_ok hr
    obtain ⟨v2, q2, hr⟩ := bind_ok hr
    obtain ⟨v3, q3, hr⟩ := bind_ok hr
    obtain ⟨v4, q4, hr⟩ := bind_ok hr
    cases hr
    refine ⟨{ road := { Merge.makeRoad cfg rng' with vehicles := [v0, v1, v2, v3, { v4 with targetSpeed := 30 }] }, controlled := [0], nextUid := 6 }, ?_, rfl, merge_network⟩
    have e : (Merge.makeRoad cfg rng').network = (Merge.makeRoad cfg rng).network := rfl
    unfold Merge.makeVehicles
    rw [ht, e, q0, q1, q2, q3, q4]
    rfl
  refine ⟨e', h1, h2, ?_⟩
  intro as rs e1 hep
  obtain ⟨e1', h, _, h'⟩ := episode_seedless (forks_of_maps 0 0 0).2.1 G cfg.sim _ (merge_deterministic G) (fun _ => rfl) e e' h3 h2 as rs e1 hep
  exact ⟨e1', h, h'⟩

/-- **C115, at a fork.**  Without a route, a vehicle that reaches the end of its road takes any of the roads that leave the node, depending on the generator. -/
theorem fork_any_road {g : Graph} (hg : WellFormed g) (v : Vehicle) (hv : ValidIndex g v.targetLane) (hr : v.route = none) (l : Lane) (hl : g.getLane v.targetLane = .ok l)
    (hend : l.afterEnd v.pos = true) (t : String) (ht : Edge g v.targetLane.dst t) :
    ∃ rng v' rng', v.followRoad g rng = .ok (v', rng') ∧ v'.targetLane.src = v.targetLane.dst ∧ v'.targetLane.dst = t := by
  obtain ⟨ls, d, hd1, hd2⟩ := ht
  have hget : Dict.get? g v.targetLane.dst = some d := by
    first
      | exact Graph.get?_of_mem hg.outer hd1
      | exact (Dict.get?_eq_some_iff hg.outer).2 hd1
      | exact Dict.get?_of_mem hg.outer hd1
  have hmem : t ∈ Dict.keys d := List.mem_map.2 ⟨(t, ls), hd2, rfl⟩
  obtain ⟨k, hk, hkt⟩ := List.getElem_of_mem hmem
  have hlen : (Dict.keys d).length = d.length := by unfold Dict.keys; exact List.length_map ..
  have hk' : k < d.length := hlen ▸ hk
  set rng : Rng := { ints := fun _ => k, reals := fun _ => 0 } with hrng
  have hri : rng.randint d.length = .ok (k, { rng with ipos := rng.ipos + 1 }) := by
    unfold Rng.randint
    rw [if_neg (by omega)]
    show Except.ok (k % d.length, _) = _
    rw [Nat.mod_eq_of_lt hk']
  have hkd : (Dict.keys d).getD k "" = t := by
    rw [List.getD_eq_getElem?_getD, List.getElem?_eq_getElem hk, hkt]; rfl
  cases hn : g.nextLane v.targetLane v.route v.pos rng with
  | error e =>
    obtain ⟨_, s, hs, _⟩ := nextLane_error g hg _ hv _ _ _ _ hn
    rw [hr] at hs
    cases hs
  | ok q =>
    obtain ⟨i, ro, rng'⟩ := q
    refine ⟨rng, { v with targetLane := i, route := ro }, rng', ?_, ?_⟩
    · unfold Vehicle.followRoad
      rw [hl]
      show (if l.afterEnd v.pos = true then _ else _) = _
      rw [if_pos hend, hn]
      rfl
    · have hn' : g.nextLaneOn v.targetLane t v.pos = .ok i := by
        rw [hr] at hn
        unfold Graph.nextLane at hn
        have : Graph.nextFromRoute v.targetLane none = (none, none) := rfl
        rw [this] at hn
        dsimp only at hn
        rw [if_neg (by simp [Graph.strTruthy]), hget] at hn
        dsimp only at hn
        obtain ⟨⟨k', r'⟩, h1, hn⟩ := bind_ok hn
        rw [hri] at h1
        cases h1
        dsimp only at hn
        rw [hkd] at hn
        obtain ⟨i', h1, hn⟩ := bind_ok hn
        cases hn
        exact h1
      unfold Graph.nextLaneOn at hn'
      obtain ⟨here, _, hn'⟩ := bind_ok hn'
      obtain ⟨there, _, hn'⟩ := bind_ok hn'
      split at hn'
      · cases hn'; exact ⟨rfl, rfl⟩
      · split at hn'
        · cases hn'
        · cases hn'; exact ⟨rfl, rfl⟩

/-- A vehicle at the end of the southern access of the intersection, without a route, can be sent to the east as well as to the west. -/
example : ∃ v : Vehicle, ∃ a b : Rng, ∃ v' v'' a' b', v.followRoad interNet a = .ok (v', a') ∧ v.followRoad interNet b = .ok (v'', b') ∧
    v'.targetLane.dst = "il3" ∧ v''.targetLane.dst = "il1" := by
  have hh : HasLane interNet "o0" "ir0" 0 (roadLane ⟨2, 111⟩ ⟨2, 11⟩ 1) := ⟨_, ⟨_, List.mem_cons_self, List.mem_cons_self⟩, rfl⟩
  let v : Vehicle := { Sample.car 0 .idm 0 0 10 with pos := ⟨2, 11⟩, targetLane := ⟨"o0", "ir0", 0⟩, route := none }
  have hl : interNet.getLane v.targetLane = .ok (roadLane ⟨2, 111⟩ ⟨2, 11⟩ 1) := Graph.getLane_of_hasLane (k := 0) interNet_wf.toIsPyGraph rfl hh
  have hend : (roadLane ⟨2, 111⟩ ⟨2, 11⟩ 1).afterEnd v.pos = true := by
    obtain ⟨p1, p2, _, _, p5⟩ := access_point 0 100
    have e : v.pos = (accessLane 0).position 100 0 := by rw [p1]; show (⟨2, 11⟩ : Vec2) = ⟨2, 111 - 100⟩; norm_num
    show (accessLane 0).afterEnd v.pos = true
    rw [e]
    unfold Lane.afterEnd
    rw [p5, p2]
    norm_num [Lane.optTruthy, Lane.VEHICLE_LENGTH]
  have he : ∀ t, Edge interNet "ir0" t → _ := fun t ht => fork_any_road interNet_wf v ⟨0, _, rfl, hh⟩ rfl _ hl hend t ht
  obtain ⟨a, v', a', h1, _, h2⟩ := he "il3" ⟨_, _, List.mem_cons_of_mem _ List.mem_cons_self, List.mem_cons_self⟩
  obtain ⟨b, v'', b', h3, _, h4⟩ := he "il1" ⟨_, _, List.mem_cons_of_mem _ List.mem_cons_self, List.mem_cons_of_mem _ List.mem_cons_self⟩
  exact ⟨v, a, b, v', v'', a', b', h1, h3, h2, h4⟩

/-- The default highway can be played for 40 steps, and the generator plays no part after the reset. -/
example (rng : Rng) : ∃ e rs e1 e2, Highway.reset {} {} rng = .ok e ∧ Episode {} ({} : HighwayConfig).sim (Highway.cls {}) e (List.replicate 40 (.index 1)) rs e1 ∧ rs.length = 40 ∧
    Episode {} ({} : HighwayConfig).sim (Highway.cls {}) { e with road := { e.road with rng := { ints := fun n => n, reals := fun n => 1 / (n + 1) } } } (List.replicate 40 (.index 1)) rs e2 := by
  obtain ⟨e, rs, e', h1, h2, h3, -⟩ := highway_episode {} {} highway_default_ok.1 (by norm_num) (by norm_num) rng
    (List.replicate 40 (.index 1)) (by
      intro a ha
      obtain ⟨_, rfl⟩ := List.mem_replicate.1 ha
      exact ⟨by norm_num, by norm_num [AgentType.spaceSize, AgentType.actions]⟩)
  obtain ⟨e2, h4, -⟩ := highway_seedless {} {} highway_default_ok.1 rng e h1 { ints := fun n => n, reals := fun n => 1 / (n + 1) } _ rs e' h2
  exact ⟨e, rs, e', e2, h1, h2, by simpa using h3, h4⟩

end HighwayEnv.Props
