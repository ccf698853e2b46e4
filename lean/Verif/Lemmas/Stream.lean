import Verif.Spec.Stream
import Verif.Model.Step
import Verif.Model.Env
import Verif.Lemmas.Road
import Verif.Spec.Run
import Verif.Model.Envs.Intersection

/-!
# Everything that happens on a road only consumes the random generator
-/

noncomputable section
open Classical
namespace HighwayEnv
open Spec

theorem Spec.Later.refl (g : Rng) : Later g g := ⟨rfl, rfl, le_rfl, le_rfl⟩

theorem Spec.Later.trans {a b c : Rng} (h : Later a b) (k : Later b c) : Later a c :=
  ⟨k.ints.trans h.ints, k.reals.trans h.reals, h.ipos.trans k.ipos, h.rpos.trans k.rpos⟩

theorem Rng.randint_later {g g' : Rng} {n k : ℕ} (h : g.randint n = .ok (k, g')) : Later g g' := by
  unfold Rng.randint at h
  by_cases hn : n = 0
  · rw [if_pos hn] at h; cases h
  · rw [if_neg hn] at h
    have := congrArg Prod.snd (Except.ok.inj h)
    dsimp only at this
    subst this
    exact ⟨rfl, rfl, Nat.le_succ _, le_rfl⟩

theorem Rng.uniform01_later (g : Rng) : Later g g.uniform01.2 := ⟨rfl, rfl, le_rfl, Nat.le_succ _⟩

theorem Rng.normal_later (g : Rng) : Later g g.normal.2 := ⟨rfl, rfl, le_rfl, Nat.le_succ _⟩

theorem Graph.nextLane_later {G : Graph} {cur i : LaneIndex} {route route' : Option (List RouteStep)} {p : Vec2} {g g' : Rng}
    (h : G.nextLane cur route p g = .ok (i, route', g')) : Later g g' := by
  unfold Graph.nextLane at h
  dsimp only at h
  generalize Graph.nextFromRoute cur route = q at h
  obtain ⟨ro, nt⟩ := q
  dsimp only at h
  by_cases ht : strTruthy nt = true
  · rw [if_pos ht] at h
    obtain ⟨_, _, h⟩ := bind_ok h
    have := congrArg (fun p => p.2.2) (Except.ok.inj h)
    dsimp only at this
    subst this
    exact Later.refl _
  · rw [if_neg ht] at h
    cases hd : Dict.get? G cur.dst with
    | none =>
      rw [hd] at h
      have := congrArg (fun p => p.2.2) (Except.ok.inj h)
      dsimp only at this
      subst this
      exact Later.refl _
    | some d =>
      rw [hd] at h
      obtain ⟨⟨k, g1⟩, h1, h⟩ := bind_ok h
      obtain ⟨_, _, h⟩ := bind_ok h
      have := congrArg (fun p => p.2.2) (Except.ok.inj h)
      dsimp only at this
      subst this
      exact Rng.randint_later h1

namespace Vehicle

theorem followRoad_later {G : Graph} {g g' : Rng} {v w : Vehicle} (h : v.followRoad G g = .ok (w, g')) : Later g g' := by
  unfold followRoad at h
  obtain ⟨l, _, h⟩ := bind_ok h
  by_cases ha : l.afterEnd v.pos = true
  · rw [if_pos ha] at h
    obtain ⟨⟨i, ro, g1⟩, h1, h⟩ := bind_ok h
    have := congrArg Prod.snd (Except.ok.inj h)
    dsimp only at this
    subst this
    exact Graph.nextLane_later h1
  · rw [if_neg ha] at h
    have := congrArg Prod.snd (Except.ok.inj h)
    dsimp only at this
    subst this
    exact Later.refl _

theorem controlledAct_later {G : Graph} {g g' : Rng} {v w : Vehicle} {a : VAction} (h : v.controlledAct G g a = .ok (w, g')) : Later g g' := by
  unfold controlledAct at h
  obtain ⟨⟨v1, g1⟩, h1, h⟩ := bind_ok h
  obtain ⟨_, _, h⟩ := bind_ok h
  obtain ⟨_, _, h⟩ := bind_ok h
  have := congrArg Prod.snd (Except.ok.inj h)
  dsimp only at this
  subst this
  exact followRoad_later h1

theorem mdpAct_later {G : Globals} {n : Graph} {g g' : Rng} {v w : Vehicle} {a : VAction} (h : v.mdpAct G n g a = .ok (w, g')) : Later g g' := by
  unfold mdpAct at h
  cases a <;> exact controlledAct_later h

theorem idmAct_later {G : Globals} {r : Road} {g' : Rng} {v w : Vehicle} (h : v.idmAct G r = .ok (w, g')) : Later r.rng g' := by
  unfold idmAct at h
  by_cases hc : v.crashed = true
  · rw [if_pos hc] at h
    have := congrArg Prod.snd (Except.ok.inj h)
    dsimp only at this
    subst this
    exact Later.refl _
  · rw [if_neg hc] at h
    obtain ⟨_, _, h⟩ := bind_ok h
    obtain ⟨⟨v1, g1⟩, h1, h⟩ := bind_ok h
    obtain ⟨_, _, h⟩ := bind_ok h
    obtain ⟨_, _, h⟩ := bind_ok h
    obtain ⟨_, _, h⟩ := bind_ok h
    have := congrArg Prod.snd (Except.ok.inj h)
    dsimp only at this
    subst this
    exact followRoad_later h1

theorem act_later {G : Globals} {r : Road} {g' : Rng} {v w : Vehicle} {a : VAction} (h : v.act G r a = .ok (w, g')) : Later r.rng g' := by
  have still : ∀ x : Vehicle, (Except.ok (x, r.rng) : Py (Vehicle × Rng)) = .ok (w, g') → Later r.rng g' := by
    intro x h
    have := congrArg Prod.snd (Except.ok.inj h)
    dsimp only at this
    subst this
    exact Later.refl _
  unfold act at h
  cases hk : v.kind <;> rw [hk] at h <;> dsimp only at h
  case controlled => exact controlledAct_later h
  case mdp => exact mdpAct_later h
  all_goals first
    | exact idmAct_later h
    | (cases a <;> first | exact still _ h | cases h)

end Vehicle

namespace Road

theorem actAt_later {G : Globals} {a : VAction} {r r' : Road} {i : ℕ} (h : r.actAt G a i = .ok r') : Later r.rng r'.rng := by
  unfold actAt at h
  cases hv : r.vehicles[i]? with
  | none =>
    rw [hv] at h
    cases h
    exact Later.refl _
  | some v =>
    rw [hv] at h
    obtain ⟨⟨w, g⟩, h1, h⟩ := bind_ok h
    have := congrArg Road.rng (Except.ok.inj h)
    dsimp only at this
    rw [← this]
    exact Vehicle.act_later h1

theorem foldlM_later {α β : Type} (g : β → Rng) (f : β → α → Py β) (hf : ∀ b a b', f b a = .ok b' → Later (g b) (g b')) (l : List α) :
    ∀ {b b' : β}, l.foldlM f b = .ok b' → Later (g b) (g b') := by
  induction l with
  | nil =>
    intro b b' h
    cases h
    exact Later.refl _
  | cons a l ih =>
    intro b b' h
    rw [List.foldlM_cons] at h
    obtain ⟨c, h1, h⟩ := bind_ok h
    exact (hf _ _ _ h1).trans (ih h)

theorem act_later {G : Globals} {r r' : Road} (h : r.act G = .ok r') : Later r.rng r'.rng :=
  foldlM_later Road.rng _ (fun _ _ _ h => actAt_later h) _ h

theorem step_later {r r' : Road} {dt : ℝ} (h : r.step dt = .ok r') : Later r.rng r'.rng := by
  rw [(step_frame h).2.2.2.2.1]; exact Later.refl _

theorem run_later {G : Globals} {r r' : Road} (h : RoadRun G r r') : Later r.rng r'.rng := by
  induction h with
  | refl => exact Later.refl _
  | tail _ he ih =>
    cases he with
    | actAt i a h => exact ih.trans (actAt_later h)
    | act h => exact ih.trans (act_later h)
    | step dt h => exact ih.trans (step_later h)

end Road

namespace Intersection

theorem runFrames_later {G : Globals} {dt : ℝ} : ∀ {n : ℕ} {r r' : Road}, runFrames G dt n r = .ok r' → Later r.rng r'.rng
  | 0, r, r', h => by cases h; exact Later.refl _
  | n + 1, r, r', h => by
    unfold runFrames at h
    obtain ⟨r1, h1, h⟩ := bind_ok h
    unfold runFrame at h1
    obtain ⟨r2, h2, h1⟩ := bind_ok h1
    exact ((Road.act_later h2).trans (Road.step_later h1)).trans (runFrames_later h)

theorem randomize_later (v : Vehicle) (g : Rng) : Later g (Env.randomizeVehicle v g).2 := by
  unfold Env.randomizeVehicle
  split
  · exact ⟨rfl, rfl, le_rfl, by change g.rpos ≤ g.rpos + 1 + 1 + 1 + 1 + 1; omega⟩
  · exact Later.refl _

theorem spawn_later {G : Globals} {kind : VKind} {ord : Graph.SetOrder} {lon pd sd prob : ℝ} {go : Bool} {s s' : Road × ℕ}
    (h : spawn G kind ord lon pd sd prob go s = .ok s') : Later s.1.rng s'.1.rng := by
  unfold spawn at h
  dsimp only at h
  by_cases hp : prob < s.1.rng.uniform01.1
  · rw [if_pos hp] at h
    have := congrArg (fun s => s.1.rng) (Except.ok.inj h)
    dsimp only at this
    rw [← this]
    exact Rng.uniform01_later _
  · rw [if_neg hp] at h
    obtain ⟨⟨ab, g1⟩, h1, h⟩ := bind_ok h
    obtain ⟨v, _, h⟩ := bind_ok h
    dsimp only at h
    have l1 : Later s.1.rng g1 := by
      unfold twoSides at h1
      obtain ⟨⟨a, g2⟩, e1, h1⟩ := bind_ok h1
      obtain ⟨⟨b, g3⟩, e2, h1⟩ := bind_ok h1
      have := congrArg Prod.snd (Except.ok.inj h1)
      dsimp only at this
      rw [← this]
      exact (Rng.uniform01_later _).trans ((Rng.randint_later e1).trans (Rng.randint_later e2))
    have l2 : Later s.1.rng g1.normal.2.normal.2 := l1.trans ((Rng.normal_later _).trans (Rng.normal_later _))
    split at h
    · have := congrArg (fun s => s.1.rng) (Except.ok.inj h)
      dsimp only at this
      rw [← this]
      exact l2
    · obtain ⟨⟨w, g4⟩, h4, h⟩ := bind_ok h
      have := congrArg (fun s => s.1.rng) (Except.ok.inj h)
      dsimp only at this
      rw [← this]
      refine l2.trans ?_
      unfold prepare at h4
      split at h4
      · obtain ⟨u, _, h4⟩ := bind_ok h4
        have := congrArg Prod.snd (Except.ok.inj h4)
        dsimp only at this
        rw [← this]
        exact randomize_later _ _
      · cases h4

theorem spawnAll_later {G : Globals} {cfg : IntersectionConfig} {ord : Graph.SetOrder} {s s' : Road × ℕ}
    (h : spawnAll G cfg ord s = .ok s') : Later s.1.rng s'.1.rng :=
  Road.foldlM_later (fun s : Road × ℕ => s.1.rng) _ (fun _ _ _ h => spawn_later h) _ h

theorem destination_later {cfg : IntersectionConfig} {g g' : Rng} {d : String} (h : egoDestination cfg g = .ok (d, g')) : Later g g' := by
  have random : egoDestination.randomDestination g = .ok (d, g') → Later g g' := by
    intro h
    unfold egoDestination.randomDestination at h
    obtain ⟨⟨k, g1⟩, h1, h⟩ := bind_ok h
    have := congrArg Prod.snd (Except.ok.inj h)
    dsimp only at this
    rw [← this]
    exact Rng.randint_later h1
  unfold egoDestination at h
  split at h
  · split at h
    · cases h; exact Later.refl _
    · exact random h
  · exact random h

end Intersection
end HighwayEnv
