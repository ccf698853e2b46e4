import Verif.Model.Observation

/-!
# What a seed can bring about: every order of shuffled rows; `not_zero` at zero
-/

noncomputable section
open Classical
namespace HighwayEnv.Props
open HighwayEnv

namespace Seeds

/-- Shuffling `n` rows takes `n` integers from the generator, and nothing else. -/
theorem shuffle_draws {α : Type} (r : Rng) (l : List α) : (r.shuffle l).2 = { r with ipos := r.ipos + l.length } := by
  induction l with
  | nil => rfl
  | cons a l ih =>
    unfold Rng.shuffle
    dsimp only
    rw [ih]
    rfl

/-- The order depends on these integers only. -/
theorem shuffle_local {α : Type} (r r' : Rng) (hp : r.ipos = r'.ipos) (l : List α)
    (h : ∀ k, k < l.length → r.ints (r.ipos + k) = r'.ints (r'.ipos + k)) : (r.shuffle l).1 = (r'.shuffle l).1 := by
  induction l with
  | nil => rfl
  | cons a l ih =>
    have h1 := ih fun k hk => h k (by simp only [List.length_cons]; omega)
    have h2 := h l.length (by simp)
    unfold Rng.shuffle
    dsimp only
    rw [h1, shuffle_draws, shuffle_draws]
    dsimp only
    rw [h2]

end Seeds

/-- Shuffling can produce every order: for each rearrangement `l'` of `l` there is a state of the generator that leads to it. -/
theorem shuffle_any {α : Type} (l l' : List α) (h : l'.Perm l) : ∃ r : Rng, (r.shuffle l).1 = l' := by
  suffices H : ∃ f : ℕ → ℕ, ((Rng.mk f (fun _ => 0) 0 0).shuffle l).1 = l' from H.elim fun f hf => ⟨_, hf⟩
  induction l generalizing l' with
  | nil => exact ⟨fun _ => 0, (List.perm_nil.1 h).symm⟩
  | cons a t ih =>
    obtain ⟨s, u, rfl⟩ := List.append_of_mem (h.mem_iff.2 (List.mem_cons_self ..))
    have hp : (s ++ u).Perm t := (List.perm_middle.symm.trans h).cons_inv
    obtain ⟨f, hf⟩ := ih _ hp
    refine ⟨fun k => if k = t.length then s.length else f k, ?_⟩
    have hl := Seeds.shuffle_local (Rng.mk (fun k => if k = t.length then s.length else f k) (fun _ => 0) 0 0) (Rng.mk f (fun _ => 0) 0 0) rfl t
      (fun k hk => by
        show (if 0 + k = t.length then s.length else f (0 + k)) = f (0 + k)
        rw [if_neg (by omega)])
    unfold Rng.shuffle
    dsimp only
    rw [Seeds.shuffle_draws, hl, hf]
    dsimp only
    rw [Nat.zero_add, if_pos rfl, Nat.mod_eq_of_lt (by rw [List.length_append]; omega)]
    simp

/-- A shuffle leaves the generator at a place from which the following draws are not those it has used. -/
theorem shuffle_fresh {α : Type} (r : Rng) (l : List α) : (r.shuffle l).2.ints = r.ints ∧ (r.shuffle l).2.reals = r.reals ∧
    (r.shuffle l).2.ipos = r.ipos + l.length ∧ (r.shuffle l).2.rpos = r.rpos := by
  rw [Seeds.shuffle_draws]; exact ⟨rfl, rfl, rfl, rfl⟩

example : ∃ r : Rng, (r.shuffle [1, 2, 3, 4]).1 = [4, 3, 2, 1] := shuffle_any _ _ (by decide)

/-- `not_zero(0, eps)` is `-eps`. -/
theorem notZero_zero (eps : ℝ) (he : 0 ≤ eps) : notZero 0 eps = -eps := by
  unfold notZero
  rw [if_neg (by simpa using he), if_neg (lt_irrefl _)]

example : notZero 0 2 = -2 := notZero_zero 2 (by norm_num)

end HighwayEnv.Props
