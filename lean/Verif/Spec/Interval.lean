import Verif.Model.Interval
import Mathlib.Analysis.Convex.Hull

/-!
# Specification vocabulary: intervals
-/

noncomputable section
open Matrix
namespace HighwayEnv.Spec
open HighwayEnv

/-- `x` lies in the interval (entry by entry for vectors and matrices). -/
def InItv {α : Type*} [LE α] (x : α) (i : Itv α) : Prop := i.1 ≤ x ∧ x ≤ i.2

/-- `i` is exactly the range of a set of numbers: both bounds are values, and all values lie between them. -/
def RangeOf (i : Itv ℝ) (s : Set ℝ) : Prop := IsLeast s i.1 ∧ IsGreatest s i.2

/-- The point lies in the box with corners `b.1` and `b.2`. -/
def InBox (q : Vec2) (b : Itv Vec2) : Prop := InItv q.x (b.1.x, b.2.x) ∧ InItv q.y (b.1.y, b.2.y)

/-- One step of duration `dt` of the uncertain linear system `x' = (a0 + Σ αᵢ daᵢ)(x - c) + e ω + b u`. -/
def linearStep {ι κ δ : Type} [Fintype ι] [Fintype κ] [Fintype δ] (a : Matrix ι ι ℝ) (b : Matrix ι κ ℝ) (e : Matrix ι δ ℝ) (c : ι → ℝ)
    (u : κ → ℝ) (w : δ → ℝ) (dt : ℝ) (x : ι → ℝ) : ι → ℝ := x + dt • (a *ᵥ (x - c) + e *ᵥ w + b *ᵥ u)

/-- `a` is `a0` plus a combination of the deviations with weights between 0 and 1. -/
def InPolytope {ι : Type} (a0 : Matrix ι ι ℝ) (da : List (Matrix ι ι ℝ)) (a : Matrix ι ι ℝ) : Prop :=
  ∃ α : List ℝ, α.length = da.length ∧ (∀ c ∈ α, 0 ≤ c ∧ c ≤ 1) ∧ a = a0 + (List.zipWith (fun c m => c • m) α da).sum

/-- An evolution of the uncertain system around `c`, with any matrix of the polytope and any admissible disturbance at each step. -/
def Evolution {ι κ δ : Type} [Fintype ι] [Fintype κ] [Fintype δ] (a0 : Matrix ι ι ℝ) (da : List (Matrix ι ι ℝ)) (b : Matrix ι κ ℝ) (e : Matrix ι δ ℝ) (omega : Itv (δ → ℝ)) (u : κ → ℝ) (c : ι → ℝ)
    (dt : ℝ) (x : ℕ → ι → ℝ) : Prop :=
  ∀ t, ∃ a w, InPolytope a0 da a ∧ InItv w omega ∧ x (t + 1) = linearStep a b e c u w dt (x t)

/-- An evolution of the uncertain system around the origin in open loop, driven by the control `u t` at step `t`. -/
def Driven {ι κ δ : Type} [Fintype ι] [Fintype κ] [Fintype δ] (a0 : Matrix ι ι ℝ) (da : List (Matrix ι ι ℝ)) (b : Matrix ι κ ℝ) (e : Matrix ι δ ℝ) (omega : Itv (δ → ℝ))
    (u : ℕ → κ → ℝ) (dt : ℝ) (x : ℕ → ι → ℝ) : Prop :=
  ∀ t, ∃ a w, InPolytope a0 da a ∧ InItv w omega ∧ x (t + 1) = linearStep a b e 0 (u t) w dt (x t)

/-- Off-diagonal entries are non-negative. -/
def Metzler {ι : Type} (a : Matrix ι ι ℝ) : Prop := ∀ i j, i ≠ j → 0 ≤ a i j

end HighwayEnv.Spec
