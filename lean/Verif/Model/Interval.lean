import Mathlib.Algebra.Order.Group.PosPart
import Mathlib.LinearAlgebra.Matrix.Notation
import Mathlib.Data.Real.Basic
import Mathlib.Data.Matrix.Mul
import Verif.Model.Lane

/-!
# Model of `highway_env/interval.py`

Vectors and matrices are real functions of finite index types; an interval is a pair (minimum, maximum) of such objects.
`np.maximum(x, 0)` on arrays is the entrywise lattice operation `x ⊔ 0`.
-/

noncomputable section
open Classical Matrix

namespace HighwayEnv

/-- An interval `[min, max]` of scalars, vectors or matrices — types.py:8. -/
abbrev Itv (α : Type*) := α × α

namespace Itv

section
variable {α β γ : Type*} [Lattice α] [AddGroup α] [Lattice β] [AddGroup β] [AddGroup γ]

/-- `p = lambda x: np.maximum(x, 0)` — interval.py:19, 35. -/
def p (x : α) : α := x ⊔ 0

/-- `n = lambda x: np.maximum(-x, 0)` — interval.py:20, 36. -/
def n (x : α) : α := -x ⊔ 0

/-- `intervals_product` — interval.py:11-23.  `dot` is the meaning of `np.dot` for the shapes of the arguments (product of scalars,
scaling, scalar product, matrix-vector product). -/
def product (dot : α → β → γ) (a : Itv α) (b : Itv β) : Itv γ :=
  (dot (p a.1) (p b.1) - dot (p a.2) (n b.1) - dot (n a.1) (p b.2) + dot (n a.2) (n b.2),
   dot (p a.2) (p b.2) - dot (p a.1) (n b.2) - dot (n a.2) (p b.1) + dot (n a.1) (n b.1))

/-- `intervals_scaling` — interval.py:26-39. -/
def scaling (dot : α → β → γ) (a : α) (b : Itv β) : Itv γ :=
  (dot (p a) b.1 - dot (n a) b.2, dot (p a) b.2 - dot (n a) b.1)

/-- `intervals_diff` — interval.py:42-50. -/
def diff (a b : Itv γ) : Itv γ := (a.1 - b.2, a.2 - b.1)

/-- `interval_negative_part` — interval.py:53-60. -/
def negativePart (a : Itv α) : Itv α := (a.1 ⊓ 0, a.2 ⊓ 0)

end

/-- `integrator_interval` — interval.py:63-78. -/
def integrator (x k : Itv ℝ) : Itv ℝ :=
  let gain : Itv ℝ := if 0 ≤ x.1 then (-k.2, -k.1) else if x.2 ≤ 0 then (-k.1, -k.2) else (-k.1, -k.1)
  (gain.1 * x.1, gain.2 * x.2)

/-- `min` and `max` of the values of `f` on the four corners — interval.py:82-86, 96-100, 116-120. -/
def overCorners (x y : Itv ℝ) (f : Vec2 → ℝ) : Itv ℝ :=
  (min (min (f ⟨x.1, y.1⟩) (f ⟨x.1, y.2⟩)) (min (f ⟨x.2, y.1⟩) (f ⟨x.2, y.2⟩)),
   max (max (f ⟨x.1, y.1⟩) (f ⟨x.1, y.2⟩)) (max (f ⟨x.2, y.1⟩) (f ⟨x.2, y.2⟩)))

/-- `vector_interval_section` — interval.py:81-87. -/
def section' (v : Itv Vec2) (direction : Vec2) : Itv ℝ := overCorners (v.1.x, v.2.x) (v.1.y, v.2.y) fun c => c.dot direction

/-- `interval_absolute_to_local` — interval.py:90-105. -/
def absoluteToLocal (pos : Itv Vec2) (lane : Lane) : Itv ℝ × Itv ℝ :=
  (overCorners (pos.1.x, pos.2.x) (pos.1.y, pos.2.y) fun c => (lane.localCoordinates c).1,
   overCorners (pos.1.x, pos.2.x) (pos.1.y, pos.2.y) fun c => (lane.localCoordinates c).2)

/-- `interval_local_to_absolute` — interval.py:108-123. -/
def localToAbsolute (lon lat : Itv ℝ) (lane : Lane) : Itv Vec2 :=
  let xs := overCorners lon lat fun c => (lane.position c.x c.y).x
  let ys := overCorners lon lat fun c => (lane.position c.x c.y).y
  (⟨xs.1, ys.1⟩, ⟨xs.2, ys.2⟩)

end Itv

/-- `polytope` — interval.py:126-146.  Duplicates are removed from the deviations; their order is not used anywhere, so they are a set.
`params` are the intervals of the parameters. -/
def polytope {k : ℕ} {M : Type*} [AddGroup M] (f : (Fin k → ℝ) → M) (params : Fin k → Itv ℝ) : M × Finset M :=
  let mean : Fin k → ℝ := fun i => ((params i).1 + (params i).2) / 2
  let vertex : (Fin k → Bool) → Fin k → ℝ := fun c i => if c i then (params i).2 else (params i).1
  (f mean, Finset.univ.image fun c => f (vertex c) - f mean)

/-- `is_metzler` — interval.py:149-150. -/
def isMetzler {ι : Type*} [DecidableEq ι] (a : Matrix ι ι ℝ) (eps : ℝ := 1 / 10 ^ 9) : Bool :=
  decide (∀ i j, -eps ≤ a i j - if i = j then a i j else 0)

/-- `LPV` — interval.py:153-198: states are indexed by `ι`, controls by `κ`, disturbances by `δ`. -/
structure LPV (ι κ δ : Type) where
  a0 : Matrix ι ι ℝ
  da : List (Matrix ι ι ℝ)
  b : Matrix ι κ ℝ
  d : Matrix ι δ ℝ
  omega : Itv (δ → ℝ)
  u : κ → ℝ
  k : Matrix κ ι ℝ
  center : ι → ℝ
  coordinates : Option (Matrix ι ι ℝ × Matrix ι ι ℝ)
  /-- the nominal state `x_t` -/
  xt : ι → ℝ
  /-- the predicted interval `x_i_t` -/
  xit : Itv (ι → ℝ)

namespace LPV
variable {ι κ δ : Type} [DecidableEq ι] [Fintype ι] [Fintype κ] [Fintype δ]

/-- The coordinates chosen by `update_coordinates_frame` — interval.py:206-219.  `eig` stands for `np.linalg.eig` followed by
`np.linalg.inv`: the matrix of eigenvectors and its inverse if the eigenvalues are real and the matrix can be inverted. -/
def frame (eig : Matrix ι ι ℝ → Option (Matrix ι ι ℝ × Matrix ι ι ℝ)) (a0 : Matrix ι ι ℝ) : Option (Matrix ι ι ℝ × Matrix ι ι ℝ) :=
  if isMetzler a0 then some (1, 1) else eig a0

/-- `change_coordinates(value, matrix=True)` — interval.py:256-260, forward. -/
def toFrame (c : Option (Matrix ι ι ℝ × Matrix ι ι ℝ)) (m : Matrix ι ι ℝ) : Matrix ι ι ℝ :=
  match c with
  | none => m
  | some (t, ti) => ti * m * t

/-- `change_coordinates(x)` on a state — interval.py:263-272, forward. -/
def stateToFrame (c : Option (Matrix ι ι ℝ × Matrix ι ι ℝ)) (center x : ι → ℝ) : ι → ℝ :=
  match c with
  | none => x
  | some (_, ti) => ti *ᵥ (x - center)

/-- The constructor — interval.py:154-223.  `xi` is the initial interval (default: the initial state).  The feedback is included in
`a0`; then `a0`, `da`, `b` and the bounds of the interval (each separately) are transformed, the disturbance matrix `d` and the nominal
state `x_t` are not. -/
def init (eig : Matrix ι ι ℝ → Option (Matrix ι ι ℝ × Matrix ι ι ℝ)) (x0 : ι → ℝ) (a0 : Matrix ι ι ℝ) (da : List (Matrix ι ι ℝ))
    (b : Matrix ι κ ℝ) (d : Matrix ι δ ℝ) (omega : Itv (δ → ℝ)) (u : κ → ℝ) (k : Matrix κ ι ℝ) (center : ι → ℝ)
    (xi : Option (Itv (ι → ℝ)) := none) : LPV ι κ δ :=
  let a0 := a0 + b * k
  let c := frame eig a0
  let xi := xi.getD (x0, x0)
  { a0 := toFrame c a0
    da := da.map (toFrame c)
    b := match c with | none => b | some (_, ti) => ti * b
    d := d, omega := omega, u := u, k := k, center := center, coordinates := c, xt := x0
    xit := (stateToFrame c center xi.1, stateToFrame c center xi.2) }

/-- `set_control` — interval.py:225-228. -/
def setControl (s : LPV ι κ δ) (control : κ → ℝ) (state : Option (ι → ℝ)) : LPV ι κ δ :=
  match state with
  | none => { s with u := control }
  | some x => { s with u := control - s.k *ᵥ x }

/-- `change_coordinates(x_i, interval=True)` — interval.py:246-255, backward and forward. -/
def intervalBack (s : LPV ι κ δ) (xi : Itv (ι → ℝ)) : Itv (ι → ℝ) :=
  match s.coordinates with
  | none => xi
  | some (t, _) => let v := Itv.scaling (α := ι → ι → ℝ) (fun (m : Matrix ι ι ℝ) x => m *ᵥ x) t xi; (v.1 + s.center, v.2 + s.center)

def intervalForth (s : LPV ι κ δ) (xi : Itv (ι → ℝ)) : Itv (ι → ℝ) :=
  match s.coordinates with
  | none => xi
  | some (_, ti) => Itv.scaling (α := ι → ι → ℝ) (fun (m : Matrix ι ι ℝ) x => m *ᵥ x) ti (xi.1 - s.center, xi.2 - s.center)

/-- Entrywise positive and negative parts of a matrix. -/
def mp {m n : Type*} (a : Matrix m n ℝ) : Matrix m n ℝ := a.map fun x => max x 0
def mn {m n : Type*} (a : Matrix m n ℝ) : Matrix m n ℝ := a.map fun x => max (-x) 0

/-- `step_naive_predictor` — interval.py:283-295, for a non-empty list of deviations. -/
def naive (s : LPV ι κ δ) (x : Itv (ι → ℝ)) (dt : ℝ) : Itv (ι → ℝ) :=
  let da : List (Itv (ι → ι → ℝ)) := s.da.map fun m => Itv.product (β := ι → ι → ℝ) (fun (c : ℝ) m => c • m) ((0 : ℝ), (1 : ℝ)) (m, m)
  let a0 : ι → ι → ℝ := s.a0
  let a : Itv (ι → ι → ℝ) := (a0 + (da.map Prod.fst).sum, a0 + (da.map Prod.snd).sum)
  let bu := s.b *ᵥ s.u
  let ax := Itv.product (α := ι → ι → ℝ) (fun (m : Matrix ι ι ℝ) x => m *ᵥ x) a x
  let dw := Itv.product (α := ι → δ → ℝ) (fun (m : Matrix ι δ ℝ) x => m *ᵥ x) (s.d, s.d) s.omega
  (x.1 + dt • (ax.1 + dw.1 + bu), x.2 + dt • (ax.2 + dw.2 + bu))

/-- `step_interval_predictor` — interval.py:297-313, for a non-empty list of deviations. -/
def predictor (s : LPV ι κ δ) (x : Itv (ι → ℝ)) (dt : ℝ) : Itv (ι → ℝ) :=
  let dap := (s.da.map mp).sum
  let dan := (s.da.map mn).sum
  let lo := s.a0 *ᵥ x.1 - dap *ᵥ (Itv.n x.1) - dan *ᵥ (Itv.p x.2) + mp s.d *ᵥ s.omega.1 - mn s.d *ᵥ s.omega.2 + s.b *ᵥ s.u
  let hi := s.a0 *ᵥ x.2 + dap *ᵥ (Itv.p x.2) + dan *ᵥ (Itv.n x.1) + mp s.d *ᵥ s.omega.2 - mn s.d *ᵥ s.omega.1 + s.b *ᵥ s.u
  (x.1 + dt • lo, x.2 + dt • hi)

/-- `step` — interval.py:274-281.  Without any deviation, `0 @ array` raises `ValueError` in the interval predictor; the naive predictor
would take rows of `a0` for its bounds, which is not modelled and treated as an error too. -/
def step (s : LPV ι κ δ) (dt : ℝ) : Py (LPV ι κ δ) :=
  if s.da = [] then .error .valueError
  else .ok { s with
    xit := if isMetzler s.a0 then s.predictor s.xit dt else s.naive s.xit dt
    xt := s.xt + dt • (s.a0 *ᵥ s.xt + s.b *ᵥ s.u) }

end LPV

end HighwayEnv
