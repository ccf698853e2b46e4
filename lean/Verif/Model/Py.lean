import Mathlib.Analysis.SpecialFunctions.Trigonometric.Basic
import Mathlib.Analysis.SpecialFunctions.Trigonometric.Arctan
import Mathlib.Analysis.SpecialFunctions.Complex.Arg

/-!
# Python / numpy primitives used by the model

Python floats are modelled by exact reals, Python integers by `Int`/`Nat`.
Nothing in this file is specific to highway-env: it fixes the meaning of the builtins the code calls.
-/

noncomputable section
open Classical

namespace HighwayEnv

/-- The Python exceptions the modelled code can raise. -/
inductive PyErr where
  | keyError | indexError | typeError | valueError | attributeError
  | zeroDivisionError | notImplementedError | recursionError
  deriving DecidableEq, Repr

/-- A Python computation that returns a value or raises. -/
abbrev Py := Except PyErr

/-- 2-vectors: `np.ndarray` of shape (2,). -/
@[ext] structure Vec2 where
  x : ℝ
  y : ℝ

namespace Vec2
instance : Add Vec2 := ⟨fun a b => ⟨a.x + b.x, a.y + b.y⟩⟩
instance : Sub Vec2 := ⟨fun a b => ⟨a.x - b.x, a.y - b.y⟩⟩
instance : Neg Vec2 := ⟨fun a => ⟨-a.x, -a.y⟩⟩
instance : Zero Vec2 := ⟨⟨0, 0⟩⟩
instance : SMul ℝ Vec2 := ⟨fun k a => ⟨k * a.x, k * a.y⟩⟩
@[simp] theorem add_x (a b : Vec2) : (a + b).x = a.x + b.x := rfl
@[simp] theorem add_y (a b : Vec2) : (a + b).y = a.y + b.y := rfl
@[simp] theorem sub_x (a b : Vec2) : (a - b).x = a.x - b.x := rfl
@[simp] theorem sub_y (a b : Vec2) : (a - b).y = a.y - b.y := rfl
@[simp] theorem neg_x (a : Vec2) : (-a).x = -a.x := rfl
@[simp] theorem neg_y (a : Vec2) : (-a).y = -a.y := rfl
@[simp] theorem smul_x (k : ℝ) (a : Vec2) : (k • a).x = k * a.x := rfl
@[simp] theorem smul_y (k : ℝ) (a : Vec2) : (k • a).y = k * a.y := rfl
@[simp] theorem zero_x : (0 : Vec2).x = 0 := rfl
@[simp] theorem zero_y : (0 : Vec2).y = 0 := rfl

/-- `np.dot` of two 2-vectors. -/
def dot (a b : Vec2) : ℝ := a.x * b.x + a.y * b.y
/-- `np.linalg.norm` of a 2-vector. -/
def norm (a : Vec2) : ℝ := √(a.x ^ 2 + a.y ^ 2)
/-- `np.array([np.cos(h), np.sin(h)])`. -/
def dir (h : ℝ) : Vec2 := ⟨Real.cos h, Real.sin h⟩
/-- `np.array([[c, -s], [s, c]]).dot(v)` with `c, s = cos a, sin a`: the rotation by angle `a`. -/
def rot (a : ℝ) (v : Vec2) : Vec2 :=
  ⟨Real.cos a * v.x - Real.sin a * v.y, Real.sin a * v.x + Real.cos a * v.y⟩
end Vec2

/-- `np.clip(x, a, b)` for scalars: `min(max(x, a), b)`. -/
def npClip (x a b : ℝ) : ℝ := min (max x a) b

/-- `np.clip` on Python integers. -/
def npClipInt (x a b : Int) : Int := min (max x a) b

/-- Python's `%` on floats with a positive right operand: `x - y * floor(x / y)`. -/
def pyMod (x y : ℝ) : ℝ := x - y * (⌊x / y⌋ : ℝ)

/-- `int(x)` on a float: truncation toward zero. -/
def pyInt (x : ℝ) : Int := if 0 ≤ x then ⌊x⌋ else ⌈x⌉

/-- `np.round` (0 decimals): round half to even. -/
def npRound (x : ℝ) : Int :=
  if x - ⌊x⌋ < 1 / 2 then ⌊x⌋
  else if 1 / 2 < x - ⌊x⌋ then ⌊x⌋ + 1
  else if ⌊x⌋ % 2 = 0 then ⌊x⌋ else ⌊x⌋ + 1

/-- `np.arctan2(y, x)`: the argument of `x + i y` in `(-π, π]`, 0 at the origin. -/
def arctan2 (y x : ℝ) : ℝ := Complex.arg ⟨x, y⟩

/-- `min([a, b], key=abs)`: the first element of minimal absolute value. -/
def minAbs (a b : ℝ) : ℝ := if |b| < |a| then b else a

/-- Truthiness of a Python float (`bool(x)`): false exactly at 0. -/
def truthy (x : ℝ) : Bool := decide (x ≠ 0)

/-- Python list indexing `l[i]` with negative indices counted from the end. -/
def pyIndex {α : Type*} (l : List α) (i : Int) : Py α :=
  let j := if i < 0 then i + l.length else i
  if j < 0 then .error .indexError
  else match l[j.toNat]? with
    | some a => .ok a
    | none => .error .indexError

/-- `dict` as an insertion-ordered association list. -/
abbrev Dict (α β : Type*) := List (α × β)

/-- `d.get(k)`: the value stored under `k` (first match). -/
def Dict.get? {α β : Type*} [DecidableEq α] (d : Dict α β) (k : α) : Option β :=
  match d with
  | [] => none
  | (a, b) :: d => if a = k then some b else Dict.get? d k

/-- `d[k]`. -/
def Dict.getItem {α β : Type*} [DecidableEq α] (d : Dict α β) (k : α) : Py β :=
  match Dict.get? d k with
  | some b => .ok b
  | none => .error .keyError

/-- `list(d.keys())`. -/
def Dict.keys {α β : Type*} (d : Dict α β) : List α := d.map Prod.fst

/-- `d[k] = b`: replace in place if present, append otherwise. -/
def Dict.setItem {α β : Type*} [DecidableEq α] (d : Dict α β) (k : α) (b : β) : Dict α β :=
  match d with
  | [] => [(k, b)]
  | (a, c) :: d => if a = k then (a, b) :: d else (a, c) :: Dict.setItem d k b

end HighwayEnv
