import Verif.Model.Drawing

/-!
# Vocabulary for the drawing properties
-/

noncomputable section
open Classical
namespace HighwayEnv.Spec
open HighwayEnv

/-- The exact (unrounded) position of a world point in the surface, in pixels. -/
def exactPixel (c : Camera) (p : Vec2) : Vec2 := ⟨(p.x - c.origin.x) * c.scaling, (p.y - c.origin.y) * c.scaling⟩

/-- The point is inside the displayed frame. -/
def InFrame (c : Camera) (p : Vec2) : Prop :=
  0 ≤ (exactPixel c p).x ∧ (exactPixel c p).x ≤ c.width ∧ 0 ≤ (exactPixel c p).y ∧ (exactPixel c p).y ≤ c.height

/-- The point `q` belongs to the body of a vehicle at `p` with heading `h`: a rectangle of 5 m by 2 m. -/
def OnBody (p : Vec2) (h : ℝ) (q : Vec2) : Prop :=
  ∃ a b : ℝ, |a| ≤ 5 / 2 ∧ |b| ≤ 1 ∧ q = ⟨p.x + a * Real.cos h - b * Real.sin h, p.y + a * Real.sin h + b * Real.cos h⟩

/-- A piece of line reaches the longitudinal position `s`. -/
def Covers (p : Piece) (s : ℝ) : Prop := p.start ≤ s ∧ s ≤ p.stop

/-- The lane is a straight or a sine lane between two distinct points. -/
def Rectilinear (l : Lane) : Prop :=
  ∃ a b : Vec2, a ≠ b ∧ (l.shape = .straight a b ∨ ∃ amp w ph, l.shape = .sine a b amp w ph)

/-- The diagonal of the frame plus 7.5 m fit in the sum of its sides. -/
def WideView (c : Camera) : Prop := √((c.width : ℝ) ^ 2 + (c.height : ℝ) ^ 2) + 15 / 2 * c.scaling ≤ c.width + c.height

/-- The camera after a sequence of events. -/
def cameraAfter (c : Camera) (evs : List UiEvent) : Camera := evs.foldl Camera.handleEvent c

end HighwayEnv.Spec
