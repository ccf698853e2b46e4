import Verif.Model.Py

/-!
# Model of the display surface of `highway_env/road/graphics.py` and of the keyboard events read by the viewer
-/

noncomputable section
open Classical

namespace HighwayEnv

/-- The keys the code distinguishes — common/graphics.py:168-203, road/graphics.py:92-100. -/
inductive Key where
  | right | left | up | down | l | o | m | k | other
  deriving DecidableEq

/-- The pygame events the code distinguishes (`QUIT`, `KEYDOWN`, `KEYUP`); all others (mouse, focus, …) are `other`. -/
inductive UiEvent where
  | quit
  | keyDown (k : Key)
  | keyUp (k : Key)
  | other
  deriving DecidableEq

/-- The state of a `WorldSurface` that decides where things are drawn — road/graphics.py:32-36, and the size of the surface. -/
structure Camera where
  origin : Vec2 := 0
  scaling : ℝ := 5.5
  centering : ℝ × ℝ := (0.5, 0.5)
  width : ℕ := 600
  height : ℕ := 150

namespace Camera

/-- `pix` — road/graphics.py:38-45. -/
def pix (c : Camera) (length : ℝ) : Int := pyInt (length * c.scaling)

/-- `pos2pix` — road/graphics.py:47-55; `vec2pix` — 57-64. -/
def pos2pix (c : Camera) (p : Vec2) : Int × Int := (c.pix (p.x - c.origin.x), c.pix (p.y - c.origin.y))

/-- `is_visible` — road/graphics.py:66-74. -/
def isVisible (c : Camera) (p : Vec2) (margin : Int := 50) : Bool :=
  let (x, y) := c.pos2pix p
  decide (-margin < x) && decide (x < c.width + margin) && decide (-margin < y) && decide (y < c.height + margin)

/-- `move_display_window_to` — road/graphics.py:76-84 (a scaling of 0 raises `ZeroDivisionError` in Python; the model, where `x / 0 = 0`,
is only used for a non-zero scaling). -/
def moveTo (c : Camera) (p : Vec2) : Camera :=
  { c with origin := p - ⟨c.centering.1 * c.width / c.scaling, c.centering.2 * c.height / c.scaling⟩ }

/-- `handle_event` — road/graphics.py:86-97. -/
def handleEvent (c : Camera) (ev : UiEvent) : Camera :=
  match ev with
  | .keyDown .l => { c with scaling := c.scaling * (1 / 1.3) }
  | .keyDown .o => { c with scaling := c.scaling * 1.3 }
  | .keyDown .m => { c with centering := (c.centering.1 - 0.1, c.centering.2) }
  | .keyDown .k => { c with centering := (c.centering.1 + 0.1, c.centering.2) }
  | _ => c

end Camera
end HighwayEnv
