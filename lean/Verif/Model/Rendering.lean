import Verif.Model.Env
import Verif.Model.Camera

/-!
# Model of the rendering and keyboard parts of `highway_env/envs/common/abstract.py` and `highway_env/envs/common/graphics.py`

What a picture looks like is left out: a picture is the scene and the camera it was drawn from.  Every operation returns the new state of
the environment object *and* what it returned or raised, because the object survives an exception.
-/

noncomputable section
open Classical

namespace HighwayEnv

/-- `metadata['render.modes']` — abstract.py:33. -/
inductive RenderMode where
  | human | rgb
  deriving DecidableEq

/-- What is on a pygame surface once `EnvViewer.display` has drawn on it: the scene drawn, and the camera. -/
structure Picture where
  env : Env
  camera : Camera

/-- `EnvViewer` — common/graphics.py:22-48: `surface` is `sim_surface`, `screen` the window; `none` is a surface nothing was drawn on.
The agent's own surface and trajectory are left out. -/
structure Viewer where
  offscreen : Bool
  enabled : Bool
  camera : Camera
  surface : Option Picture := none
  screen : Option Picture := none

/-- The configuration of the rendering — abstract.py:97-106 — and of the machine (`dummyDriver`: `SDL_VIDEODRIVER=dummy`,
common/graphics.py:45-46).  `imageObs`: the observation type is `GrayscaleObservation`, whose `observe` renders. -/
structure UiConfig where
  offscreen : Bool := false
  dummyDriver : Bool := false
  renderAgent : Bool := true
  scaling : ℝ := 5.5
  width : ℕ := 600
  height : ℕ := 150
  imageObs : Bool := false

/-- An environment object with its rendering attributes — abstract.py:64-69.  `lastAction` is `action_type.last_action` of a
`ContinuousAction`; `centering` is the list `config["centering_position"]`, shared with the surface and changed in place by it;
`callback` is the `automatic_rendering_callback`, taken to be a call of `render` in some mode (as the gym monitor does); `inbox` is what
the successive calls of `pygame.event.get()` will return. -/
structure Renv where
  env : Env
  viewer : Option Viewer := none
  callback : Option RenderMode := none
  shouldUpdate : Bool := true
  mode : RenderMode := .human
  auto : Bool := false
  lastAction : List ℝ := []
  centering : ℝ × ℝ := (0.3, 0.5)
  inbox : List (List UiEvent) := []

namespace Renv

/-! ## Keyboard -/

/-- `action_type.actions_indexes[name]` under a condition. -/
def keyIndex (lo la : Bool) (b : Bool) (a : VAction) : Py (Option Int) :=
  if b then (Dict.getItem (AgentType.actionsIndexes lo la) a).map some else .ok none

/-- `handle_discrete_action_event` — common/graphics.py:168-178: the index of the action executed, if any. -/
def discreteEvent (lo la : Bool) (ev : UiEvent) : Py (Option Int) :=
  match ev with
  | .keyDown .right => keyIndex lo la lo .faster
  | .keyDown .left => keyIndex lo la lo .slower
  | .keyDown .down => keyIndex lo la la .laneRight
  | .keyDown .up => keyIndex lo la true .laneLeft
  | _ => .ok none

/-- `action[i] = x` on an array, when `b`. -/
def setEntry (b : Bool) (i : ℕ) (x : ℝ) (xs : List ℝ) : Py (List ℝ) :=
  if b then (if i < xs.length then .ok (xs.set i x) else .error .indexError) else .ok xs

/-- `handle_continuous_action_event` — common/graphics.py:180-203: the array sent. -/
def continuousEvent (c : ContinuousConfig) (last : List ℝ) (ev : UiEvent) : Py (List ℝ) :=
  let steering := AgentType.spaceSize (.continuous c) - 1
  match ev with
  | .keyDown .right => setEntry c.lateral steering 0.7 last
  | .keyDown .left => setEntry c.lateral steering (-0.7) last
  | .keyDown .down => setEntry c.longitudinal 0 (-0.7) last
  | .keyDown .up => setEntry c.longitudinal 0 0.7 last
  | .keyUp .right => setEntry c.lateral steering 0 last
  | .keyUp .left => setEntry c.lateral steering 0 last
  | .keyUp .down => setEntry c.longitudinal 0 0 last
  | .keyUp .up => setEntry c.longitudinal 0 0 last
  | _ => .ok last

/-- `EventHandler.handle_event` — common/graphics.py:155-166: multi-agent action types ignore the keyboard. -/
def keyboard (G : Globals) (c : SimConfig) (s : Renv) (ev : UiEvent) : Py Renv :=
  match c.action with
  | .single (.discrete lo la) => do
    match ← discreteEvent lo la ev with
    | none => return s
    | some i => do
      let r ← s.env.road.envAct G c.action s.env.controlled (.index i)
      return { s with env := { s.env with road := r } }
  | .single (.continuous cc) => do
    let xs ← continuousEvent cc s.lastAction ev
    let r ← s.env.road.envAct G c.action s.env.controlled (.vector xs)
    return { s with env := { s.env with road := r }, lastAction := AgentType.clipVector cc xs }
  | .multi _ => .ok s

/-! ## Viewer -/

/-- `close` — abstract.py:256-265. -/
def close (s : Renv) : Renv := { s with env := s.env.close, viewer := none }

/-- `sim_surface.handle_event(event)`: the surface of a viewer that was just closed still changes the shared list. -/
def moveCamera (s : Renv) (ev : UiEvent) : Renv :=
  { s with centering := (Camera.handleEvent { centering := s.centering } ev).centering
           viewer := s.viewer.map fun v => { v with camera := v.camera.handleEvent ev } }

/-- One event of `handle_events` — common/graphics.py:85-90. -/
def handleEvent (G : Globals) (c : SimConfig) (s : Renv) (ev : UiEvent) : Renv × Py Unit :=
  let s := if ev = .quit then s.close else s
  let s := s.moveCamera ev
  match s.keyboard G c ev with
  | .error e => (s, .error e)
  | .ok s => (s, .ok ())

/-- The loop of `handle_events`; an exception loses the rest of the events. -/
def handleLoop (G : Globals) (c : SimConfig) : Renv → List UiEvent → Renv × Py Unit
  | s, [] => (s, .ok ())
  | s, ev :: evs => match s.handleEvent G c ev with
    | (s, .error e) => (s, .error e)
    | (s, .ok ()) => handleLoop G c s evs

/-- `handle_events` — common/graphics.py:83-90. -/
def handleEvents (G : Globals) (c : SimConfig) (s : Renv) : Renv × Py Unit :=
  handleLoop G c { s with inbox := s.inbox.tail } (s.inbox.head?.getD [])

/-- `EnvViewer(env)` — common/graphics.py:22-48. -/
def newViewer (u : UiConfig) (centering : ℝ × ℝ) : Viewer where
  offscreen := u.offscreen
  enabled := !u.dummyDriver
  camera := { scaling := u.scaling, centering := centering, width := u.width, height := u.height }

/-- `if self.viewer is None: self.viewer = EnvViewer(self)` — abstract.py:240-241. -/
def ensureViewer (u : UiConfig) (s : Renv) : Renv :=
  match s.viewer with
  | some _ => s
  | none => { s with viewer := some (newViewer u s.centering) }

/-- `window_position` — common/graphics.py:142-147. -/
def windowPosition (e : Env) : Vec2 :=
  match e.vehicle with
  | .ok v => v.pos
  | .error _ => 0

/-- `display` of a viewer — common/graphics.py:92-134: the surface is entirely redrawn, and copied to the window if there is one. -/
def displayOn (e : Env) (v : Viewer) : Viewer :=
  if v.enabled = false then v
  else
    let cam := v.camera.moveTo (windowPosition e)
    { v with camera := cam, surface := some ⟨e, cam⟩, screen := if v.offscreen then v.screen else some ⟨e, cam⟩ }

/-- `if self.should_update_rendering: self.viewer.display()` — abstract.py:246-247. -/
def refresh (s : Renv) : Renv := if s.shouldUpdate then { s with viewer := s.viewer.map (displayOn s.env) } else s

/-- `get_image` — common/graphics.py:136-140 (the attribute of a viewer `None` raises `AttributeError`). -/
def getImage (u : UiConfig) (s : Renv) : Py (Option Picture) :=
  match s.viewer with
  | none => .error .attributeError
  | some v => .ok (if u.renderAgent && !v.offscreen then v.screen else v.surface)

/-- `if not self.viewer.offscreen: self.viewer.handle_events()` — abstract.py:249-250. -/
def readEvents (G : Globals) (c : SimConfig) (s : Renv) : Renv × Py Unit :=
  match s.viewer with
  | none => (s, .ok ())
  | some v => if v.offscreen then (s, .ok ()) else s.handleEvents G c

/-- The first part of `render`, up to the drawing — abstract.py:238-247. -/
def prepare (u : UiConfig) (m : RenderMode) (s : Renv) : Renv :=
  refresh { ensureViewer u { s with mode := m } with auto := true }

/-- The last part of `render` — abstract.py:251-254. -/
def deliver (u : UiConfig) (m : RenderMode) (s : Renv) : Renv × Py (Option (Option Picture)) :=
  match m with
  | .rgb => (s, (s.getImage u).map some)
  | .human => ({ s with shouldUpdate := false }, .ok none)

/-- `render` — abstract.py:231-254: nothing in mode `human`, an image in mode `rgb_array`. -/
def render (G : Globals) (c : SimConfig) (u : UiConfig) (m : RenderMode) (s : Renv) : Renv × Py (Option (Option Picture)) :=
  match (s.prepare u m).readEvents G c with
  | (s, .error e) => (s, .error e)
  | (s, .ok ()) => s.deliver u m

/-- `_automatic_rendering` — abstract.py:294-309. -/
def autoRender (G : Globals) (c : SimConfig) (u : UiConfig) (s : Renv) : Renv × Py Unit :=
  if s.viewer.isSome && s.auto then
    match render G c u (s.callback.getD s.mode) { s with shouldUpdate := true } with
    | (s, .error e) => (s, .error e)
    | (s, .ok _) => (s, .ok ())
  else (s, .ok ())

/-! ## Simulation with rendering -/

/-- `last_action` after the action has been forwarded — abstract.py:213-216, action.py:117-134. -/
def forwardLast (c : SimConfig) (k : Int) (a : Option AgentAction) (s : Renv) : List ℝ :=
  match c.action, a with
  | .single (.continuous cc), some (.vector xs) =>
    if c.manualControl = false ∧ (s.env.time : Int) % k = 0 then AgentType.clipVector cc xs else s.lastAction
  | _, _ => s.lastAction

/-- The loop of `_simulate` with `n` iterations left — abstract.py:211-228.  An exception raised while driving leaves the object in the state
it had before the frame (simplification: Python may have moved some of the vehicles). -/
def simulateLoop (G : Globals) (c : SimConfig) (u : UiConfig) (cls : EnvClass) (k : Int) (a : Option AgentAction) :
    ℕ → Renv → Renv × Py Unit
  | 0, s => (s, .ok ())
  | n + 1, s => match s.env.frame G c k a with
    | .error e => (s, .error e)
    | .ok e => match autoRender G c u { s with env := e, lastAction := s.forwardLast c k a } with
      | (s, .error e) => (s, .error e)
      | (s, .ok ()) => match s.env.stops cls with
        | .error e => (s, .error e)
        | .ok b => if b then (s, .ok ()) else simulateLoop G c u cls k a n s

/-- `_simulate` — abstract.py:209-229. -/
def simulate (G : Globals) (c : SimConfig) (u : UiConfig) (cls : EnvClass) (a : Option AgentAction) (s : Renv) : Renv × Py Unit :=
  match Env.framesPerStep c with
  | .error e => (s, .error e)
  | .ok k => match simulateLoop G c u cls k a k.toNat s with
    | (s, .error e) => (s, .error e)
    | (s, .ok ()) => ({ s with auto := false }, .ok ())

/-- `observation_type.observe()`: `GrayscaleObservation` renders — observation.py:68-78; the others do not change the object and are
modelled elsewhere. -/
def observe (G : Globals) (c : SimConfig) (u : UiConfig) (s : Renv) : Renv × Py (Option (Option Picture)) :=
  if u.imageObs then render G c u .rgb s else (s, .ok none)

/-- What `step` returns. -/
structure Answer where
  image : Option (Option Picture)
  result : StepResult

/-- The part of `step` after the observation — abstract.py:191-207 (and the additions of the class). -/
def conclude (cls : EnvClass) (a : Option AgentAction) (img : Option (Option Picture)) (s : Renv) : Renv × Py Answer :=
  match (do
      let reward ← cls.reward s.env a
      let terminal ← cls.terminal s.env
      let v ← s.env.vehicle
      let cost ← Env.tryCost cls s.env
      let e ← cls.after s.env
      return (e, ({ reward := reward, terminal := terminal, speed := v.speed, crashed := v.crashed, cost := cost } : StepResult)) :
      Py (Env × StepResult)) with
  | .error e => (s, .error e)
  | .ok (e, r) => ({ s with env := e }, .ok ⟨img, r⟩)

/-- `step` — abstract.py:177-207. -/
def step (G : Globals) (c : SimConfig) (u : UiConfig) (cls : EnvClass) (a : Option AgentAction) (s : Renv) : Renv × Py Answer :=
  if s.env.controlled = [] then (s, .error .notImplementedError)
  else match simulate G c u cls a { s with env := { s.env with steps := s.env.steps + 1 } } with
    | (s, .error e) => (s, .error e)
    | (s, .ok ()) => match s.observe G c u with
      | (s, .error e) => (s, .error e)
      | (s, .ok img) => s.conclude cls a img

/-- `last_action` of a new action type — action.py:106. -/
def initialAction (c : SimConfig) : List ℝ :=
  match c.action with
  | .single (.continuous cc) => List.replicate (AgentType.spaceSize (.continuous cc)) 0
  | _ => []

/-- `reset` — abstract.py:156-167, `scene` being the scene made by the `_reset` of the class (modelled in the environments): the clock and
the flag `done` are set back, the action type is new, the rendering attributes are not touched. -/
def reset (G : Globals) (c : SimConfig) (u : UiConfig) (scene : Env) (s : Renv) : Renv × Py (Option (Option Picture)) :=
  observe G c u { s with env := { scene with time := 0, steps := 0, done := false }, lastAction := initialAction c }

/-- `__init__` — abstract.py:38-71. -/
def create (G : Globals) (c : SimConfig) (u : UiConfig) (scene : Env) (inbox : List (List UiEvent)) : Renv × Py (Option (Option Picture)) :=
  reset G c u scene { env := scene, inbox := inbox }

/-- `__deepcopy__` — abstract.py:385-396: the viewer and the callback are dropped. -/
def copy (s : Renv) : Renv := { s with viewer := none, callback := none }

end Renv
end HighwayEnv
