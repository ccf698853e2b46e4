import Verif.Model.Rendering

/-!
# Vocabulary for the rendering and keyboard properties
-/

noncomputable section
open Classical
namespace HighwayEnv.Spec
open HighwayEnv

/-- What the user of an environment object does with it: `render(mode)`, `step(action)`, `reset()` (with the scene it makes), `close()`. -/
inductive Op where
  | render (m : RenderMode)
  | step (a : Option AgentAction)
  | reset (scene : Env)
  | close

/-- A program using the environment, up to its first exception: the final object and what its steps returned. -/
def driven (G : Globals) (c : SimConfig) (u : UiConfig) (cls : EnvClass) : List Op → Renv → Py (Renv × List StepResult)
  | [], s => .ok (s, [])
  | .render m :: ops, s => match s.render G c u m with
    | (_, .error e) => .error e
    | (s, .ok _) => driven G c u cls ops s
  | .step a :: ops, s => match s.step G c u cls a with
    | (_, .error e) => .error e
    | (s, .ok r) => (driven G c u cls ops s).map fun p => (p.1, r.result :: p.2)
  | .reset scene :: ops, s => match s.reset G c u scene with
    | (_, .error e) => .error e
    | (s, .ok _) => driven G c u cls ops s
  | .close :: ops, s => driven G c u cls ops s.close

/-- The same program on an environment that cannot be rendered. -/
def bare (G : Globals) (c : SimConfig) (cls : EnvClass) : List Op → Env → Py (Env × List StepResult)
  | [], e => .ok (e, [])
  | .render _ :: ops, e => bare G c cls ops e
  | .step a :: ops, e => match e.step G c cls a with
    | .error err => .error err
    | .ok (e, r) => (bare G c cls ops e).map fun p => (p.1, r :: p.2)
  | .reset scene :: ops, _ => bare G c cls ops { scene with time := 0, steps := 0, done := false }
  | .close :: ops, e => bare G c cls ops { e with done := true }

/-- The object after one operation, whether it returned or raised. -/
def perform (G : Globals) (c : SimConfig) (u : UiConfig) (cls : EnvClass) (s : Renv) : Op → Renv
  | .render m => (s.render G c u m).1
  | .step a => (s.step G c u cls a).1
  | .reset scene => (s.reset G c u scene).1
  | .close => s.close

/-- The object after a sequence of operations, each of which may return or raise. -/
def session (G : Globals) (c : SimConfig) (u : UiConfig) (cls : EnvClass) (ops : List Op) (s : Renv) : Renv :=
  ops.foldl (perform G c u cls) s

/-- The usual interaction loop: render, then step and render again, over and over. -/
def stepAndRender (m : RenderMode) (as : List (Option AgentAction)) : List Op := as.flatMap fun a => [.step a, .render m]

/-- The program never asks for the window mode. -/
def OnlyImages (ops : List Op) : Prop := ∀ op ∈ ops, op ≠ .render .human

/-- Nobody touches the keyboard or closes the window: all the event queues read will be empty. -/
def Untouched (s : Renv) : Prop := ∀ evs ∈ s.inbox, evs = []

/-- Nothing interferes with the rendering: nobody touches the keyboard, or everything is rendered off screen. -/
def Calm (u : UiConfig) (s : Renv) : Prop :=
  Untouched s ∨ (u.offscreen = true ∧ ∀ v, s.viewer = some v → v.offscreen = true)

/-- Where the camera looks: at the first controlled vehicle, or at the origin if there is none on the road. -/
def lookedAt (e : Env) : Vec2 :=
  match e.controlled with
  | [] => ⟨0, 0⟩
  | uid :: _ => match e.road.vehicles.find? (fun v => v.uid = uid) with
    | none => ⟨0, 0⟩
    | some v => v.pos

/-- A surface shows the scene `e`: it was drawn from it, with the camera placed on the ego-vehicle. -/
def Depicts (p : Option Picture) (e : Env) : Prop :=
  ∃ q cam, p = some q ∧ q.env = e ∧ q.camera = Camera.moveTo cam (lookedAt e)

/-- What the window — or, off screen, the surface — of the environment shows. -/
def shown (s : Renv) : Option Picture :=
  match s.viewer with
  | none => none
  | some v => if v.offscreen then v.surface else v.screen

/-- The value a sequence of key events leaves on an axis: `plus` and `minus` are the two keys of the axis. -/
def axis (plus minus : Key) (x : ℝ) : List UiEvent → ℝ
  | [] => x
  | .keyDown k :: evs => axis plus minus (if k = plus then 0.7 else if k = minus then -0.7 else x) evs
  | .keyUp k :: evs => axis plus minus (if k = plus ∨ k = minus then 0 else x) evs
  | _ :: evs => axis plus minus x evs

end HighwayEnv.Spec

namespace HighwayEnv.Spec
open HighwayEnv

/-- What a key means for an agent with discrete meta-actions: right and left arrows change the speed, up and down arrows change lane. -/
def keyMeaning : UiEvent → Option VAction
  | .keyDown .right => some .faster
  | .keyDown .left => some .slower
  | .keyDown .up => some .laneLeft
  | .keyDown .down => some .laneRight
  | _ => none

/-- The meta-actions the agent has: speed changes on the longitudinal axis, lane changes on the lateral one. -/
def hasAction (longitudinal lateral : Bool) : VAction → Bool
  | .faster | .slower => longitudinal
  | .laneLeft | .laneRight => lateral
  | _ => true

/-- The array of a continuous agent with throttle `x` and steering `y`: `[x, y]`, or the only axis it controls. -/
def pedals (c : ContinuousConfig) (x y : ℝ) : List ℝ :=
  if c.longitudinal && c.lateral then [x, y] else if c.longitudinal then [x] else [y]

/-- The position `x` in `[-1, 1]` carried linearly to the range `r`. -/
def within (r : ℝ × ℝ) (x : ℝ) : ℝ := r.1 + (x + 1) / 2 * (r.2 - r.1)

end HighwayEnv.Spec
