import Verif.Model.Spaces

/-!
# Model of the configuration of environments: `configure`, `define_spaces` (abstract.py) and the factories of observation and action types

Configuration dictionaries of observation and action types are records of optional entries: an entry left out is `none`.  Entries of a type
other than the documented one are not modelled.
-/

noncomputable section
open Classical

namespace HighwayEnv

/-- `d.update(u)` on dictionaries. -/
def Dict.update {κ α : Type} [DecidableEq κ] (d u : Dict κ α) : Dict κ α := u.foldl (fun d kv => Dict.setItem d kv.1 kv.2) d

/-- `configure(config)` — abstract.py:116-118; the constructor does the same on the default configuration — abstract.py:40-42.  (`None` and
`{}` do nothing.) -/
def configure {α : Type} (current : Dict String α) (config : Option (Dict String α)) : Dict String α :=
  match config with
  | none => current
  | some [] => current
  | some u => Dict.update current u

/-- The entries of `config["observation"]` other than a nested configuration. -/
structure ObsParams where
  type : Option String := none
  horizon : Option ℝ := none
  features : Option (List String) := none
  vehiclesCount : Option Int := none
  featuresRange : Option (Dict String (ℝ × ℝ)) := none
  absolute : Option Bool := none
  order : Option String := none
  normalize : Option Bool := none
  clip : Option Bool := none
  seeBehind : Option Bool := none
  observeIntentions : Option Bool := none
  gridSize : Option ((ℝ × ℝ) × (ℝ × ℝ)) := none
  gridStep : Option (ℝ × ℝ) := none
  scales : Option (List ℝ) := none
  weights : Option (ℝ × ℝ × ℝ) := none
  stackSize : Option ℕ := none
  observationShape : Option (ℕ × ℕ) := none
  attributes : Option (List String) := none

/-- `config["observation"]`, possibly with an entry `observation_config`. -/
inductive ObsDict where
  | flat (p : ObsParams)
  | nested (p : ObsParams) (inner : ObsDict)

/-- The entries of `config["action"]` other than a nested configuration. -/
structure ActParams where
  type : Option String := none
  accelerationRange : Option (ℝ × ℝ) := none
  steeringRange : Option (ℝ × ℝ) := none
  longitudinal : Option Bool := none
  lateral : Option Bool := none
  dynamical : Option Bool := none
  clip : Option Bool := none

/-- `config["action"]`, possibly with an entry `action_config` (simplification: not itself multi-agent). -/
structure ActDict where
  outer : ActParams
  inner : Option ActParams := none

namespace Factory

/-- A missing required argument raises `TypeError`. -/
def required {α : Type} (o : Option α) : Py α :=
  match o with
  | some a => .ok a
  | none => .error .typeError

/-- A missing key raises `KeyError`. -/
def keyed {α : Type} (o : Option α) : Py α :=
  match o with
  | some a => .ok a
  | none => .error .keyError

/-- `KinematicObservation.__init__` — observation.py:128-162. -/
def kinematics (p : ObsParams) : KinematicsConfig :=
  Kinematics.init {
    features := p.features.getD []
    vehiclesCount := p.vehiclesCount.getD 5
    featuresRange := p.featuresRange
    absolute := p.absolute.getD false
    shuffled := p.order == some "shuffled"
    normalize := p.normalize.getD true
    clip := p.clip.getD true
    seeBehind := p.seeBehind.getD false
    observeIntentions := p.observeIntentions.getD false }

/-- `OccupancyGridObservation.__init__` — observation.py:225-250. -/
def occupancy (p : ObsParams) : Py Occupancy :=
  Occupancy.init {
    features := p.features.getD ["presence", "vx", "vy"]
    gridSize := p.gridSize.getD ((-27.5, 27.5), (-27.5, 27.5))
    gridStep := p.gridStep
    featuresRange := p.featuresRange
    absolute := p.absolute.getD false }

/-- `GrayscaleObservation.__init__` — observation.py:62-67: a stack of black planes. -/
def image (p : ObsParams) : Py ObsType := do
  let shape ← keyed p.observationShape
  let n ← keyed p.stackSize
  return .image p.weights shape.1 shape.2 (List.replicate n (List.replicate (shape.1 * shape.2) 0))

/-- `obs_type.observer_vehicle = vehicle` — observation.py:37-39, 366. -/
def bind (uid : ℕ) : ObsType → ObsType
  | .ttc h _ => .ttc h (some uid)
  | .kinematics c _ => .kinematics c (some uid)
  | .occupancy o _ => .occupancy o (some uid)
  | .goal f s _ => .goal f s (some uid)
  | o => o

/-- `observation_factory` for the types of a single agent — observation.py:376-389. -/
def singleObserver (p : ObsParams) (t : String) : Py ObsType :=
  if t = "TimeToCollision" then .ok (.ttc (p.horizon.getD 10) none)
  else if t = "Kinematics" then .ok (.kinematics (kinematics p) none)
  else if t = "OccupancyGrid" then (occupancy p).map fun o => .occupancy o none
  else if t = "KinematicsGoal" then (required p.scales).map fun s => .goal (kinematics p).features s none
  else if t = "GrayscaleObservation" then image p
  else if t = "AttributesObservation" then (required p.attributes).map .attributes
  else .error .valueError

/-- `observation_factory(env, config)` — observation.py:376-392, and `MultiAgentObservation.__init__` — 359-367: one observer per controlled
vehicle, bound to it. -/
def observer (controlled : List ℕ) : ObsDict → Py ObsType
  | .flat p => do
    let t ← keyed p.type
    if t = "MultiAgentObservation" then .error .typeError else singleObserver p t
  | .nested p inner => do
    let t ← keyed p.type
    if t = "MultiAgentObservation" then do
      let l ← controlled.mapM fun uid => (observer controlled inner).map (bind uid)
      return .multi l
    else singleObserver p t

/-- `action_factory` for the types of a single agent — action.py:226-231, with the constructors 77-106, 165-187. -/
def singleAction (p : ActParams) (t : String) : Py AgentType :=
  if t = "ContinuousAction" then
    AgentType.init (.continuous {
      accelerationRange := p.accelerationRange.getD (-5, 5)
      steeringRange := p.steeringRange.getD (-Real.pi / 4, Real.pi / 4)
      longitudinal := p.longitudinal.getD true
      lateral := p.lateral.getD true
      dynamical := p.dynamical.getD false
      clip := p.clip.getD true })
  else if t = "DiscreteMetaAction" then AgentType.init (.discrete (p.longitudinal.getD true) (p.lateral.getD true))
  else .error .valueError

/-- The type of each agent of a multi-agent action type: with no vehicle to control, the inner configuration is not even read. -/
def agentTypes (controlled : List ℕ) (p : ActParams) : Py (List AgentType) :=
  controlled.mapM fun _ => do
    let t ← keyed p.type
    singleAction p t

/-- An action type as built: one agent, or the agents of the controlled vehicles. -/
inductive Built where
  | single (t : AgentType)
  | multi (l : List AgentType)

/-- `action_factory(env, config)` — action.py:226-234, 200-211. -/
def action (controlled : List ℕ) (d : ActDict) : Py Built := do
  let t ← keyed d.outer.type
  if t = "MultiAgentAction" then do
    let p ← required d.inner
    let l ← agentTypes controlled p
    return .multi l
  else (singleAction d.outer t).map .single

/-- `action_type.space()` — action.py:108-110, 189-190, 213-214. -/
def Built.space : Built → Space
  | .single t => t.space
  | .multi l => .tuple (l.map AgentType.space)

/-- What `define_spaces` sets — abstract.py:120-127. -/
structure Spaces where
  observer : ObsType
  action : Built
  observationSpace : Space
  actionSpace : Space

/-- `define_spaces` — abstract.py:120-127. -/
def defineSpaces (G : Globals) (od : ObsDict) (ad : ActDict) (s : Scene) : Py Spaces := do
  let o ← observer s.controlled od
  let a ← action s.controlled ad
  let os ← o.space G s
  return ⟨o, a, os, a.space⟩

/-- `reset` — abstract.py:156-167: the spaces are defined on the old scene, then on the new one, which is then observed.  `make` is the
`_reset` of the environment, which is given the action type (for the class of the controlled vehicles). -/
def reset (G : Globals) (od : ObsDict) (ad : ActDict) (make : Built → Py Scene) (old : Scene) : Py (Obs × Spaces × Scene) := do
  let first ← defineSpaces G od ad old
  let s ← make first.action
  let sp ← defineSpaces G od ad s
  let (x, o, s) ← sp.observer.observe G s
  return (x, { sp with observer := o }, s)

end Factory
end HighwayEnv
