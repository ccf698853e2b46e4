import Verif.Model.Step

/-!
# Model of `highway_env/envs/common/action.py`
-/

noncomputable section
open Classical

namespace HighwayEnv

/-- What an agent passes to `env.step`: an index, an array, or a tuple of actions (`Action`, action.py:13, and the tuples of
`MultiAgentAction`). -/
inductive AgentAction where
  | index (i : Int)
  | vector (xs : List ℝ)
  | tuple (as : List AgentAction)

/-- Configuration of a `ContinuousAction` — action.py:77-106. -/
structure ContinuousConfig where
  accelerationRange : ℝ × ℝ := (-5, 5)
  steeringRange : ℝ × ℝ := (-Real.pi / 4, Real.pi / 4)
  longitudinal : Bool := true
  lateral : Bool := true
  dynamical : Bool := false
  clip : Bool := true

/-- `ContinuousAction` or `DiscreteMetaAction` with its options. -/
inductive AgentType where
  | continuous (c : ContinuousConfig)
  | discrete (longitudinal lateral : Bool)

/-- The action type of an environment: one agent, or one agent per controlled vehicle (`MultiAgentAction`) — action.py:200-223. -/
inductive ActionType where
  | single (t : AgentType)
  | multi (t : AgentType)

namespace AgentType

/-- `ACTIONS_ALL`, `ACTIONS_LONGI`, `ACTIONS_LAT` — action.py:143-163; selection 180-186 (`None` when neither axis is on). -/
def actions (longitudinal lateral : Bool) : Option (Dict Int VAction) :=
  if longitudinal && lateral then
    some [(0, .laneLeft), (1, .idle), (2, .laneRight), (3, .faster), (4, .slower)]
  else if longitudinal then some [(0, .slower), (1, .idle), (2, .faster)]
  else if lateral then some [(0, .laneLeft), (1, .idle), (2, .laneRight)]
  else none

/-- The constructors raise `ValueError` when neither axis is controlled — action.py:102-103, 185-186. -/
def init (t : AgentType) : Py AgentType :=
  match t with
  | .continuous c => if !c.lateral && !c.longitudinal then .error .valueError else .ok t
  | .discrete lo la => match actions lo la with
    | none => .error .valueError
    | some _ => .ok t

/-- `actions_indexes = {v: k for k, v in self.actions.items()}` — action.py:187. -/
def actionsIndexes (longitudinal lateral : Bool) : Dict VAction Int :=
  (((actions longitudinal lateral).getD []).map fun kv => (kv.2, kv.1)).foldl (fun d kv => Dict.setItem d kv.1 kv.2) []

/-- Size of the action space: `Discrete(len(self.actions))`, or dimension of the `Box` — action.py:108-110, 189-190. -/
def spaceSize (t : AgentType) : ℕ :=
  match t with
  | .continuous c => if c.lateral && c.longitudinal then 2 else 1
  | .discrete lo la => ((actions lo la).getD []).length

/-- `vehicle_class` — action.py:112-114, 192-194. -/
def vehicleClass (t : AgentType) : VKind :=
  match t with
  | .continuous c => if !c.dynamical then .plain else .bicycle
  | .discrete _ _ => .mdp

/-- `np.clip(action, -1, 1)` when `clip` is set — action.py:117-118. -/
def clipVector (c : ContinuousConfig) (xs : List ℝ) : List ℝ := if c.clip then xs.map fun x => npClip x (-1) 1 else xs

/-- The dictionary sent to the vehicle by `ContinuousAction.act` — action.py:116-133. -/
def continuousCommand (c : ContinuousConfig) (xs : List ℝ) : Py VAction :=
  let xs := clipVector c xs
  if c.longitudinal && c.lateral then do
    let a0 ← pyIndex xs 0
    let a1 ← pyIndex xs 1
    return .control (lmap a1 (-1, 1) c.steeringRange) (lmap a0 (-1, 1) c.accelerationRange)
  else if c.longitudinal then do
    let a0 ← pyIndex xs 0
    return .control 0 (lmap a0 (-1, 1) c.accelerationRange)
  else do
    let a0 ← pyIndex xs 0
    return .control (lmap a0 (-1, 1) c.steeringRange) 0

/-- The argument of `controlled_vehicle.act` for an agent action — action.py:116-134, 196-197.  An index not in the table raises
`KeyError`; an argument of the wrong type is not a member of the space (modelled as `TypeError`). -/
def command (t : AgentType) (a : AgentAction) : Py VAction :=
  match t, a with
  | .continuous c, .vector xs => continuousCommand c xs
  | .discrete lo la, .index i => Dict.getItem ((actions lo la).getD []) i
  | _, _ => .error .typeError

end AgentType

namespace Road

/-- Position in the list of the vehicle of identity `uid`. -/
def indexOf (r : Road) (uid : ℕ) : Option ℕ := r.vehicles.findIdx? fun v => decide (v.uid = uid)

/-- The vehicle of identity `uid`. -/
def vehicle? (r : Road) (uid : ℕ) : Option Vehicle := r.vehicles.find? fun v => decide (v.uid = uid)

/-- `action_type.act(action)` for one agent bound to the vehicle `uid` — action.py:116-134, 196-197.  (A controlled vehicle that is not
on the road would receive the command without effect on the road.) -/
def agentAct (G : Globals) (t : AgentType) (r : Road) (uid : ℕ) (a : AgentAction) : Py Road := do
  let c ← t.command a
  match r.indexOf uid with
  | none => .ok r
  | some i => r.actAt G c i

/-- `action_type.act(action)` for the whole environment, controlled vehicles in order — action.py:49-54 (default: the first controlled
vehicle), 220-223 (`zip`: stops at the shorter; `assert isinstance(action, tuple)` modelled as `TypeError`). -/
def envAct (G : Globals) (t : ActionType) (controlled : List ℕ) (r : Road) (a : AgentAction) : Py Road :=
  match t with
  | .single t => match controlled with
    | [] => .error .attributeError
    | uid :: _ => r.agentAct G t uid a
  | .multi t => match a with
    | .tuple as => (as.zip controlled).foldlM (fun r au => r.agentAct G t au.2 au.1) r
    | _ => .error .typeError

end Road
end HighwayEnv
