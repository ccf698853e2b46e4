import Verif.Model.Occupancy

/-!
# Model of the spaces of `highway_env/envs/common/observation.py` and `highway_env/envs/common/action.py`, and of the observers as objects

The classes of `gym.spaces` are modelled by their documented meaning: a `Box` holds the arrays of its shape with entries between its bounds,
a `Tuple` the tuples of the same length with components in its components, a `Dict` the dictionaries with the same keys.  (The element type
`float32` of a box is not modelled.)
-/

noncomputable section
open Classical

namespace HighwayEnv

/-- A numpy array: its shape and its entries by multi-index. -/
structure NdArray where
  shape : List ℕ
  entry : List ℕ → ℝ

/-- `gym.spaces`.  `free` is a `Box` from `-inf` to `inf`; `bare` is `spaces.Space()`. -/
inductive Space where
  | discrete (n : ℕ)
  | box (low high : ℝ) (shape : List ℕ)
  | free (shape : List ℕ)
  | tuple (l : List Space)
  | dict (l : List (String × Space))
  | bare

/-- What observers return: arrays, tuples and dictionaries. -/
inductive Obs where
  | array (a : NdArray)
  | tuple (l : List Obs)
  | dict (l : List (String × Obs))

/-- The observation types with their attributes.  The last attribute of each is `observer_vehicle`, if it was set — observation.py:16-39.  An
image observer holds the planes of `self.state`, oldest first, each row after row. -/
inductive ObsType where
  | ttc (horizon : ℝ) (vehicle : Option ℕ)
  | kinematics (cfg : KinematicsConfig) (vehicle : Option ℕ)
  | occupancy (o : Occupancy) (vehicle : Option ℕ)
  | goal (features : List String) (scales : List ℝ) (vehicle : Option ℕ)
  | image (weights : Option (ℝ × ℝ × ℝ)) (rows cols : ℕ) (planes : List (List ℝ))
  | attributes (names : List String)
  | multi (l : List ObsType)

/-- What observers read of an environment: the road (`None` before the first reset), the controlled vehicles, the goal (`None`: no attribute
`goal`), the policy frequency, the picture given by `render('rgb_array')` (its pixels row after row), and the array attributes of the
environment by name. -/
structure Scene where
  road : Option Road
  controlled : List ℕ
  goal : Option RoadObject := none
  policyFrequency : ℝ := 1
  picture : List (ℝ × ℝ × ℝ) := []
  attributes : Dict String NdArray := []

namespace ObsType

/-- The array of a list of rows of the same length. -/
def ofRows (rows : List (List ℝ)) (cols : ℕ) : NdArray where
  shape := [rows.length, cols]
  entry := fun idx => match idx with
    | [i, j] => ((rows[i]?).bind (·[j]?)).getD 0
    | _ => 0

/-- A one-dimensional array. -/
def ofList (l : List ℝ) : NdArray where
  shape := [l.length]
  entry := fun idx => match idx with
    | [i] => (l[i]?).getD 0
    | _ => 0

/-- The array of a grid. -/
def ofGrid (g : Grid3) : NdArray where
  shape := [g.s, g.l, g.t]
  entry := fun idx => match idx with
    | [i, j, k] => g.at' i j k
    | _ => 0

/-- The array of a stack of planes: the last axis is the plane — observation.py:65-67, 79-81. -/
def ofPlanes (rows cols : ℕ) (planes : List (List ℝ)) : NdArray where
  shape := [rows, cols, planes.length]
  entry := fun idx => match idx with
    | [i, j, k] => ((planes[k]?).bind (·[i * cols + j]?)).getD 0
    | _ => 0

/-- `self.__observer_vehicle or self.env.vehicle` — observation.py:28-35: `none` is Python's `None`. -/
def watched (s : Scene) (r : Road) (vehicle : Option ℕ) : Option Vehicle :=
  match vehicle with
  | some uid => r.vehicle? uid
  | none => s.controlled.head?.bind r.vehicle?

/-- An attribute of `None` raises `AttributeError`. -/
def need (o : Option Vehicle) : Py Vehicle :=
  match o with
  | some v => .ok v
  | none => .error .attributeError

/-- `TimeToCollisionObservation.observe` — observation.py:97-120 (`compute_ttc_grid` counts the lanes of the road of `env.vehicle`). -/
def observeTtc (G : Globals) (s : Scene) (horizon : ℝ) (vehicle : Option ℕ) : Py Obs :=
  match s.road with
  | none => .ok (.array (ofGrid (Grid3.zeros 3 3 (pyInt (horizon * s.policyFrequency)).toNat)))
  | some r => do
    let ego ← need (watched s r none)
    let v ← need (watched s r vehicle)
    let g ← ttcObserve G r ego.laneIndex v horizon s.policyFrequency
    return .array (ofGrid g)

/-- `KinematicObservation.observe` — observation.py:188-218. -/
def observeKinematics (G : Globals) (s : Scene) (cfg : KinematicsConfig) (vehicle : Option ℕ) : Py (Obs × KinematicsConfig × Option Road) :=
  match s.road with
  | none => .ok (.array (ofRows (Kinematics.initial cfg) cfg.features.length), cfg, none)
  | some r => do
    let v ← need (watched s r vehicle)
    let (rows, cfg', rng) ← Kinematics.observe G r v cfg
    return (.array (ofRows rows cfg.features.length), cfg', some { r with rng := rng })

/-- `KinematicsGoalObservation.observe` — observation.py:317-334: zeros without a vehicle, `AttributeError` without a goal. -/
def observeGoal (s : Scene) (features : List String) (scales : List ℝ) (vehicle : Option ℕ) : Py Obs :=
  match s.road.bind fun r => (watched s r vehicle).map fun v => (r, v) with
  | none =>
    let zeros : Obs := .array (ofList (List.replicate features.length 0))
    .ok (.dict [("observation", zeros), ("achieved_goal", zeros), ("desired_goal", zeros)])
  | some (r, v) => match s.goal with
    | none => .error .attributeError
    | some g => do
      let (o, a, t) ← goalObservation r.network features scales v g
      return .dict [("observation", .array (ofList o)), ("achieved_goal", .array (ofList a)), ("desired_goal", .array (ofList t))]

/-- `_record_to_grayscale` — observation.py:84-87. -/
def gray (w : ℝ × ℝ × ℝ) (p : ℝ × ℝ × ℝ) : ℝ := p.1 * w.1 + p.2.1 * w.2.1 + p.2.2 * w.2.2

/-- `GrayscaleObservation.observe` — observation.py:76-82: `np.reshape` raises `ValueError` unless the picture has as many pixels as the
observation; without weights in the configuration the picture cannot be converted (`KeyError`). -/
def observeImage (s : Scene) (w : Option (ℝ × ℝ × ℝ)) (rows cols : ℕ) (planes : List (List ℝ)) : Py (List (List ℝ)) :=
  match w with
  | none => .error .keyError
  | some w => if s.picture.length = rows * cols then .ok (stackFrame planes (s.picture.map (gray w))) else .error .valueError

/-- `getattr(self.env, attribute)` — observation.py:346-349, 354-356. -/
def getattr (s : Scene) (n : String) : Py NdArray :=
  match Dict.get? s.attributes n with
  | some a => .ok a
  | none => .error .attributeError

mutual
/-- `observe()` of every observation type: the observation, the observer (which may have changed) and the scene (whose generator may have been
used) — observation.py:76-82, 97-120, 188-218, 272-300, 317-334, 353-356, 372-373. -/
def observe (G : Globals) : ObsType → Scene → Py (Obs × ObsType × Scene)
  | .ttc h v, s => do
    let o ← observeTtc G s h v
    return (o, .ttc h v, s)
  | .kinematics cfg v, s => do
    let (o, cfg, r) ← observeKinematics G s cfg v
    return (o, .kinematics cfg v, { s with road := r })
  | .occupancy oc v, s => do
    let (g, oc) ← oc.observe G s.road (s.road.bind fun r => watched s r v)
    return (.array (ofGrid g), .occupancy oc v, s)
  | .goal fs sc v, s => do
    let o ← observeGoal s fs sc v
    return (o, .goal fs sc v, s)
  | .image w n m planes, s => do
    let planes ← observeImage s w n m planes
    return (.array (ofPlanes n m planes), .image w n m planes, s)
  | .attributes names, s => do
    let vs ← names.mapM fun n => (getattr s n).map fun a => (n, Obs.array a)
    return (.dict vs, .attributes names, s)
  | .multi l, s => do
    let (os, l, s) ← observeList G l s
    return (.tuple os, .multi l, s)

/-- The observers of several agents, in order. -/
def observeList (G : Globals) : List ObsType → Scene → Py (List Obs × List ObsType × Scene)
  | [], s => .ok ([], [], s)
  | o :: l, s => do
    let (x, o, s) ← observe G o s
    let (xs, l, s) ← observeList G l s
    return (x :: xs, o :: l, s)
end

/-- The shape of an observation that is an array. -/
def shapeOf : Obs → List ℕ
  | .array a => a.shape
  | _ => []

/-- `try: … except AttributeError: return spaces.Space()`. -/
def orBare (p : Py Space) : Py Space :=
  match p with
  | .error .attributeError => .ok .bare
  | p => p

mutual
/-- `space()` of every observation type — observation.py:69-75, 91-95, 164-165, 251-252, 306-315, 342-351, 369-370.  (For the time to
collision, `self.observe().shape` on the current scene.) -/
def space (G : Globals) (s : Scene) : ObsType → Py Space
  | .ttc h v => orBare (do
    let o ← observeTtc G s h v
    return .box 0 1 (shapeOf o))
  | .kinematics cfg _ => .ok (.box (-1) 1 [cfg.vehiclesCount.toNat, cfg.features.length])
  | .occupancy oc _ => .ok (.box (-1) 1 [oc.grid.s, oc.grid.l, oc.grid.t])
  | .goal fs sc v => orBare (do
    match ← observeGoal s fs sc v with
    | .dict l => return .dict (l.map fun ko => (ko.1, .free (shapeOf ko.2)))
    | _ => return .bare)
  | .image _ n m planes => .ok (.box 0 1 [n, m, planes.length])
  | .attributes names => orBare (do
    let vs ← names.mapM fun n => (getattr s n).map fun a => (n, Space.free a.shape)
    return .dict vs)
  | .multi l => do
    let ss ← spaceList G s l
    return .tuple ss

/-- The spaces of several agents. -/
def spaceList (G : Globals) (s : Scene) : List ObsType → Py (List Space)
  | [] => .ok []
  | o :: l => do
    let x ← space G s o
    let xs ← spaceList G s l
    return x :: xs
end

end ObsType

/-- `action_type.space()` — action.py:108-110, 189-190, 213-214; a continuous action lies in `[-1, 1]` per axis. -/
def AgentType.space (t : AgentType) : Space :=
  match t with
  | .continuous _ => .box (-1) 1 [t.spaceSize]
  | .discrete _ _ => .discrete t.spaceSize

end HighwayEnv
