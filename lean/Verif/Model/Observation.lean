import Verif.Model.Env

/-!
# Model of `highway_env/envs/common/observation.py`, first part: kinematics, goals, images, several agents

A `pandas.DataFrame` is a list of rows, each a list of numbers in the order of the requested features.
-/

noncomputable section
open Classical

namespace HighwayEnv

/-- `d[key] -= origin_dict[key]` for the keys `x, y, vx, vy` — kinematics.py:254-256. -/
def relativeTo (d o : Dict String ℝ) : Dict String ℝ :=
  ["x", "y", "vx", "vy"].foldl (fun d k => Dict.setItem d k ((Dict.get? d k).getD 0 - (Dict.get? o k).getD 0)) d

/-- `Vehicle.to_dict()` without origin — kinematics.py:238-251. -/
def Vehicle.absDict (g : Graph) (v : Vehicle) (intentions : Bool) : Py (Dict String ℝ) := do
  let d ← v.destinationDirection g
  let d : Vec2 := if intentions then d else ⟨0, 0⟩
  return [("presence", 1), ("x", v.pos.x), ("y", v.pos.y), ("vx", v.velocity.x), ("vy", v.velocity.y), ("heading", v.heading),
    ("cos_h", v.direction.x), ("sin_h", v.direction.y), ("cos_d", d.x), ("sin_d", d.y)]

/-- `Vehicle.to_dict(origin_vehicle, observe_intentions)` — kinematics.py:238-257. -/
def Vehicle.toDict (g : Graph) (v : Vehicle) (origin : Option Vehicle := none) (intentions : Bool := true) : Py (Dict String ℝ) := do
  let d ← v.absDict g intentions
  match origin with
  | none => return d
  | some o => do
    let od ← o.absDict g true
    return relativeTo d od

/-- `RoadObject.to_dict()` — objects.py:49-67, without origin. -/
def RoadObject.toDict (o : RoadObject) : Dict String ℝ :=
  [("presence", 1), ("x", o.pos.x), ("y", o.pos.y), ("vx", 0), ("vy", 0), ("cos_h", Real.cos o.heading), ("sin_h", Real.sin o.heading),
    ("cos_d", 0), ("sin_d", 0)]

/-- `DataFrame.from_records([d])[features]`: a missing feature raises `KeyError`. -/
def selectFeatures (features : List String) (d : Dict String ℝ) : Py (List ℝ) := features.mapM fun f => Dict.getItem d f

/-- Python slice `l[k:]`. -/
def sliceFrom {α : Type} (l : List α) (k : Int) : List α :=
  if 0 ≤ k then l.drop k.toNat else l.drop ((l.length : Int) + k).toNat

/-- `np_random.shuffle(l)`: an arbitrary rearrangement, here by insertion of each element at a random position. -/
def Rng.shuffle {α : Type} (r : Rng) : List α → List α × Rng
  | [] => ([], r)
  | a :: l =>
    let p := r.shuffle l
    let k := p.2.ints p.2.ipos % (p.1.length + 1)
    (p.1.take k ++ a :: p.1.drop k, { p.2 with ipos := p.2.ipos + 1 })

/-- Options of `KinematicObservation` — observation.py:128-162 (`order == "shuffled"`). -/
structure KinematicsConfig where
  features : List String := ["presence", "x", "y", "vx", "vy"]
  vehiclesCount : Int := 5
  featuresRange : Option (Dict String (ℝ × ℝ)) := none
  absolute : Bool := false
  shuffled : Bool := false
  normalize : Bool := true
  clip : Bool := true
  seeBehind : Bool := false
  observeIntentions : Bool := false

namespace Kinematics

/-- `PERCEPTION_DISTANCE = 6.0 * MDPVehicle.SPEED_MAX`, evaluated when the class is created — abstract.py:35. -/
def PERCEPTION_DISTANCE : ℝ := 180

/-- The constructor: `features or self.FEATURES` — observation.py:153. -/
def init (cfg : KinematicsConfig) : KinematicsConfig :=
  if cfg.features = [] then { cfg with features := ["presence", "x", "y", "vx", "vy"] } else cfg

/-- The default ranges for a road with `n` lanes — observation.py:174-181. -/
def defaultRange (G : Globals) (n : ℕ) : Dict String (ℝ × ℝ) :=
  [("x", (-5 * G.speedMax, 5 * G.speedMax)), ("y", (-4 * n, 4 * n)), ("vx", (-2 * G.speedMax, 2 * G.speedMax)),
   ("vy", (-2 * G.speedMax, 2 * G.speedMax))]

/-- The ranges used (and stored in the observer) — observation.py:173-181: `None` and `{}` are replaced by the default. -/
def ranges (G : Globals) (g : Graph) (ego : Vehicle) (cfg : KinematicsConfig) : Py (Dict String (ℝ × ℝ)) :=
  match cfg.featuresRange with
  | some (r :: rs) => .ok (r :: rs)
  | _ => do
    let lanes ← g.allSideLanes ego.laneIndex
    return defaultRange G lanes.length

/-- One column transformation of `normalize_obs` — observation.py:182-186. -/
def normalizeValue (clip : Bool) (r : ℝ × ℝ) (x : ℝ) : ℝ :=
  let y := lmap x r (-1, 1)
  if clip then npClip y (-1) 1 else y

/-- `normalize_obs` on a row. -/
def normalizeRow (features : List String) (clip : Bool) (rs : Dict String (ℝ × ℝ)) (row : List ℝ) : List ℝ :=
  rs.foldl (fun row fr => (features.zip row).map fun fx => if fx.1 = fr.1 then normalizeValue clip fr.2 fx.2 else fx.2) row

/-- The ranges are computed and the rows normalised only if `normalize` is set — observation.py:206-207. -/
def normalizeRows (G : Globals) (g : Graph) (ego : Vehicle) (cfg : KinematicsConfig) (rows : List (List ℝ)) :
    Py (List (List ℝ) × KinematicsConfig) :=
  if cfg.normalize then do
    let rs ← ranges G g ego cfg
    return (rows.map (normalizeRow cfg.features cfg.clip rs), { cfg with featuresRange := some rs })
  else .ok (rows, cfg)

/-- Rows of the observed traffic — observation.py:191-204. -/
def traffic (r : Road) (ego : Vehicle) (cfg : KinematicsConfig) : Py (List (List ℝ)) :=
  let close := r.closeVehiclesTo ego PERCEPTION_DISTANCE (some (cfg.vehiclesCount - 1)) cfg.seeBehind
  let origin := if cfg.absolute then none else some ego
  (sliceFrom close (-cfg.vehiclesCount + 1)).mapM fun v => do
    let d ← v.toDict r.network origin cfg.observeIntentions
    selectFeatures cfg.features d

/-- Filling with zero rows — observation.py:209-211. -/
def fill (cfg : KinematicsConfig) (rows : List (List ℝ)) : List (List ℝ) :=
  rows ++ List.replicate (cfg.vehiclesCount - rows.length).toNat (List.replicate cfg.features.length 0)

/-- Shuffling of all rows but the first — observation.py:215-216. -/
def reorder (cfg : KinematicsConfig) (rng : Rng) (rows : List (List ℝ)) : List (List ℝ) × Rng :=
  if cfg.shuffled then
    match rows with
    | [] => ([], rng)
    | row :: rest => let p := rng.shuffle rest; (row :: p.1, p.2)
  else (rows, rng)

/-- `observe` on a road — observation.py:188-218.  Returns the rows, the observer (whose ranges may have been set) and the generator,
which is the one of the road. -/
def observe (G : Globals) (r : Road) (ego : Vehicle) (cfg : KinematicsConfig) : Py (List (List ℝ) × KinematicsConfig × Rng) := do
  let d ← ego.toDict r.network
  let first ← selectFeatures cfg.features d
  let others ← traffic r ego cfg
  let (rows, cfg) ← normalizeRows G r.network ego cfg (first :: others)
  let p := reorder cfg r.rng (fill cfg rows)
  return (p.1, cfg, p.2)

/-- The observation before the road exists, and the shape of the space — observation.py:164-165, 189-190. -/
def initial (cfg : KinematicsConfig) : List (List ℝ) :=
  List.replicate cfg.vehiclesCount.toNat (List.replicate cfg.features.length 0)

end Kinematics

/-- `KinematicsGoalObservation.observe` — observation.py:306-321: observation, achieved goal, desired goal.  Dividing arrays of
different lengths raises `ValueError` (scales of length 1 broadcast in numpy; not modelled). -/
def goalObservation (g : Graph) (features : List String) (scales : List ℝ) (ego : Vehicle) (goal : RoadObject) :
    Py (List ℝ × List ℝ × List ℝ) := do
  let d ← ego.toDict g
  let obs ← selectFeatures features d
  let target ← selectFeatures features goal.toDict
  if obs.length ≠ scales.length then .error .valueError
  else
    let obs := (obs.zip scales).map fun xs => xs.1 / xs.2
    return (obs, obs, (target.zip scales).map fun xs => xs.1 / xs.2)

/-- `MultiAgentObservation.observe` with kinematics observers, one per controlled vehicle — observation.py:346-362.  The observers run in
order and share the generator. -/
def observeAll (G : Globals) (r : Road) : List (Vehicle × KinematicsConfig) → Py (List (List (List ℝ)) × List (Vehicle × KinematicsConfig) × Rng)
  | [] => .ok ([], [], r.rng)
  | (v, cfg) :: rest => do
    let (o, cfg, rng) ← Kinematics.observe G r v cfg
    let (os, cfgs, rng) ← observeAll G { r with rng := rng } rest
    return (o :: os, (v, cfg) :: cfgs, rng)

/-- `GrayscaleObservation`: the stacked frames, oldest first; a new frame enters at the end — observation.py:68-78 (`np.roll` by -1, then
the last plane is overwritten).  Frames are abstract here; Model/Spaces gives the
observer of grayscale pictures. -/
def stackFrame {α : Type} (stack : List α) (frame : α) : List α :=
  match stack with
  | [] => []
  | _ :: rest => rest ++ [frame]

end HighwayEnv
