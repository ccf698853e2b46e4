import Verif.Model.Factory
import Verif.Spec.Occupancy
import Verif.Spec.Ttc

/-!
# Specification vocabulary: membership in spaces, observations along an episode
-/

noncomputable section
open Classical
namespace HighwayEnv.Spec
open HighwayEnv

/-- A multi-index of an array of the given shape. -/
def Inside (idx shape : List ℕ) : Prop := List.Forall₂ (· < ·) idx shape

/-- The observation belongs to the space, as documented by gym. -/
inductive Member : Space → Obs → Prop where
  | box {low high : ℝ} {shape : List ℕ} {a : NdArray} (h : a.shape = shape)
      (hb : ∀ idx, Inside idx shape → low ≤ a.entry idx ∧ a.entry idx ≤ high) : Member (.box low high shape) (.array a)
  | free {shape : List ℕ} {a : NdArray} (h : a.shape = shape) : Member (.free shape) (.array a)
  | tuple {ss : List Space} {os : List Obs} (h : List.Forall₂ Member ss os) : Member (.tuple ss) (.tuple os)
  | dict {ss : List (String × Space)} {os : List (String × Obs)} (hk : ss.map Prod.fst = os.map Prod.fst)
      (h : List.Forall₂ Member (ss.map Prod.snd) (os.map Prod.snd)) : Member (.dict ss) (.dict os)

/-- Successive observations of the given scenes by one observer. -/
inductive Watch (G : Globals) : ObsType → List Scene → List Obs → Prop where
  | nil (o : ObsType) : Watch G o [] []
  | cons {o o' : ObsType} {s s' : Scene} {x : Obs} {rest : List Scene} {xs : List Obs} (h : o.observe G s = .ok (x, o', s'))
      (ht : Watch G o' rest xs) : Watch G o (s :: rest) (x :: xs)

/-- Whatever scenes satisfying `Ok` follow one another, every observation belongs to the space. -/
def Keeps (G : Globals) (Ok : Scene → Prop) (o : ObsType) (sp : Space) : Prop :=
  ∀ scenes xs, (∀ s ∈ scenes, Ok s) → Watch G o scenes xs → ∀ x ∈ xs, Member sp x

/-- A condition on scenes that does not depend on the state of the random generator. -/
def NoRandom (Ok : Scene → Prop) : Prop :=
  ∀ s, Ok s → ∀ r rng, s.road = some r → Ok { s with road := some { r with rng := rng } }

/-- Scenes in which the time to collision is defined for the observer of identity `vehicle` (or the first controlled vehicle): it is an agent
with a speed level, on a road whose vehicles are all on existing lanes, and its lane number exists on the road of the first controlled
vehicle; or there is no road yet. -/
def TtcScene (G : Globals) (f : ℝ) (vehicle : Option ℕ) (s : Scene) : Prop :=
  s.policyFrequency = f ∧ (s.road = none ∨
    ∃ r ego v ls, s.road = some r ∧ ObsType.watched s r none = some ego ∧ ObsType.watched s r vehicle = some v ∧
      TtcOk r v ∧ 0 ≤ v.speedIndex ∧ v.speedIndex < G.speedCount ∧
      RoadLanes r.network ego.laneIndex.src ego.laneIndex.dst ls ∧ v.laneIndex.id < ls.length)

/-- Kinematics observers whose observations are meant to be in `[-1, 1]`: at least two vehicles, normalisation and clipping on, and every
feature that is not in `[-1, 1]` by nature has a range. -/
structure Normalised (cfg : KinematicsConfig) : Prop where
  ok : ObserverOk cfg
  count : 2 ≤ cfg.vehiclesCount
  normalize : cfg.normalize = true
  clip : cfg.clip = true
  given : ∀ rs, cfg.featuresRange = some rs → rs ≠ [] → ∀ f ∈ cfg.features, f ∈ ["x", "y", "vx", "vy", "heading"] → f ∈ rs.map Prod.fst
  default : cfg.featuresRange = none ∨ cfg.featuresRange = some [] → "heading" ∉ cfg.features

/-- The value of a key once `u` has been written over `d`. -/
def overlay {α : Type} (d u : Dict String α) (k : String) : Option α :=
  match Dict.get? u k with
  | some v => some v
  | none => Dict.get? d k

/-- The actions of a space: an index below its size, an array of its dimension with entries in `[-1, 1]`, or one action per agent. -/
inductive Playable : Space → AgentAction → Prop where
  | discrete {n : ℕ} {i : ℕ} (h : i < n) : Playable (.discrete n) (.index i)
  | box {low high : ℝ} {n : ℕ} {xs : List ℝ} (h : xs.length = n) (hb : ∀ x ∈ xs, low ≤ x ∧ x ≤ high) : Playable (.box low high [n]) (.vector xs)
  | tuple {ss : List Space} {as : List AgentAction} (h : List.Forall₂ Playable ss as) : Playable (.tuple ss) (.tuple as)

end HighwayEnv.Spec

namespace HighwayEnv.Spec
open HighwayEnv

/-- What a sequence of configurations leaves at a key: the last one that mentions it wins, else the original value stays. -/
def latest {α : Type} (d : Dict String α) (us : List (Dict String α)) (k : String) : Option α :=
  match us.reverse.findSome? fun u => Dict.get? u k with
  | some v => some v
  | none => Dict.get? d k

/-- The names of the documented observation types of a single agent. -/
def observationTypes : List String :=
  ["TimeToCollision", "Kinematics", "OccupancyGrid", "KinematicsGoal", "GrayscaleObservation", "AttributesObservation"]

/-- The entry a type of observation cannot do without, and the exception raised when it is missing. -/
def missing (t : String) (p : ObsParams) : Option PyErr :=
  if t = "OccupancyGrid" ∧ p.gridStep = none then some .typeError
  else if t = "KinematicsGoal" ∧ p.scales = none then some .typeError
  else if t = "AttributesObservation" ∧ p.attributes = none then some .typeError
  else if t = "GrayscaleObservation" ∧ (p.observationShape = none ∨ p.stackSize = none) then some .keyError
  else none

/-- The vehicle an observer was told to watch. -/
def watches : ObsType → Option ℕ
  | .ttc _ v => v
  | .kinematics _ v => v
  | .occupancy _ v => v
  | .goal _ _ v => v
  | _ => none

/-- The type of agents of an environment, as a simulation configuration describes it. -/
def SameType : Factory.Built → ActionType → Prop
  | .single t, .single t' => t = t'
  | .multi l, .multi t' => ∀ t ∈ l, t = t'
  | _, _ => False

/-- The value `x` of an option is the one given in the configuration, or else the documented default. -/
def Given {α : Type} (opt : Option α) (dflt x : α) : Prop := (∀ a, opt = some a → x = a) ∧ (opt = none → x = dflt)

end HighwayEnv.Spec
