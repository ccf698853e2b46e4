import Verif.Model.Envs.Highway
import Verif.Model.Envs.Merge
import Verif.Model.Envs.TwoWay
import Verif.Model.Envs.Roundabout
import Verif.Model.Envs.Intersection
import Verif.Model.Envs.Parking
import Verif.Model.Envs.Summon
import Verif.Model.Envs.LaneKeeping

/-!
# Specification vocabulary: the resets of all environments of a process, in the order in which they happen
-/

noncomputable section
namespace HighwayEnv.Spec
open HighwayEnv

/-- Which environment is reset; for an intersection, with its class of traffic. -/
inductive ResetOf where
  | highway | merge | twoWay | parking | summon | laneKeeping | roundabout
  | intersection (traffic : VKind)

/-- A sequence of resets, with any configurations and random streams, of environments of one process: the class attributes before the first and after the last. -/
inductive Resets : Globals → List ResetOf → Globals → Prop
  | nil (G) : Resets G [] G
  | highway {G G' cfg rng e es} : Highway.reset G cfg rng = .ok e → Resets G es G' → Resets G (.highway :: es) G'
  | merge {G G' cfg rng e es} : Merge.reset G cfg rng = .ok e → Resets G es G' → Resets G (.merge :: es) G'
  | twoWay {G G' cfg rng e es} : TwoWay.reset G cfg rng = .ok e → Resets G es G' → Resets G (.twoWay :: es) G'
  | parking {G G' cfg rng e es} : Parking.reset G cfg rng = .ok e → Resets G es G' → Resets G (.parking :: es) G'
  | summon {G G' cfg rng e es} : Summon.reset G cfg rng = .ok e → Resets G es G' → Resets G (.summon :: es) G'
  | laneKeeping {G G' cfg s p es} : LaneKeeping.reset G cfg s = .ok p → Resets G es G' → Resets G (.laneKeeping :: es) G'
  | roundabout {G G1 G' cfg ord rng e es} : Roundabout.reset G cfg ord rng = .ok (G1, e) → Resets G1 es G' → Resets G (.roundabout :: es) G'
  | intersection {G G1 G' cfg ord rng e es} : Intersection.reset G cfg ord rng = .ok (G1, e) → Resets G1 es G' →
      Resets G (.intersection cfg.otherVehiclesType :: es) G'

/-- `a` is the class `b` or one of those inheriting from it (behavior.py: `LinearVehicle(IDMVehicle)`, `AggressiveVehicle(LinearVehicle)`, `DefensiveVehicle(LinearVehicle)`). -/
def IsSubclass (a b : VKind) : Prop :=
  (a, b) ∈ [(VKind.idm, VKind.idm), (.linear, .idm), (.aggressive, .idm), (.defensive, .idm), (.linear, .linear), (.aggressive, .linear), (.defensive, .linear),
    (.aggressive, .aggressive), (.defensive, .defensive)]

end HighwayEnv.Spec
