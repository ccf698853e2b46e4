import Verif.Model.Step

/-!
# Specification vocabulary: histories of a road

A road evolves by any interleaving of: some vehicle executing any action (`vehicle.act(action)`, what the environment does with the
controlled vehicles), all vehicles deciding (`road.act()`), and simulation steps (`road.step(dt)`) of any duration.  Vehicles are
identified by their position in `road.vehicles`.
-/

noncomputable section
namespace HighwayEnv.Spec
open HighwayEnv

/-- One event in the life of a road. -/
inductive RoadEvent (G : Globals) : Road → Road → Prop
  | actAt {r r' : Road} (i : ℕ) (a : VAction) : r.actAt G a i = .ok r' → RoadEvent G r r'
  | act {r r' : Road} : r.act G = .ok r' → RoadEvent G r r'
  | step {r r' : Road} (dt : ℝ) : r.step dt = .ok r' → RoadEvent G r r'

/-- Any finite history. -/
inductive RoadRun (G : Globals) : Road → Road → Prop
  | refl (r : Road) : RoadRun G r r
  | tail {r s t : Road} : RoadRun G r s → RoadEvent G s t → RoadRun G r t

/-- The two lists have the same length and corresponding elements are related. -/
def Pointwise {α β : Type} (R : α → β → Prop) (vs : List α) (ws : List β) : Prop :=
  ws.length = vs.length ∧ ∀ (i : ℕ) (v : α), vs[i]? = some v → ∃ w, ws[i]? = some w ∧ R v w

end HighwayEnv.Spec
