import Verif.Spec.Full
import Verif.Spec.Episode

/-!
# Specification vocabulary: maps without forks
-/

noncomputable section
namespace HighwayEnv.Spec
open HighwayEnv

/-- A map without forks: at most one road leaves each node. -/
def NoForks (g : Graph) : Prop := ∀ node roads, Dict.get? g node = some roads → roads.length ≤ 1

/-- Two calls with the same outcome up to a relation between the results: both return related results, or both raise the same exception. -/
inductive Twin {α β : Type} (R : α → β → Prop) : Py α → Py β → Prop
  | ok {a : α} {b : β} : R a b → Twin R (.ok a) (.ok b)
  | error (e : PyErr) : Twin R (.error e) (.error e)

end HighwayEnv.Spec
