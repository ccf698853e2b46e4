import Verif.Spec.Traffic

/-!
# Specification vocabulary: who can influence whom
-/

noncomputable section
namespace HighwayEnv.Spec
open HighwayEnv

/-- `x` sees `y` ahead: `y` is another vehicle on the lane of `x` (up to 1 m beside it and 5 m before and after its ends), ahead of `x` or level with it. -/
def SeesAhead (g : Graph) (x y : Vehicle) : Prop :=
  ∃ lane, g.getLane x.laneIndex = .ok lane ∧ y.uid ≠ x.uid ∧ |(lane.localCoordinates y.pos).2| ≤ lane.width / 2 + 1 ∧
    -5 ≤ (lane.localCoordinates y.pos).1 ∧ (lane.localCoordinates y.pos).1 < lane.length + 5 ∧
    (lane.localCoordinates x.pos).1 ≤ (lane.localCoordinates y.pos).1

/-- Not a traffic vehicle that may change lanes on its own. -/
def NoLaneChange (v : Vehicle) : Prop := v.kind.isIDM = true → v.enableLaneChange = false

/-- None of the first `m` vehicles sees one of the others ahead. -/
def OthersBehind (m : ℕ) (r : Road) : Prop := ∀ x ∈ r.vehicles.take m, ∀ y ∈ r.vehicles.drop m, ¬ SeesAhead r.network x y

/-- Two roads without regulation and objects that have the same map and the same first `m` vehicles, which keep their lane; the other vehicles and the random numbers may differ. -/
structure SameFirst (m : ℕ) (r r' : Road) : Prop where
  network : r'.network = r.network
  recordHistory : r'.recordHistory = r.recordHistory
  free : r.regulated = false ∧ r'.regulated = false
  empty : r.objects = [] ∧ r'.objects = []
  enough : m ≤ r.vehicles.length ∧ m ≤ r'.vehicles.length
  first : r'.vehicles.take m = r.vehicles.take m
  keep : ∀ x ∈ r.vehicles.take m, NoLaneChange x

end HighwayEnv.Spec
