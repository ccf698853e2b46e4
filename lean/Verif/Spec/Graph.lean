import Verif.Model.Network

/-!
# Specification vocabulary for road graphs

Stated directly on the contents of the graph, independently of the search functions of the model.
-/

namespace HighwayEnv.Spec
open HighwayEnv

/-- A Python dictionary never holds a key twice: true of the outer and of every inner dictionary of a graph. -/
structure IsPyGraph (g : Graph) : Prop where
  outer : (g.map Prod.fst).Nodup
  inner : ∀ nd ∈ g, (nd.2.map Prod.fst).Nodup

/-- A graph produced by `add_lane` calls: a Python graph in which every node entry has an edge and every edge a lane. -/
structure WellFormed (g : Graph) : Prop extends IsPyGraph g where
  nonemptyNode : ∀ nd ∈ g, nd.2 ≠ []
  nonemptyEdge : ∀ nd ∈ g, ∀ kl ∈ nd.2, kl.2 ≠ []

/-- `ls` is the list of lanes stored for the road from `a` to `b`. -/
def RoadLanes (g : Graph) (a b : String) (ls : List Lane) : Prop := ∃ d, (a, d) ∈ g ∧ (b, ls) ∈ d

/-- There is a road from `a` to `b`. -/
def Edge (g : Graph) (a b : String) : Prop := ∃ ls, RoadLanes g a b ls

/-- `l` is the lane number `k` (counted from 0) of the road from `a` to `b`. -/
def HasLane (g : Graph) (a b : String) (k : ℕ) (l : Lane) : Prop := ∃ ls, RoadLanes g a b ls ∧ ls[k]? = some l

/-- The lane index denotes an existing lane with a plain (non-negative) lane number. -/
def ValidIndex (g : Graph) (i : LaneIndex) : Prop := ∃ (k : ℕ) (l : Lane), i.id = (k : Int) ∧ HasLane g i.src i.dst k l

/-- `p` is a walk of the graph: consecutive nodes are joined by a road. -/
def IsWalk (g : Graph) (p : List String) : Prop := p.IsChain (Edge g)

/-- `p` is a walk from `a` to `b`. -/
def WalkFromTo (g : Graph) (a b : String) (p : List String) : Prop :=
  IsWalk g p ∧ p.head? = some a ∧ p.getLast? = some b

end HighwayEnv.Spec
