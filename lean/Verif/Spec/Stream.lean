import Verif.Model.Network

/-!
# Specification vocabulary: consuming a random generator
-/

namespace HighwayEnv.Spec
open HighwayEnv

/-- The generator `g'` is the generator `g` after some draws: the same sequences of values, of which possibly more have been consumed. -/
structure Later (g g' : Rng) : Prop where
  ints : g'.ints = g.ints
  reals : g'.reals = g.reals
  ipos : g.ipos ≤ g'.ipos
  rpos : g.rpos ≤ g'.rpos

end HighwayEnv.Spec
