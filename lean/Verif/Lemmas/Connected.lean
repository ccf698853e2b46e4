import Verif.Model.Network

/-! Connectivity of roads only depends on which nodes follow which ones. -/

noncomputable section
open Classical
namespace HighwayEnv.Graph

theorem isConnectedRoad_congr (g g' : Graph) (hs : ∀ n, g'.succs n = g.succs n) (a b : RouteStep) (route : Option (List RouteStep))
    (sameLane : Bool) (depth : ℕ) : g'.isConnectedRoad a b route sameLane depth = g.isConnectedRoad a b route sameLane depth := by
  fun_induction Graph.isConnectedRoad g a b route sameLane depth with
  | case1 => unfold Graph.isConnectedRoad; simp_all
  | case2 => unfold Graph.isConnectedRoad; simp_all
  | case3 => rw [Graph.isConnectedRoad]; simp_all
  | case4 => rw [Graph.isConnectedRoad]; simp_all
  | case5 => rw [Graph.isConnectedRoad]; simp_all
  | case6 => rw [Graph.isConnectedRoad] <;> simp_all

end HighwayEnv.Graph
