import Verif.Lemmas.Network

/-! All lanes of a network as a list. -/

noncomputable section
namespace HighwayEnv
open Classical Spec

/-- The lanes of a network with their addresses. -/
def Graph.listing (g : Graph) : List (String × String × ℕ × Lane) :=
  g.flatMap fun ad => ad.2.flatMap fun bl => bl.2.zipIdx.map fun lk => (ad.1, bl.1, lk.2, lk.1)

theorem Graph.hasLane_iff {g : Graph} {a b : String} {k : ℕ} {l : Lane} : HasLane g a b k l ↔ (a, b, k, l) ∈ g.listing := by
  unfold HasLane RoadLanes Graph.listing
  simp only [List.mem_flatMap, List.mem_map, Prod.mk.injEq, Prod.exists]
  constructor
  · rintro ⟨ls, ⟨d, h1, h2⟩, h3⟩
    exact ⟨a, d, h1, b, ls, h2, l, k, List.mk_mem_zipIdx_iff_getElem?.2 h3, rfl, rfl, rfl, rfl⟩
  · rintro ⟨_, d, h1, _, ls, h2, _, _, h3, rfl, rfl, rfl, rfl⟩
    exact ⟨ls, ⟨d, h1, h2⟩, List.mk_mem_zipIdx_iff_getElem?.1 h3⟩

theorem Graph.edge_iff {g : Graph} (hg : WellFormed g) {a b : String} : Edge g a b ↔ ∃ k l, (a, b, k, l) ∈ g.listing := by
  simp only [← Graph.hasLane_iff]
  constructor
  · rintro ⟨ls, d, h1, h2⟩
    obtain ⟨l, hl⟩ := List.exists_mem_of_ne_nil _ (hg.nonemptyEdge _ h1 _ h2)
    obtain ⟨k, hk⟩ := List.mem_iff_getElem?.1 hl
    exact ⟨k, l, ls, ⟨d, h1, h2⟩, hk⟩
  · rintro ⟨k, l, ls, h, _⟩
    exact ⟨ls, h⟩

end HighwayEnv
