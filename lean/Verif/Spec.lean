import Verif.Basic

/-!
# Specification vocabulary

Small definitions in which the properties are stated; independent of the model's helper functions.
-/

namespace PM

/-- `topo[c][j]`: the `j`-th node of cell `c`. -/
def nodeAt {α : Type} (topo : List (List α)) (c j : Nat) : Option α := topo[c]? >>= fun r => r[j]?

/-- Node `n` is used by some cell. -/
def UsesNode (topo : List (List Nat)) (n : Nat) : Prop := ∃ row ∈ topo, n ∈ row

/-- `ps` lists the places (cell, position) at which node `n` occurs: all of them, each once, in order. -/
structure IncidenceList (topo : List (List Nat)) (n : Nat) (ps : List (Nat × Nat)) : Prop where
  sorted : ps.Pairwise fun a b => a.1 < b.1 ∨ (a.1 = b.1 ∧ a.2 < b.2)
  exact : ∀ c j, (c, j) ∈ ps ↔ nodeAt topo c j = some n

end PM
