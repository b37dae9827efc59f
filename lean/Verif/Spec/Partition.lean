import Verif.Model.Partition
import Verif.Spec.Tensor
/-
Specification vocabulary for partition trees: the leaves, the cells of an index range, the status of a cell.
-/
namespace Qugar.Spec

/-- The leaves of a tree with their status, from left to right. -/
def leavesOf : Tree → List (Range × Status)
  | .leaf r s => [(r, s)]
  | .node _ _ a b => leavesOf a ++ leavesOf b

/-- Cell `c` of the grid with `n` cells per direction belongs to the index box of `r`. -/
def CellIn (n : List Nat) (r : Range) (c : Nat) : Prop :=
  ∃ i, InSize n i ∧ flatIndex i n = c ∧ InBox r.lo r.up i

/-- Cell `c` has status `s`: it is in a leaf with that status. -/
def HasStatus (n : List Nat) (t : Tree) (c : Nat) (s : Status) : Prop :=
  ∃ r, (r, s) ∈ leavesOf t ∧ CellIn n r c

/-- Trees that some sequence of successful calls produces from the initial tree of a grid. -/
def Reachable (n : List Nat) (t : Tree) : Prop := ∃ ops, (Tree.root n).run ops = some t

end Qugar.Spec
