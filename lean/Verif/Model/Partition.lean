import Verif.Model.Grid
import Mathlib.Data.List.Sort
/-
Model of `qugar::UnfittedBinarySpacePart` (cpp/qugar/unfitted_domain_binary_part.cpp): the binary space partition of
the cells of a grid. `n` is everywhere the number of cells of the grid per direction
(`get_grid()->get_num_cells_dir()`); a sub-grid of a node is its index range. `none` = failed assertion or null
pointer access.
-/
namespace Qugar

/-- `ImmersedCellStatus`. unfitted_domain_binary_part.hpp:34-39. -/
inductive Status | cut | full | empty | unknown
deriving DecidableEq, Repr

/-- `UnfittedBinarySpacePart`: sub-grid, status and either no child or two children
(`children_` is only written by `branch`, which sets both). unfitted_domain_binary_part.hpp:84-92, .cpp:33-43. -/
inductive Tree
  | leaf (r : Range) (s : Status)
  | node (r : Range) (s : Status) (a b : Tree)
deriving DecidableEq, Repr

namespace Tree

/-- `get_subgrid`. unfitted_domain_binary_part.cpp:69-72. -/
def range : Tree → Range
  | leaf r _ => r
  | node r _ _ _ => r

/-- Member `status_`. -/
def status : Tree → Status
  | leaf _ s => s
  | node _ s _ _ => s

/-- Constructor from a grid: a leaf with all the cells, status unknown. unfitted_domain_binary_part.cpp:33-43. -/
def root (n : List Nat) : Tree := leaf (Range.ofUpper n) .unknown

/-- `set_status` with its assertions (leaf, status unknown, cut only for a single cell).
unfitted_domain_binary_part.cpp:50-60. -/
def setStatus (st : Status) : Tree → Option Tree
  | leaf r s => if s = .unknown ∧ (st = .cut → Grid.isUniqueCell r = true) then some (leaf r st) else none
  | node _ _ _ _ => none

/-- `get_status` as written: the assertion demands that both children exist.
unfitted_domain_binary_part.cpp:63-67. -/
def getStatus : Tree → Option Status
  | leaf _ _ => none
  | node _ s _ _ => some s

/-- `branch`. unfitted_domain_binary_part.cpp:91-101 (the sub-grid split is `TensorIndexRangeTP::split`:
cart_grid_tp.cpp:316-326). -/
def branch : Tree → Option Tree
  | leaf r s =>
    if s = .unknown ∧ Grid.isUniqueCell r = false then
      r.split.map fun (x : Range × Range) => node r s (leaf x.1 .unknown) (leaf x.2 .unknown)
    else none
  | node _ _ _ _ => none

/-- Applying an operation to the node reached by following `get_child(0)` (`false`) and `get_child(1)` (`true`)
from the root. unfitted_domain_binary_part.cpp:79-89. -/
def atPath (f : Tree → Option Tree) : List Bool → Tree → Option Tree
  | [], t => f t
  | false :: p, node r s a b => (atPath f p a).map fun a' => node r s a' b
  | true :: p, node r s a b => (atPath f p b).map fun b' => node r s a b'
  | _ :: _, leaf _ _ => none

/-- A mutating call on a node of the tree. -/
inductive Op
  | branch (path : List Bool)
  | setStatus (path : List Bool) (st : Status)
deriving DecidableEq, Repr

/-- Execution of one mutating call. -/
def step (t : Tree) : Op → Option Tree
  | .branch p => atPath branch p t
  | .setStatus p st => atPath (setStatus st) p t

/-- Execution of a finite history of mutating calls. -/
def run : Tree → List Op → Option Tree
  | t, [] => some t
  | t, o :: os => (step t o).bind fun t' => run t' os

/-- `is_in_tree`. unfitted_domain_binary_part.cpp:103-107. -/
def isInTree (n : List Nat) (t : Tree) (c : Nat) : Bool := t.range.isInRangeFlat c n

/-- `find_leaf`. unfitted_domain_binary_part.cpp:109-122. -/
def findLeaf (n : List Nat) : Tree → Nat → Option Tree
  | leaf r s, c => if isInTree n (leaf r s) c then some (leaf r s) else none
  | node r s a b, c =>
    if isInTree n (node r s a b) c then
      if isInTree n a c then findLeaf n a c else findLeaf n b c
    else none

/-- `transverse_tree`: `func_1` (an update of a captured state) is called on the leaves accepted by `func_0`,
children 0 before children 1. unfitted_domain_binary_part.cpp:125-138. -/
def traverse {β : Type} (p : Tree → Bool) (f : Tree → β → Option β) : Tree → β → Option β
  | leaf r s, st => if p (leaf r s) then f (leaf r s) st else some st
  | node _ _ a b, st => (traverse p f a st).bind fun st' => traverse p f b st'

/-- `reduce`: sum of `func_1` over the leaves accepted by `func_0`. unfitted_domain_binary_part.cpp:140-154. -/
def reduce (p : Tree → Bool) (f : Tree → Nat) : Tree → Nat
  | leaf r s => if p (leaf r s) then f (leaf r s) else 0
  | node _ _ a b => reduce p f a + reduce p f b

/-- `create_leaf_checker`. unfitted_domain_binary_part.cpp:238-246. -/
def leafChecker (st : Status) (t : Tree) : Bool := decide (t.status = st)

/-- `get_leaves`. unfitted_domain_binary_part.cpp:156-166. -/
def getLeaves (st : Status) (t : Tree) : Option (List Tree) :=
  traverse (leafChecker st) (fun l acc => some (acc ++ [l])) t []

/-- The flat ids pushed for one leaf. unfitted_domain_binary_part.cpp:178-182. -/
def pushCells (n : List Nat) (l : Tree) (acc : List Nat) : Option (List Nat) := do
  let tids ← l.range.visit (l.range.size + 1)
  let ids ← tids.mapM fun t => flat t n
  return acc ++ ids

/-- `std::ranges::sort` on cell ids (modelled by insertion sort; the sorted permutation of a list of
integers does not depend on the algorithm). -/
def sortIds (l : List Nat) : List Nat := l.insertionSort (· ≤ ·)

/-- `get_cell_ids(status, cell_ids)`. unfitted_domain_binary_part.cpp:168-187. -/
def getCellIds (n : List Nat) (st : Status) (t : Tree) : Option (List Nat) :=
  (traverse (leafChecker st) (pushCells n) t []).map sortIds

/-- Loop of the target version of `get_cell_ids`. unfitted_domain_binary_part.cpp:201-208. -/
def targetLoop (n : List Nat) (st : Status) (t : Tree) : List Nat → Option (List Nat)
  | [] => some []
  | c :: cs =>
    if isInTree n t c then do
      let l ← findLeaf n t c
      let rest ← targetLoop n st t cs
      return (if leafChecker st l then c :: rest else rest)
    else none

/-- `get_cell_ids(status, target_cell_ids, cell_ids)`. unfitted_domain_binary_part.cpp:189-211. -/
def getCellIdsTarget (n : List Nat) (st : Status) (t : Tree) (targets : List Nat) : Option (List Nat) :=
  (targetLoop n st t targets).map sortIds

/-- `get_num_cells`. unfitted_domain_binary_part.cpp:214-221. -/
def getNumCells (st : Status) (t : Tree) : Nat := reduce (leafChecker st) (fun l => l.range.size) t

/-- `get_num_leaves`. unfitted_domain_binary_part.cpp:223-228. -/
def getNumLeaves (st : Status) (t : Tree) : Nat := reduce (leafChecker st) (fun _ => 1) t

/-- `is_cell`. unfitted_domain_binary_part.cpp:230-236. -/
def isCell (n : List Nat) (st : Status) (t : Tree) (c : Nat) : Option Bool :=
  (findLeaf n t c).map fun l => decide (l.status = st)

end Tree
end Qugar
