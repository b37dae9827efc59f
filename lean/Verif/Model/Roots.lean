import Verif.Model.Tolerance
/-
Model of the local numbering of facets and edges and of `RootsIntervals` (cpp/qugar/impl_utils.cpp). Assertions are
modelled by `none`.
-/
namespace Qugar.Ids

/-- `get_facet_constant_dir`. impl_utils.cpp:38-43. -/
def facetConstantDir (dim facet : Nat) : Option Nat := if facet < dim * 2 then some (facet / 2) else none
/-- `get_facet_side`. impl_utils.cpp:45-50. -/
def facetSide (dim facet : Nat) : Option Nat := if facet < dim * 2 then some (facet % 2) else none
/-- `get_local_facet_id`. impl_utils.cpp:52-57. -/
def localFacetId (dim dir side : Nat) : Option Nat :=
  if dir < dim then if side ≤ 1 then some (dir * 2 + side) else none else none

/-- `get_edge_constant_dirs`. impl_utils.cpp:59-75; only instantiated for dimensions 2 and 3. -/
def edgeConstantDirs (dim edge : Nat) : Option (List Nat) :=
  if dim = 2 then (facetConstantDir 2 edge).map fun d => [d]
  else if edge < 12 then
    if edge < 4 then some [0, 1] else if edge < 8 then some [0, 2] else some [1, 2]
  else none

/-- `get_edge_sides`. impl_utils.cpp:77-87. -/
def edgeSides (dim edge : Nat) : Option (List Nat) :=
  if dim = 2 then (facetSide 2 edge).map fun s => [s]
  else if edge < 12 then some [edge % 2, (edge / 2) % 2] else none

end Qugar.Ids

namespace Qugar.Roots
variable {K : Type} [Field K] [LinearOrder K]

/-- A root and the id of its function (-1: end of the interval). The containers `roots`, `func_ids` and `roots_ids` of
`RootsIntervals` always hold the same data (`add_root`, impl_utils.cpp:111-117) and are modelled by one list. -/
abbrev Root (K : Type) := K × Int

/-- State of the loop of `adjust_roots`. -/
structure Loop (K : Type) where
  out : List (Root K)
  hasX0 : Bool
  hasX1 : Bool

/-- One iteration of the loop of `adjust_roots`; `prev` is the previous old root, if any. impl_utils.cpp:167-192. -/
def step (tol x0 x1 : K) (prev : Option K) (r : Root K) (s : Loop K) : Loop K :=
  if Tol.equal tol r.1 x0 then
    if r.2 = -1 then { s with hasX0 := true } else { s with out := s.out ++ [(x0, r.2)] }
  else if Tol.equal tol r.1 x1 then
    if r.2 = -1 then { s with hasX1 := true } else { s with out := s.out ++ [(x1, r.2)] }
  else
    match prev with
    | some q => if Tol.equal tol r.1 q then { s with out := s.out ++ [(q, r.2)] } else { s with out := s.out ++ [r] }
    | none => { s with out := s.out ++ [r] }

/-- The loop of `adjust_roots`. -/
def loop (tol x0 x1 : K) : Option K → List (Root K) → Loop K → Loop K
  | _, [], s => s
  | prev, r :: rs, s => loop tol x0 x1 (some r.1) rs (step tol x0 x1 prev r s)

/-- `RootsIntervals::adjust_roots` after the call to `sort_roots`: `old` is the sorted list. impl_utils.cpp:143-208
(`std::sort` is not stable: the theorems hold for every sorted permutation of the roots). -/
def adjust (tol x0 x1 : K) (old : List (Root K)) : List (Root K) :=
  if old.isEmpty then [] else
  let s := loop tol x0 x1 none old ⟨[(x0, -1)], false, false⟩
  let out := if s.hasX0 then s.out else s.out.eraseIdx 0
  if s.hasX1 then out ++ [(x1, -1)] else out

end Qugar.Roots
