import Verif.Model.PyMesh
/-
Model of the lists of facets: python/qugar/mesh/mesh_facets.py. A list of facets is a list of pairs (cell, local facet): the two
arrays of equal length. The types of the cell numbers (and the assertions on them) are left out. `none`: an exception.
-/
namespace Qugar.Py

/-- Facets given by cell and local facet. mesh_facets.py:46-68. -/
abbrev Facets := List (Nat × Nat)

/-- The order of `np.unique(…, axis=0)` and of structured arrays: by the first entry, then by the second one. -/
def pairLe (p q : Nat × Nat) : Prop := p.1 < q.1 ∨ (p.1 = q.1 ∧ p.2 ≤ q.2)

instance : DecidableRel pairLe := fun p q => by unfold pairLe; infer_instance

/-- `unique`. mesh_facets.py:107-118. -/
def uniqueF (a : Facets) : Facets := (a.insertionSort pairLe).dedup

/-- `as_array`. mesh_facets.py:120-131. -/
def asArray (a : Facets) : List Nat := a.flatMap fun p => [p.1, p.2]

/-- `concatenate`. mesh_facets.py:133-151. -/
def concatF (a b : Facets) : Facets := a ++ b

/-- `aux[:-1][aux[1:] == aux[:-1]]`: the entries equal to the next one. -/
def repeated {α : Type} [DecidableEq α] : List α → List α
  | a :: b :: l => if a = b then a :: repeated (b :: l) else repeated (b :: l)
  | _ => []

/-- `intersect`: `np.intersect1d` sorts the concatenation (of the different values of each array, unless they are assumed to
be different) and keeps the repeated ones. mesh_facets.py:153-192. -/
def intersectF (a b : Facets) (assumeUnique : Bool) : Facets :=
  let a := if assumeUnique then a else uniqueF a
  let b := if assumeUnique then b else uniqueF b
  repeated ((a ++ b).insertionSort pairLe)

/-- `difference`: `np.setdiff1d`. Membership is by search here; numpy's sorted search for arrays assumed to be different is
the same for such arrays only. mesh_facets.py:194-230. -/
def differenceF (a b : Facets) (assumeUnique : Bool) : Facets :=
  let a := if assumeUnique then a else uniqueF a
  let b := if assumeUnique then b else uniqueF b
  a.filter fun p => !b.contains p

/-- The dictionary of `find`: a later facet replaces an equal former one. mesh_facets.py:257-260. -/
def lastIndex (a : Facets) (p : Nat × Nat) : Option Nat :=
  (a.zipIdx.foldl (fun (r : Option Nat) q => if q.1 = p then some q.2 else r) none)

/-- `find`. mesh_facets.py:232-276. -/
def findF (a b : Facets) : Option (List Nat) := b.mapM (lastIndex a)

/-- `to_original`. mesh_facets.py:280-301. -/
def toOriginal (m : PyMesh) (tdim : Nat) (a : Facets) : Option Facets :=
  (m.origCells (a.map Prod.fst)).bind fun cells =>
    (lexicgToDlfFaces tdim).bind fun table =>
      (take table (a.map Prod.snd)).map fun facets => cells.zip facets

/-- `to_DOLFINx`; the cells are -1 when not in the process. mesh_facets.py:303-324. -/
def toDolfinx (argsort : List Int → List Nat) (m : PyMesh) (tdim : Nat) (a : Facets) : Option (List (Int × Nat)) :=
  (m.dlfCells argsort ((a.map Prod.fst).map Int.ofNat)).bind fun cells =>
    (dlfToLexicgFaces tdim).bind fun table =>
      (take table (a.map Prod.snd)).map fun facets => cells.zip facets

/-- The topology of a mesh in a process: facets of each cell and cells of each facet, numbers of the process; the facets owned
by the process are the first ones. -/
structure Topology where
  owned : Nat
  cellFacets : List (List Nat)
  facetCells : List (List Nat)

/-- `get_facet_ids`. mesh_facets.py:326-344. -/
def facetIds (t : Topology) (a : Facets) : Option (List Nat) :=
  a.mapM fun p => (t.cellFacets[p.1]?).bind fun row => row[p.2]?

/-- One facet of `create_facets_from_ids`: its cells (the first one only if `single`) and the position of the facet in them.
mesh_facets.py:422-430. -/
def facetEntries (t : Topology) (single : Bool) (facet : Nat) : Option Facets :=
  (t.facetCells[facet]?).bind fun cells =>
    (if single then cells.take 1 else cells).mapM fun c =>
      (t.cellFacets[c]?).bind fun row => (row.findIdx? (· == facet)).map fun k => (c, k)

/-- `create_facets_from_ids`. There is room for two cells per facet (one if `single`). mesh_facets.py:380-439. -/
def fromIds (t : Topology) (ids : List Nat) (single : Bool) : Option Facets :=
  (ids.mapM (facetEntries t single)).bind fun l =>
    if l.flatten.length ≤ (if single then ids.length else ids.length * 2) then some l.flatten else none

/-- `exterior_facet_indices` of DOLFINx: the facets owned by the process with one cell (not shared with other
processes). -/
def exteriorIds (t : Topology) (shared : Nat → Bool) : List Nat :=
  (List.range t.owned).filter fun f => (t.facetCells.getD f []).length == 1 && !shared f

/-- `create_exterior_mesh_facets`. mesh_facets.py:441-454. -/
def exteriorFacets (t : Topology) (shared : Nat → Bool) : Option Facets := fromIds t (exteriorIds t shared) true

/-- `create_interior_mesh_facets`; `range` is the `local_range` of the index map, in global numbers. mesh_facets.py:456-485. -/
def interiorFacets (t : Topology) (shared : Nat → Bool) (range : Nat × Nat) (single : Bool) : Option Facets :=
  fromIds t ((List.range' range.1 (range.2 - range.1)).filter fun f => !(exteriorIds t shared).contains f) single

/-- `create_all_mesh_facets`. mesh_facets.py:487-510. -/
def allFacets (t : Topology) (range : Nat × Nat) (single : Bool) : Option Facets :=
  fromIds t (List.range' range.1 (range.2 - range.1)) single

end Qugar.Py
