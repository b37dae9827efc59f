import Verif.Model.PyNumbering
import Mathlib.Data.List.Dedup
import Mathlib.Data.List.Sort
/-
Model of the numbering of cells and nodes of meshes: python/qugar/mesh/mesh.py, and of the faces of tensor-product meshes:
python/qugar/mesh/tp_mesh.py. `none`: an exception or a failed assertion.

External: `argsort` (numpy's sort is not stable: any sorting permutation), the pairs of close points found by the k-d tree of
scipy (in any order), and what DOLFINx reports about the created mesh (original_cell_index, input_global_indices, facets).
-/
namespace Qugar.Py

/-! ### Arrays -/

/-- `a[idx]` for an array of indices. -/
def take {α : Type} (a : List α) (idx : List Nat) : Option (List α) := idx.mapM fun i => a[i]?

/-- `np.unique`: the different values in increasing order. -/
def npUnique (l : List Nat) : List Nat := (l.insertionSort (· ≤ ·)).dedup

/-- `np.searchsorted(a, v)` (side left) for a sorted array: the number of values below `v`. -/
def searchSorted (a : List Int) (v : Int) : Nat := (a.takeWhile (· < v)).length

/-- `_find_in_array`. mesh.py:111-134. `np.take(…, mode="clip")` raises for an empty array. -/
def findInArray (argsort : List Int → List Nat) (values all : List Int) : Option (List Int) :=
  let index := argsort all
  (take all index).bind fun sorted =>
    values.mapM fun v =>
      (index[min (searchSorted sorted v) (index.length - 1)]?).bind fun i =>
        (all[i]?).map fun a => if a != v then -1 else (i : Int)

/-! ### Merging of nodes -/

/-- `slave_to_master` before the loop: with repeated indices the last assignment remains. mesh.py:83-88. -/
def slaveToMaster (n : Nat) (pairs : List (Nat × Nat)) : List Nat :=
  pairs.foldl (fun a p => a.set p.2 p.1) (List.range n)

/-- `while not convergence`. mesh.py:90-95. `none` when the fuel is over. -/
def converge : (fuel : Nat) → List Nat → Option (List Nat)
  | 0, _ => none
  | fuel + 1, s => (take s s).bind fun s' => if s' = s then some s' else converge fuel s'

/-- `master_to_new_ordering`; `junk` are the values of the uninitialized array. mesh.py:98-99. -/
def masterToNew (n : Nat) (unique : List Nat) (junk : Nat → Nat) : List Nat :=
  unique.zipIdx.foldl (fun a p => a.set p.1 p.2) ((List.range n).map junk)

/-- `_merge_coincident_points_in_mesh`, given the pairs returned by `query_pairs`. mesh.py:36-108. -/
def mergePoints {P : Type} (fuel : Nat) (nodes : List P) (conn : List (List Nat)) (pairs : List (Nat × Nat)) (junk : Nat → Nat) :
    Option (List P × List (List Nat) × List Nat) :=
  (converge fuel (slaveToMaster nodes.length pairs)).bind fun s2m =>
    let unique := npUnique s2m
    (take (masterToNew nodes.length unique junk) s2m).bind fun oldToNew =>
      (take nodes unique).bind fun newNodes =>
        (conn.mapM fun row => take oldToNew row).map fun newConn => (newNodes, newConn, oldToNew)

/-! ### Cells and nodes -/

/-- The stored data of `Mesh` and what DOLFINx reports: `original_cell_index`, `input_global_indices`. -/
structure PyMesh where
  active : Option (List Nat)
  mergedMap : List Nat
  cellIndex : List Nat
  nodeIndex : List Nat

/-- The stored active cells. mesh.py:362-364. On the ranks other than 0 the connectivity is empty (tp_mesh.py:321-332). -/
def storedActive (active : Option (List Nat)) (conn : List (List Nat)) : Option (List Nat) :=
  match active with
  | some l => if l.length = conn.length then none else some l
  | none => none

/-- The cells, the nodes and the map of merged nodes on rank 0: what is passed to DOLFINx. mesh.py:362-374. `merge` is
`some` pairs of close points when `merge_nodes`. -/
def passedMesh {P : Type} (fuel : Nat) (nodes : List P) (conn : List (List Nat)) (active : Option (List Nat))
    (merge : Option (List (Nat × Nat))) (junk : Nat → Nat) : Option (List P × List (List Nat) × List Nat) :=
  (match storedActive active conn with
    | some l => take conn l
    | none => some conn).bind fun conn =>
      match merge with
      | some pairs => mergePoints fuel nodes conn pairs junk
      | none => some (nodes, conn, [])

/-- `get_DOLFINx_local_cell_ids`. mesh.py:396-421. -/
def PyMesh.dlfCells (argsort : List Int → List Nat) (m : PyMesh) (orig : List Int) : Option (List Int) :=
  (match m.active with
    | some l => findInArray argsort orig (l.map Int.ofNat)
    | none => some orig).bind fun orig => findInArray argsort orig (m.cellIndex.map Int.ofNat)

/-- `get_original_cell_ids`. mesh.py:465-491. -/
def PyMesh.origCells (m : PyMesh) (dlf : List Nat) : Option (List Nat) :=
  (take m.cellIndex dlf).bind fun orig =>
    match m.active with
    | some l => take l orig
    | none => some orig

/-- `get_DOLFINx_local_node_ids`. mesh.py:493-521. -/
def PyMesh.dlfNodes (argsort : List Int → List Nat) (m : PyMesh) (orig : List Nat) : Option (List Int) :=
  (if 0 < m.mergedMap.length then take m.mergedMap orig else some orig).bind fun orig =>
    findInArray argsort (orig.map Int.ofNat) (m.nodeIndex.map Int.ofNat)

/-- `get_original_node_ids`. mesh.py:523-550. -/
def PyMesh.origNodes (argsort : List Int → List Nat) (m : PyMesh) (dlf : List Nat) : Option (List Int) :=
  (take m.nodeIndex dlf).bind fun orig =>
    if 0 < m.mergedMap.length then findInArray argsort (orig.map Int.ofNat) (m.mergedMap.map Int.ofNat)
    else some (orig.map Int.ofNat)

/-- `get_all_original_cell_ids`. mesh.py:573-581. -/
def PyMesh.allOrigCells (m : PyMesh) (numLocal : Nat) : Option (List Nat) := m.origCells (List.range numLocal)

/-! ### Faces of tensor-product meshes -/

/-- `get_face_DOLFINx_cells`. tp_mesh.py:395-414. -/
def faceCells (argsort : List Int → List Nat) (m : PyMesh) (nCells : List Nat) (fid : Nat) : Option (List Int) :=
  (Py.face nCells fid true).bind fun lex =>
    (m.dlfCells argsort (lex.map Int.ofNat)).map fun cells => (cells.filter (0 ≤ ·)).insertionSort (· ≤ ·)

/-- `get_face_facets`; `cellFacets` are the facets of each local cell in the order of DOLFINx. tp_mesh.py:416-438. -/
def faceFacets (argsort : List Int → List Nat) (m : PyMesh) (nCells : List Nat) (cellFacets : List (List Nat)) (fid : Nat) :
    Option (List Nat) :=
  (faceCells argsort m nCells fid).bind fun cells =>
    (cells.mapM fun c => (cellFacets[c.toNat]?).bind fun row => row[fid]?).map npUnique

end Qugar.Py
