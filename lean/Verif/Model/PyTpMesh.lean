import Verif.Model.PyNumbering
import Mathlib.Algebra.Field.Defs
/-
Model of the construction of tensor-product meshes: python/qugar/mesh/tp_mesh.py (before DOLFINx renumbers and distributes
the mesh, on rank 0). Coordinates in a field `K`. `none`: an exception or a failed assertion.
-/
namespace Qugar.Py

/-- `n_pts = n_cells * degree + 1`. tp_mesh.py:58, 108, 341. -/
def numPts (d : Nat) (nCells : List Nat) : List Nat := nCells.map fun n => n * d + 1

/-- The nodes of the first cell in lexicographical order. tp_mesh.py:59-79. -/
def firstCellLex (d : Nat) (nCells : List Nat) : Option (List Nat) :=
  let line := arange 0 (d + 1) 1
  match numPts d nCells with
  | [_] => some line
  | [n0, _] => some (outerAdd line (arange 0 ((d + 1) * n0) n0)).flatten
  | [n0, n1, _] =>
    let plane := (outerAdd line (arange 0 ((d + 1) * n0) n0)).flatten
    some (outerAdd plane (arange 0 ((d + 1) * n0 * n1) (n0 * n1))).flatten
  | _ => none

/-- `_create_first_cell_conn_Cartesian`. tp_mesh.py:37-84. -/
def firstCell (d : Nat) (nCells : List Nat) : Option (List Nat) :=
  if d < 1 ∨ nCells.any (· == 0) then none
  else (firstCellLex d nCells).bind fun lex => (dlfToLexicg nCells.length d).bind fun perm => perm.mapM fun i => lex[i]?

/-- `conn.reshape(-1, n)`: `n` consecutive values per row. -/
def reshapeRows (n : Nat) : (rows : Nat) → List Nat → List (List Nat)
  | 0, _ => []
  | r + 1, l => l.take n :: reshapeRows n r (l.drop n)

/-- `_create_tensor_prod_mesh_conn`. tp_mesh.py:87-128. -/
def meshConn (d : Nat) (nCells : List Nat) : Option (List (List Nat)) :=
  if d < 1 ∨ nCells.any (· == 0) then none
  else (firstCell d nCells).bind fun first =>
    match nCells, numPts d nCells with
    | [c0], _ =>
      let conn := outerAdd first (arange 0 (c0 * d) d)
      some (reshapeRows first.length (conn.flatten.length / first.length) conn.flatten)
    | [c0, c1], [n0, _] =>
      let conn := outerAdd first (arange 0 (c0 * d) d)
      let conn := outerAdd conn.flatten (arange 0 (n0 * d * c1) (n0 * d))
      some (reshapeRows first.length (conn.flatten.length / first.length) conn.flatten)
    | [c0, c1, c2], [n0, n1, _] =>
      let conn := outerAdd first (arange 0 (c0 * d) d)
      let conn := outerAdd conn.flatten (arange 0 (n0 * d * c1) (n0 * d))
      let conn := outerAdd conn.flatten (arange 0 (n0 * n1 * d * c2) (n0 * n1 * d))
      some (reshapeRows first.length (conn.flatten.length / first.length) conn.flatten)
    | _, _ => none

section Coordinates
variable {K : Type}

/-- `_create_Cartesian_mesh_nodes_from_points`: one raveled coordinate array per direction (`np.meshgrid`), then the rows.
In one dimension `x` is the array of points itself, `x[0]` its first entry: there is a single row. tp_mesh.py:131-164. -/
def nodesFromPoints : List (List K) → Option (List (List K))
  | [p0] => p0.head?.map fun x => [[x]]
  | [p0, p1] =>
    let x := p1.flatMap fun _ => p0
    let y := p1.flatMap fun b => p0.map fun _ => b
    some (List.zipWith (fun a b => [a, b]) x y)
  | [p0, p1, p2] =>
    let z := p2.flatMap fun c => p1.flatMap fun _ => p0.map fun _ => c
    let y := p2.flatMap fun _ => p1.flatMap fun b => p0.map fun _ => b
    let x := p2.flatMap fun _ => p1.flatMap fun _ => p0
    some (List.zipWith (fun a bc => a :: bc) x (List.zipWith (fun b c => [b, c]) y z))
  | _ => none

/-- `a[start::step] = v` : the number of positions must be the number of values (broadcasting is not needed). -/
def setSlice (a : List K) (start step : Nat) (v : List K) : Option (List K) :=
  if (a.length - start + step - 1) / step = v.length then
    some (a.mapIdx fun k x => if start ≤ k ∧ (k - start) % step = 0 then v.getD ((k - start) / step) x else x)
  else none

variable [Field K]

/-- The points of one direction: breaks and, for degrees above one, equidistant points between them; `junk` are the
values of the uninitialized array. tp_mesh.py:191-206. -/
def interpolate (degree : Nat) (breaks : List K) (junk : Nat → K) : Option (List K) :=
  let nCells := breaks.length - 1
  let pts := (List.range (nCells * degree + 1)).map junk
  (setSlice pts 0 degree breaks).bind fun pts =>
    (List.range' 1 (degree - 1)).foldlM (fun pts (i : Nat) =>
      let c1 : K := (i : K) / (degree : K)
      let c0 : K := 1 - c1
      setSlice pts i degree (List.zipWith (fun a b => c0 * a + c1 * b) breaks.dropLast breaks.tail)) pts

/-- `_create_Cartesian_mesh_nodes_from_cells`. tp_mesh.py:167-208. -/
def nodesFromCells (degree : Nat) (breaks : List (List K)) (junk : Nat → K) : Option (List (List K)) :=
  if degree < 1 ∨ breaks.length < 1 ∨ 3 < breaks.length then none
  else if degree = 1 then nodesFromPoints breaks
  else (breaks.mapM fun b => interpolate degree b junk).bind nodesFromPoints

end Coordinates

end Qugar.Py
