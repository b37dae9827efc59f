import Verif.Model.Mesh
import Verif.Model.CreateReparam
import Verif.Model.PyNumbering
import Verif.Model.PyMesh
/-
Model of python/qugar/reparam/reparam.py (meshes of DOLFINx for reparameterizations) and of the wrappers of
python/nanobind_wrappers/reparam.cpp. `none`: an exception (or a failed assertion). External: DOLFINx (`dolfinx.mesh.create_mesh`, modelled
by `dolfinxCells` below) and basix (the element of the coordinates).
-/
namespace Qugar.Py.Reparam
open Mesh Tree

variable {K : Type} [Field K] [LinearOrder K]

/-- `get_conn_array`: the connectivity as an array with `n` columns. nanobind_wrappers/reparam.cpp:40-51. -/
def connArray (conn : List Nat) (n : Nat) : Option (List (List Nat)) :=
  if conn.isEmpty then some []
  else if conn.length % n = 0 then some (chunks n conn) else none

/-- The property `cells_conn`. nanobind_wrappers/reparam.cpp:82-86. -/
def cellsConn (m : Mesh K) : Option (List (List Nat)) := connArray m.conn (ppc m)

/-- The property `wirebasket_conn`. nanobind_wrappers/reparam.cpp:87-93. -/
def wirebasketConn (m : Mesh K) : Option (List (List Nat)) := connArray m.wires m.order

/-- `UnfDomainReparamMesh.create_mesh`: the connectivity given to DOLFINx, `conn[:, conn_mask]` (the points are `m.points`). reparam.py:111-168. -/
def createMesh (m : Mesh K) (wirebasket : Bool) : Option (List (List Nat)) := do
  let degree := m.order - 1
  let conn ← if wirebasket then wirebasketConn m else cellsConn m
  let tdim := if wirebasket then 1 else m.dim
  let mask ← dlfToLexicg tdim degree
  conn.mapM fun row => take row mask

/-- `create_reparam_mesh`: the reparameterization of the whole domain, points not merged. reparam.py:171-192. -/
def createReparamMesh (cheb : Nat → Nat → K) (srt : (Nat → K) → List Nat → List Nat) (srtE : List (List Nat) → List (List Nat)) (tol : K)
    (g : Grid K) (t : Tree) (levelset : Bool) (cutCell : Mesh K → Box K → Option (Mesh K)) (degree : Nat) : Option (Mesh K) :=
  if 0 < degree then createReparamAll cheb srt srtE tol g t levelset cutCell (degree + 1) false else none

/-- `identity_partitioner`: the rank of destination of every cell, from the array of the corners of the cells (`tdim` is the position
of the type of the cells in the list of the accepted types, plus one). reparam.py:34-72. -/
def identityPartitioner (rank tdim : Nat) (corners : List Nat) : List Nat := List.replicate (corners.length / 2 ^ tdim) rank

/-- What a process gives to `dolfinx.mesh.create_mesh`: its block of points, its cells, and the partitioner (from the array of the corners
of its cells). -/
structure Input (K : Type) where
  points : List (List K)
  cells : List (List Nat)
  dest : List Nat

/-- The arguments given by the process `rank`. The corners of a cell are its first `2 ^ tdim` nodes. reparam.py:168. -/
def input (m : Mesh K) (wirebasket : Bool) (rank : Nat) : Option (Input K) := do
  let cells ← createMesh m wirebasket
  let tdim := if wirebasket then 1 else m.dim
  some ⟨m.points, cells, identityPartitioner rank tdim (cells.flatMap fun c => c.take (2 ^ tdim))⟩

/-- External, `dolfinx.mesh.create_mesh`: the cells owned by process `rank`, each as the list of the coordinates of its nodes. The cells
given by all the processes go to their destinations; the numbers of the nodes refer to the concatenation of the points of all the
processes. -/
def dolfinxCells (inputs : List (Input K)) (rank : Nat) : List (List (List K)) :=
  let points := inputs.flatMap Input.points
  inputs.flatMap fun i => ((List.zip i.cells i.dest).filter fun cd => decide (cd.2 = rank)).map fun cd => cd.1.map fun n => points.getD n []

end Qugar.Py.Reparam
