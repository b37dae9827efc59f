import Verif.Model.Tensor
/-
Model of `create_VTU_conn_mask` and `get_VTK_cell_type` (cpp/qugar/reparam_mesh.cpp:59-247). The lists of tensor indices
pushed to the mask come first, then their flat indices. `none`: a failed assertion.
-/
namespace Qugar.Vtu

/-- `get_VTK_cell_type`. reparam_mesh.cpp:59-69. -/
def cellType (dim order : Nat) : Option Nat :=
  if 1 < order then
    if order = 2 then some (if dim = 1 then 3 else if dim = 2 then 9 else 12)
    else some (if dim = 1 then 68 else if dim = 2 then 70 else 72)
  else none

/-- `for (int i = 1; i < (order - 1); ++i)`. -/
def mid (n : Nat) : List Nat := List.range' 1 (n - 2)

/-- `create_VTU_conn_mask<1>`. reparam_mesh.cpp:84-101. -/
def tids1 (n : Nat) : List (List Nat) := [[0], [n - 1]] ++ (mid n).map fun i => [i]

/-- `create_VTU_conn_mask<2>`. reparam_mesh.cpp:103-142. -/
def tids2 (n : Nat) : List (List Nat) :=
  [[0, 0], [n - 1, 0], [n - 1, n - 1], [0, n - 1]]
  ++ ((mid n).map fun i => [i, 0])
  ++ ((mid n).map fun j => [n - 1, j])
  ++ ((mid n).map fun i => [i, n - 1])
  ++ ((mid n).map fun j => [0, j])
  ++ ((mid n).flatMap fun j => (mid n).map fun i => [i, j])

/-- Vertices of `create_VTU_conn_mask<3>`. reparam_mesh.cpp:157-165. -/
def vertices3 (n : Nat) : List (List Nat) :=
  [[0, 0, 0], [n - 1, 0, 0], [n - 1, n - 1, 0], [0, n - 1, 0],
   [0, 0, n - 1], [n - 1, 0, n - 1], [n - 1, n - 1, n - 1], [0, n - 1, n - 1]]

/-- Edges of `create_VTU_conn_mask<3>` (one inner list per loop). reparam_mesh.cpp:167-203. -/
def edges3 (n : Nat) : List (List (List Nat)) :=
  [(mid n).map fun i => [i, 0, 0],
   (mid n).map fun j => [n - 1, j, 0],
   (mid n).map fun i => [i, n - 1, 0],
   (mid n).map fun j => [0, j, 0],
   (mid n).map fun i => [i, 0, n - 1],
   (mid n).map fun j => [n - 1, j, n - 1],
   (mid n).map fun i => [i, n - 1, n - 1],
   (mid n).map fun j => [0, j, n - 1],
   (mid n).map fun k => [0, 0, k],
   (mid n).map fun k => [n - 1, 0, k],
   (mid n).map fun k => [0, n - 1, k],
   (mid n).map fun k => [n - 1, n - 1, k]]

/-- Faces of `create_VTU_conn_mask<3>` (one inner list per nested loop). reparam_mesh.cpp:205-235. -/
def faces3 (n : Nat) : List (List (List Nat)) :=
  [(mid n).flatMap fun k => (mid n).map fun j => [0, j, k],
   (mid n).flatMap fun k => (mid n).map fun j => [n - 1, j, k],
   (mid n).flatMap fun k => (mid n).map fun i => [i, 0, k],
   (mid n).flatMap fun k => (mid n).map fun i => [i, n - 1, k],
   (mid n).flatMap fun j => (mid n).map fun i => [i, j, 0],
   (mid n).flatMap fun j => (mid n).map fun i => [i, j, n - 1]]

/-- Interior of `create_VTU_conn_mask<3>`. reparam_mesh.cpp:237-244. -/
def interior3 (n : Nat) : List (List Nat) :=
  (mid n).flatMap fun k => (mid n).flatMap fun j => (mid n).map fun i => [i, j, k]

/-- `create_VTU_conn_mask<3>`. reparam_mesh.cpp:145-247. -/
def tids3 (n : Nat) : List (List Nat) := vertices3 n ++ (edges3 n).flatten ++ (faces3 n).flatten ++ interior3 n

/-- The indices pushed, for `dim` 1, 2 and 3. -/
def tids (dim n : Nat) : List (List Nat) := if dim = 1 then tids1 n else if dim = 2 then tids2 n else tids3 n

/-- `create_VTU_conn_mask<dim>`. reparam_mesh.cpp:82-247. -/
def mask (dim order : Nat) : Option (List Nat) :=
  if 1 < order then (tids dim order).mapM fun t => flat t (List.replicate dim order) else none

/-- The entries of the connectivity written for one cell (`cell` is the subspan of the connectivity).
reparam_mesh.cpp:293-298. -/
def writeCell (dim order : Nat) (cell : List Nat) : Option (List Nat) := do
  let m ← mask dim order
  m.mapM fun k => cell[k]?

end Qugar.Vtu
