/-
Model of the numbering utilities of the Python layer: python/qugar/mesh/utils.py and python/qugar/mesh/tp_index.py.
Arrays of indices are lists of naturals, two-dimensional arrays lists of rows. `none`: an exception or a failed assertion.
-/
namespace Qugar.Py

/-! ### mesh/utils.py -/

/-- `_invert_map`. utils.py:17-28. `np.where(...)[0][0]` raises when there is no occurrence. -/
def invertMap (m : List Nat) : Option (List Nat) := (List.range m.length).mapM fun i => m.findIdx? (· == i)

/-- `for i in range(1, degree)`. -/
def inner (degree : Nat) : List Nat := List.range' 1 (degree - 1)

/-- `_tensor_to_flat` (nested functions). utils.py:118-119, 171-172, 336-337, 384-385. -/
def tensorToFlat (degree : Nat) : List Nat → Nat
  | [u] => u
  | [u, v] => u + v * (degree + 1)
  | [u, v, w] => u + v * (degree + 1) + w * (degree + 1) * (degree + 1)
  | _ => 0

/-- `_VTK_to_lexicg_1D_nodes`, before flattening. utils.py:63-91. -/
def vtk1 (d : Nat) : List (List Nat) := [[0], [d]] ++ (inner d).map fun i => [i]

/-- `_VTK_to_lexicg_2D_nodes`, before flattening. utils.py:94-144. -/
def vtk2 (d : Nat) : List (List Nat) :=
  [[0, 0], [d, 0], [d, d], [0, d]]
  ++ ((inner d).map fun u => [u, 0])
  ++ ((inner d).map fun v => [d, v])
  ++ ((inner d).map fun u => [u, d])
  ++ ((inner d).map fun v => [0, v])
  ++ ((inner d).flatMap fun v => (inner d).map fun u => [u, v])

/-- Vertices of `_VTK_to_lexicg_3D_nodes`. utils.py:176-184. -/
def vtkVertices3 (d : Nat) : List (List Nat) :=
  [[0, 0, 0], [d, 0, 0], [d, d, 0], [0, d, 0], [0, 0, d], [d, 0, d], [d, d, d], [0, d, d]]

/-- Edges of `_VTK_to_lexicg_3D_nodes`, one list per loop. utils.py:186-210. -/
def vtkEdges3 (d : Nat) : List (List (List Nat)) :=
  [(inner d).map fun u => [u, 0, 0],
   (inner d).map fun v => [d, v, 0],
   (inner d).map fun u => [u, d, 0],
   (inner d).map fun v => [0, v, 0],
   (inner d).map fun u => [u, 0, d],
   (inner d).map fun v => [d, v, d],
   (inner d).map fun u => [u, d, d],
   (inner d).map fun v => [0, v, d],
   (inner d).map fun w => [0, 0, w],
   (inner d).map fun w => [d, 0, w],
   (inner d).map fun w => [d, d, w],
   (inner d).map fun w => [0, d, w]]

/-- Faces of `_VTK_to_lexicg_3D_nodes`, one list per nested loop. utils.py:212-230. -/
def vtkFaces3 (d : Nat) : List (List (List Nat)) :=
  [(inner d).flatMap fun w => (inner d).map fun v => [0, v, w],
   (inner d).flatMap fun w => (inner d).map fun v => [d, v, w],
   (inner d).flatMap fun w => (inner d).map fun u => [u, 0, w],
   (inner d).flatMap fun w => (inner d).map fun u => [u, d, w],
   (inner d).flatMap fun v => (inner d).map fun u => [u, v, 0],
   (inner d).flatMap fun v => (inner d).map fun u => [u, v, d]]

/-- Interior of `_VTK_to_lexicg_3D_nodes` and `_DOLFINx_to_lexicg_3D_nodes`. utils.py:232-236, 448-452. -/
def interior3 (d : Nat) : List (List Nat) :=
  (inner d).flatMap fun w => (inner d).flatMap fun v => (inner d).map fun u => [u, v, w]

/-- `_VTK_to_lexicg_3D_nodes`, before flattening. utils.py:147-238. -/
def vtk3 (d : Nat) : List (List Nat) :=
  vtkVertices3 d ++ (vtkEdges3 d).flatten ++ (vtkFaces3 d).flatten ++ interior3 d

/-- The choice by dimension of `VTK_to_lexicg_nodes`, and its assertions. utils.py:52-60. -/
def vtkTids (dim d : Nat) : Option (List (List Nat)) :=
  if d < 1 then none
  else match dim with
    | 1 => some (vtk1 d)
    | 2 => some (vtk2 d)
    | 3 => some (vtk3 d)
    | _ => none

/-- `VTK_to_lexicg_nodes`. utils.py:31-60. -/
def vtkToLexicg (dim d : Nat) : Option (List Nat) := (vtkTids dim d).map (·.map (tensorToFlat d))

/-- `_DOLFINx_to_lexicg_1D_nodes`, before flattening. utils.py:292-315. -/
def dlf1 (d : Nat) : List (List Nat) := [[0], [d]] ++ (inner d).map fun i => [i]

/-- `_DOLFINx_to_lexicg_2D_nodes`, before flattening. utils.py:318-362. -/
def dlf2 (d : Nat) : List (List Nat) :=
  [[0, 0], [d, 0], [0, d], [d, d]]
  ++ ((inner d).map fun u => [u, 0])
  ++ ((inner d).map fun v => [0, v])
  ++ ((inner d).map fun v => [d, v])
  ++ ((inner d).map fun u => [u, d])
  ++ ((inner d).flatMap fun v => (inner d).map fun u => [u, v])

/-- Vertices of `_DOLFINx_to_lexicg_3D_nodes`. utils.py:389-397. -/
def dlfVertices3 (d : Nat) : List (List Nat) :=
  [[0, 0, 0], [d, 0, 0], [0, d, 0], [d, d, 0], [0, 0, d], [d, 0, d], [0, d, d], [d, d, d]]

/-- Edges of `_DOLFINx_to_lexicg_3D_nodes`, one list per loop. utils.py:399-426. -/
def dlfEdges3 (d : Nat) : List (List (List Nat)) :=
  [(inner d).map fun u => [u, 0, 0],
   (inner d).map fun v => [0, v, 0],
   (inner d).map fun w => [0, 0, w],
   (inner d).map fun v => [d, v, 0],
   (inner d).map fun w => [d, 0, w],
   (inner d).map fun u => [u, d, 0],
   (inner d).map fun w => [0, d, w],
   (inner d).map fun w => [d, d, w],
   (inner d).map fun u => [u, 0, d],
   (inner d).map fun v => [0, v, d],
   (inner d).map fun v => [d, v, d],
   (inner d).map fun u => [u, d, d]]

/-- Faces of `_DOLFINx_to_lexicg_3D_nodes`, one list per nested loop. utils.py:428-446. -/
def dlfFaces3 (d : Nat) : List (List (List Nat)) :=
  [(inner d).flatMap fun v => (inner d).map fun u => [u, v, 0],
   (inner d).flatMap fun w => (inner d).map fun u => [u, 0, w],
   (inner d).flatMap fun w => (inner d).map fun v => [0, v, w],
   (inner d).flatMap fun w => (inner d).map fun v => [d, v, w],
   (inner d).flatMap fun w => (inner d).map fun u => [u, d, w],
   (inner d).flatMap fun v => (inner d).map fun u => [u, v, d]]

/-- `_DOLFINx_to_lexicg_3D_nodes`, before flattening. utils.py:365-454. -/
def dlf3 (d : Nat) : List (List Nat) :=
  dlfVertices3 d ++ (dlfEdges3 d).flatten ++ (dlfFaces3 d).flatten ++ interior3 d

/-- The choice by dimension of `DOLFINx_to_lexicg_nodes`, and its assertions. utils.py:281-289. -/
def dlfTids (dim d : Nat) : Option (List (List Nat)) :=
  if d < 1 then none
  else match dim with
    | 1 => some (dlf1 d)
    | 2 => some (dlf2 d)
    | 3 => some (dlf3 d)
    | _ => none

/-- `DOLFINx_to_lexicg_nodes`. utils.py:267-289. -/
def dlfToLexicg (dim d : Nat) : Option (List Nat) := (dlfTids dim d).map (·.map (tensorToFlat d))

/-- `lexicg_to_VTK_nodes`. utils.py:241-264. -/
def lexicgToVtk (dim d : Nat) : Option (List Nat) := (vtkToLexicg dim d).bind invertMap

/-- `lexicg_to_DOLFINx_nodes`. utils.py:457-472. -/
def lexicgToDlf (dim d : Nat) : Option (List Nat) := (dlfToLexicg dim d).bind invertMap

/-- `DOLFINx_to_VTK_nodes`. utils.py:475-499. -/
def dlfToVtk (dim d : Nat) : Option (List Nat) :=
  (dlfToLexicg dim d).bind fun dl => (lexicgToVtk dim d).bind fun lv => dl.mapM fun i => lv[i]?

/-- `VTK_to_DOLFINx_nodes`. utils.py:502-526. -/
def vtkToDlf (dim d : Nat) : Option (List Nat) :=
  (vtkToLexicg dim d).bind fun vl => (lexicgToDlf dim d).bind fun ld => vl.mapM fun i => ld[i]?

/-- `lexicg_to_DOLFINx_faces`. utils.py:533-554. -/
def lexicgToDlfFaces : Nat → Option (List Nat)
  | 1 => some [0, 1]
  | 2 => some [2, 0, 1, 3]
  | 3 => some [4, 2, 0, 1, 3, 5]
  | _ => none

/-- `DOLFINx_to_lexicg_faces`. utils.py:558-579. -/
def dlfToLexicgFaces : Nat → Option (List Nat)
  | 1 => some [0, 1]
  | 2 => some [1, 2, 0, 3]
  | 3 => some [2, 3, 1, 4, 0, 5]
  | _ => none

/-- `lexicg_to_VTK_faces`. utils.py:583-602. -/
def lexicgToVtkFaces : Nat → Option (List Nat)
  | 1 => some [0, 1]
  | 2 => some [2, 1, 3, 0]
  | 3 => some [2, 4, 0, 1, 3, 5]
  | _ => none

/-- `VTK_to_lexicg_faces`. utils.py:606-625. -/
def vtkToLexicgFaces : Nat → Option (List Nat)
  | 1 => some [0, 1]
  | 2 => some [3, 1, 0, 2]
  | 3 => some [2, 3, 0, 4, 1, 5]
  | _ => none

/-- `lexicg_to_DOLFINx_edges`. utils.py:629-648. -/
def lexicgToDlfEdges (dim : Nat) : Option (List Nat) :=
  if dim < 3 then lexicgToDlfFaces dim
  else if dim = 3 then some [8, 4, 0, 5, 2, 9, 1, 3, 10, 6, 7, 11]
  else none

/-- `DOLFINx_to_lexicg_edges`. utils.py:652-671. -/
def dlfToLexicgEdges (dim : Nat) : Option (List Nat) :=
  if dim < 3 then dlfToLexicgFaces dim
  else if dim = 3 then some [2, 6, 4, 7, 1, 3, 9, 10, 0, 5, 8, 11]
  else none

/-! ### mesh/tp_index.py -/

/-- `np.arange(start, stop, step)` for a positive step. -/
def arange (start stop step : Nat) : List Nat :=
  (List.range ((stop - start + step - 1) / step)).map fun i => start + i * step

/-- `a + column`, `a` one-dimensional and the column of shape `(n, 1)`: row `i` is `a + column[i]`. -/
def outerAdd (a column : List Nat) : List (List Nat) := column.map fun c => a.map (· + c)

/-- `a + column`, `a` two-dimensional: the rules of broadcasting. -/
def broadcastAdd (a : List (List Nat)) (column : List Nat) : Option (List (List Nat)) :=
  if a.length = column.length then some (List.zipWith (fun r c => r.map (· + c)) a column)
  else match a, column with
    | [r], _ => some (column.map fun c => r.map (· + c))
    | _, [c] => some (a.map fun r => r.map (· + c))
    | _, _ => none

/-- `TensorProdIndex.get_all_corners`. tp_index.py:48-74. -/
def allCorners : List Nat → Option (List Nat)
  | [n0] => some [0, n0 - 1]
  | [n0, n1] => some ([0, n0 - 1] ++ [0, n0 - 1].map (· + n0 * (n1 - 1)))
  | [n0, n1, n2] =>
    let c2 := [0, n0 - 1] ++ [0, n0 - 1].map (· + n0 * (n1 - 1))
    some (c2 ++ c2.map (· + n0 * n1 * (n2 - 1)))
  | _ => none

/-- `TensorProdIndex.get_all_internal` in one dimension. tp_index.py:94-95. -/
def internal1 (n0 : Nat) : List Nat := arange 1 (n0 - 1) 1

/-- `TensorProdIndex.get_all_internal` in two dimensions (a two-dimensional array). tp_index.py:96-100. -/
def internal2 (n0 n1 : Nat) : List (List Nat) := outerAdd (internal1 n0) (arange n0 (n0 * (n1 - 1)) n0)

/-- `TensorProdIndex.get_all_internal` in three dimensions (a two-dimensional array). tp_index.py:101-108. -/
def internal3 (n0 n1 n2 : Nat) : Option (List (List Nat)) :=
  broadcastAdd (internal2 n0 n1) (arange (n0 * n1) (n0 * n1 * (n2 - 1)) (n0 * n1))

/-- The values of `TensorProdIndex.get_all_internal`, in the order of the (one or two-dimensional) array.
tp_index.py:77-108. -/
def allInternal : List Nat → Option (List Nat)
  | [n0] => some (internal1 n0)
  | [n0, n1] => some (internal2 n0 n1).flatten
  | [n0, n1, n2] => (internal3 n0 n1 n2).map List.flatten
  | _ => none

/-- `TensorProdIndex.get_corner`. tp_index.py:187-209. -/
def corner (n : List Nat) (c : Nat) : Option Nat := (allCorners n).bind fun l => l[c]?

/-- `TensorProdIndex.get_face` with `lexicg=True`. tp_index.py:238-275. -/
def faceLex (n : List Nat) (f : Nat) : Option (List Nat) :=
  match n with
  | [_] => if f < 2 then (corner n f).map fun c => [c] else none
  | [n0, n1] =>
    match f with
    | 0 => some (arange 0 (n0 * n1) n0)
    | 1 => some ((arange 0 (n0 * n1) n0).map (· + n0 - 1))
    | 2 => some (arange 0 n0 1)
    | 3 => some ((arange 0 n0 1).map (· + n0 * (n1 - 1)))
    | _ => none
  | [n0, n1, n2] =>
    match f with
    | 0 => some (arange 0 (n0 * n1 * n2) n0)
    | 1 => some ((arange 0 (n0 * n1 * n2) n0).map (· + n0 - 1))
    | 2 => some (outerAdd (arange 0 n0 1) (arange 0 (n0 * n1 * n2) (n0 * n1))).flatten
    | 3 => some ((outerAdd (arange 0 n0 1) (arange 0 (n0 * n1 * n2) (n0 * n1))).flatten.map (· + n0 * (n1 - 1)))
    | 4 => some (arange 0 (n0 * n1) 1)
    | 5 => some ((arange 0 (n0 * n1) 1).map (· + n0 * n1 * (n2 - 1)))
    | _ => none
  | _ => none

/-- `TensorProdIndex.get_face`. tp_index.py:212-275. -/
def face (n : List Nat) (f : Nat) (lexicg : Bool) : Option (List Nat) :=
  if lexicg then faceLex n f
  else (lexicgToDlfFaces n.length).bind fun t => t[f]?.bind fun g => faceLex n g

/-- `TensorProdIndex.get_all_faces` in two dimensions: the slices assigned one after the other fill the array when there
are at least two indices per direction (simplification: they are concatenated). tp_index.py:130-139. -/
def allFaces2D (n0 n1 : Nat) : Option (List Nat) :=
  (faceLex [n0, n1] 2).bind fun lower => (faceLex [n0, n1] 3).map fun upper =>
    lower ++ ((List.range' 1 (n1 - 2)).flatMap fun j => [j * n0, (j + 1) * n0 - 1]) ++ upper

/-- `TensorProdIndex.get_all_faces` (same simplification). tp_index.py:111-157. -/
def allFaces : List Nat → Option (List Nat)
  | [n0] => allCorners [n0]
  | [n0, n1] => allFaces2D n0 n1
  | [n0, n1, n2] =>
    (faceLex [n0, n1, n2] 4).bind fun lower => (faceLex [n0, n1, n2] 5).bind fun upper =>
      (allFaces2D n0 n1).map fun b2 =>
        lower ++ ((List.range' 1 (n2 - 2)).flatMap fun k => b2.map (· + k * (n0 * n1))) ++ upper
  | _ => none

/-- `TensorProdIndex.get_edge` with `lexicg=True`. tp_index.py:303-318. -/
def edgeLex (n : List Nat) (e : Nat) : Option (List Nat) :=
  match n with
  | [n0, n1, n2] =>
    if e < 4 then (corner n e).map fun i0 => arange i0 (n0 * n1 * n2) (n0 * n1)
    else if e < 8 then ([0, 1, 4, 5][e - 4]?).bind fun c => (corner n c).map fun i0 => arange i0 (i0 + n0 * n1) n0
    else if e < 12 then ([0, 2, 4, 6][e - 8]?).bind fun c => (corner n c).map fun i0 => arange i0 (i0 + n0) 1
    else none
  | _ => faceLex n e

/-- `TensorProdIndex.get_edge`. tp_index.py:278-318. -/
def edge (n : List Nat) (e : Nat) (lexicg : Bool) : Option (List Nat) :=
  if lexicg then edgeLex n e
  else (lexicgToDlfEdges n.length).bind fun t => t[e]?.bind fun g => edgeLex n g

/-- `__create_dims_accumulation`: the accumulated products, started at `acc`. tp_index.py:321-343. -/
def accumFrom (acc : Nat) : List Nat → List Nat
  | [] => []
  | n :: ns => acc :: accumFrom (acc * n) ns

/-- `__create_dims_accumulation`. tp_index.py:321-343. -/
def accum (n : List Nat) : List Nat := accumFrom 1 n

/-- `np.dot`. -/
def dot (a b : List Nat) : Nat := (List.zipWith (· * ·) a b).sum

/-- `TensorProdIndex.get_flat_index`. tp_index.py:346-361. -/
def getFlatIndex (n tid : List Nat) : Nat := dot (accum n) tid

/-- Loop of `TensorProdIndex.get_tensor_index` (`dir` from `dim - 1` down to 0). tp_index.py:385-387. -/
def tensorIndexLoop (acc : List Nat) (id : Nat) : (dirs : Nat) → (tid : List Nat) → List Nat
  | 0, tid => tid
  | dir + 1, tid => tensorIndexLoop acc id dir (tid.set dir ((id - dot tid acc) / acc.getD dir 0))

/-- `TensorProdIndex.get_tensor_index`. tp_index.py:364-387. -/
def getTensorIndex (n : List Nat) (id : Nat) : List Nat :=
  tensorIndexLoop (accum n) id n.length (List.replicate n.length 0)

end Qugar.Py
