import Verif.Model.PyUnfitted
import Verif.Model.PyTpMesh
/-
Model of the creation of (unfitted) Cartesian meshes: python/qugar/mesh/tp_mesh.py, unfitted_cart_mesh.py, with the calls to
mesh.py and to the C++ grid and domain, on rank 0. Coordinates in a field `K`: the computations with 64 bits are exact; storing
a number with 32 bits is a parameter `round`. `none`: an exception or a failed assertion.
-/
namespace Qugar.Py.Cart

/-- The two numpy types of real numbers. -/
inductive DType | f32 | f64
deriving DecidableEq

/-- A one-dimensional numpy array of real numbers. -/
structure Arr (K : Type) where
  dtype : DType
  data : List K

/-- The argument `n_cells`: a Python integer, a numpy integer (not an instance of `int`), a list or array. -/
inductive NCells
  | int (n : Int)
  | npInt (n : Int)
  | list (l : List Int)

section
variable {K : Type} [Field K] [LinearOrder K]

/-- `np.linspace(a, b, num)` (external): `arange(num) * step + a`, with the last entry set to `b` when there is more than one. -/
def linspace (a b : K) : Int → Option (List K)
  | .negSucc _ => none
  | .ofNat 0 => some []
  | .ofNat 1 => some [a]
  | .ofNat (n + 2) =>
    let step := (b - a) / ((n + 1 : Nat) : K)
    some (((List.range (n + 2)).map fun (i : Nat) => (i : K) * step + a).set (n + 1) b)

/-- The number of cells per direction as an array. unfitted_cart_mesh.py:124-127 (`np.array` of a numpy integer has size one). -/
def cellsArray (dim : Nat) : NCells → Option (List Int)
  | .int n => some (List.replicate dim n)
  | .npInt n => if 1 = dim then some [n] else none
  | .list l => if l.length = dim then some l else none

/-- The type of the mesh. unfitted_cart_mesh.py:129-135. -/
def inferType (dtype : Option DType) (xmin xmax : Option (Arr K)) : DType :=
  match dtype with
  | some t => t
  | none => match xmin with
    | some a => a.dtype
    | none => match xmax with
      | some b => b.dtype
      | none => .f64

/-- One of the corners: the default value or the given array, which must have the type of the mesh.
unfitted_cart_mesh.py:137-145. -/
def corner (dim : Nat) (t : DType) (default : K) : Option (Arr K) → Option (List K)
  | none => some (List.replicate dim default)
  | some a => if a.dtype ≠ t then none else some a.data

/-- `create_cart_grid` with the assertions of the C++ constructor. nanobind_wrappers/common.cpp:173-185,
cart_grid_tp.cpp:81-96. -/
def createGrid (breaks : List (List K)) : Option (Grid K) :=
  if ∀ bs ∈ breaks, 1 < bs.length ∧ bs.Pairwise (· < ·) then some breaks else none

/-- The breaks of all the directions and the grid. unfitted_cart_mesh.py:147-154, tp_mesh.py:599-607. -/
def gridOf (dim : Nat) (n : List Int) (lo up : List K) : Option (Grid K) :=
  if dim = lo.length ∧ dim = up.length ∧ ∀ p ∈ List.zip lo up, p.1 < p.2 then
    ((List.range dim).mapM fun (k : Nat) => linspace (lo.getD k 0) (up.getD k 0) (n.getD k 0 + 1)).bind createGrid
  else none

/-- The first part of `create_unfitted_impl_Cartesian_mesh`: the grid and the type of the mesh. unfitted_cart_mesh.py:121-154. -/
def unfittedGrid (dim : Nat) (nCells : NCells) (xmin xmax : Option (Arr K)) (dtype : Option DType) : Option (Grid K × DType) :=
  if dim < 2 ∨ 3 < dim then none
  else (cellsArray dim nCells).bind fun n =>
    let t := inferType dtype xmin xmax
    (corner dim t 0 xmin).bind fun lo =>
      (corner dim t 1 xmax).bind fun up => (gridOf dim n lo up).map fun g => (g, t)

/-- `astype(dtype)` of a 64-bit number. -/
def castTo (round : K → K) : DType → K → K
  | .f32, x => round x
  | .f64, x => x

/-- What is passed to DOLFINx, and what the object keeps: the breaks of the cells and the active cells. -/
structure Passed (K : Type) where
  breaks : List (List K)
  nodes : List (List K)
  conn : List (List Nat)
  active : Option (List Nat)

/-- Constructors of `CartesianMesh` (tp_mesh.py:502-522), `TensorProductMesh` (tp_mesh.py:293-331) and `Mesh`
(mesh.py:342-376) on rank 0; there is no merging of nodes. The arithmetic of the nodes between breaks is exact. -/
def cartesianMesh (round : K → K) (g : Grid K) (degree : Nat) (active : Option (List Nat)) (t : DType) (junk : Nat → K) :
    Option (Passed K) :=
  if g.length < 2 ∨ 3 < g.length then none
  else
    let breaks := g.map fun bs => bs.map (castTo round t)
    (nodesFromCells degree breaks junk).bind fun nodes =>
      (meshConn degree g.numCellsDir).bind fun conn =>
        (passedMesh 0 nodes conn active none fun _ => 0).map fun p => ⟨breaks, p.1, p.2.1, storedActive active conn⟩

/-- `create_unfitted_impl_Cartesian_mesh`: the grid, the C++ domain, what is passed to DOLFINx. unfitted_cart_mesh.py:81-164
(the constructor: 69-79). -/
def createUnfitted (debug : Bool) (o : Oracles K) (round : K → K) (dim : Nat) (nCells : NCells) (xmin xmax : Option (Arr K))
    (degree : Nat) (excludeEmpty : Bool) (dtype : Option DType) (junk : Nat → K) : Option (Grid K × Dom × Passed K) :=
  (unfittedGrid dim nCells xmin xmax dtype).bind fun gt =>
    (build debug o gt.1 none).toOption.bind fun d =>
      (UDomain.activeCells d excludeEmpty).bind fun active =>
        (cartesianMesh round gt.1 degree active gt.2 junk).map fun p => (gt.1, d, p)

/-! ### `create_Cartesian_mesh` -/

/-- The ghost modes of DOLFINx. -/
inductive GhostMode | none | sharedFacet | sharedVertex
deriving DecidableEq

/-- The Python objects passed by position to the constructor of `CartesianMesh`. -/
inductive PyArg
  | none
  | cells (l : List Nat)
  | ghost (g : GhostMode)
  | dtype (t : DType)

/-- `active_cells.size`: only arrays have it here; an enumerator raises `AttributeError`. -/
def PyArg.size : PyArg → Option Nat
  | .cells l => some l.length
  | _ => Option.none

/-- The active cells from the argument: `if active_cells is not None and active_cells.size == conn.shape[0]`. mesh.py:362-368. -/
def PyArg.active : PyArg → Option (Option (List Nat))
  | .none => some Option.none
  | a => a.size.bind fun _ => match a with
    | .cells l => some (some l)
    | _ => Option.none

/-- `astype(dtype)`: the argument must be a type. tp_mesh.py:504. -/
def PyArg.asType : PyArg → Option DType
  | .dtype t => some t
  | _ => Option.none

/-- `CartesianMesh(comm, grid, degree, active_cells, ghost_mode, dtype)` with arguments of any kind; the ghost mode is only used
with several processes. tp_mesh.py:465-473, 502-522. -/
def cartesianMeshCall (round : K → K) (g : Grid K) (degree : Nat) (active : PyArg) (_ghost : PyArg) (dtype : PyArg)
    (junk : Nat → K) : Option (Passed K) :=
  dtype.asType.bind fun t => active.active.bind fun a => cartesianMesh round g degree a t junk

/-- `create_Cartesian_mesh`: the arguments of the constructor are `(comm, cpp_grid, degree, ghost_mode, dtype)`, by position.
tp_mesh.py:562-609. `n_cells` is a list or an array. -/
def createCartesian (round : K → K) (n : List Int) (xmin xmax : Option (Arr K)) (degree : Nat) (ghost : GhostMode)
    (junk : Nat → K) : Option (Passed K) :=
  let dim := n.length
  if dim < 2 ∨ 3 < dim then none
  else
    let t := match xmax with
      | some b => b.dtype
      | none => match xmin with
        | some a => a.dtype
        | none => .f64
    let lo : Arr K := xmin.getD ⟨t, List.replicate dim 0⟩
    let up : Arr K := xmax.getD ⟨t, List.replicate dim 1⟩
    if lo.dtype ≠ up.dtype then none
    else (gridOf dim n lo.data up.data).bind fun g =>
      cartesianMeshCall round g degree (.ghost ghost) (.dtype lo.dtype) (.dtype .f64) junk

end

/-! ### Queries -/

/-- A numpy array of indices without dimensions (made from a number) or with one. -/
inductive Nd
  | scalar (i : Nat)
  | vec (l : List Nat)

/-- `a[idx]` (external): a number for an index without dimensions. -/
def Nd.index (a : List Nat) : Nd → Option Nd
  | .scalar i => (a[i]?).map .scalar
  | .vec l => (take a l).map .vec

/-- `x[0]`: numbers cannot be indexed. -/
def Nd.first : Nd → Option Nat
  | .scalar _ => none
  | .vec l => l.head?

/-- `get_original_cell_ids` for both kinds of arrays. mesh.py:465-491. -/
def origCellsNd (m : PyMesh) (dlf : Nd) : Option Nd :=
  (dlf.index m.cellIndex).bind fun orig =>
    match m.active with
    | some l => orig.index l
    | none => some orig

/-- `get_cell_tensor_index`; `np.array(dlf_local_cell_id)` has no dimensions for a number. tp_mesh.py:440-452. -/
def cellTensorIndex (m : PyMesh) (nCells : List Nat) (cell : Nd) : Option (List Nat) :=
  (origCellsNd m cell).bind fun ids => ids.first.map fun id => getTensorIndex nCells id

/-- `get_cell_bbox`: the minimum and maximum of each direction. tp_mesh.py:538-559. -/
def cellBBox {K : Type} (m : PyMesh) (nCells : List Nat) (breaks : List (List K)) (cell : Nd) : Option (List (K × K)) :=
  (cellTensorIndex m nCells cell).bind fun tid =>
    (List.range nCells.length).mapM fun (k : Nat) =>
      (breaks[k]?).bind fun bs => (tid[k]?).bind fun (i : Nat) => (bs[i]?).bind fun a => (bs[i + 1]?).map fun b => (a, b)

/-- `create_facet_bdry_tags`: the facets and tags given to DOLFINx. tp_mesh.py:361-393. -/
def bdryTags (argsort : List Int → List Nat) (m : PyMesh) (nCells : List Nat) (cellFacets : List (List Nat)) :
    Option (List Nat × List Nat) :=
  ((List.range (2 * nCells.length)).mapM fun (f : Nat) =>
      (faceFacets argsort m nCells cellFacets f).map fun facets => facets.map fun x => (x, f)).bind fun faces =>
    let all := faces.flatten
    let order := argsort (all.map fun p => Int.ofNat p.1)
    (take (all.map Prod.fst) order).bind fun facets => (take (all.map Prod.snd) order).map fun tags => (facets, tags)

end Qugar.Py.Cart
