import Verif.Model.PyUnfitted
import Verif.Model.PyFacetQuad
import Verif.Model.Quadrature
/-
Model of the creation of quadratures through the Python layer: python/qugar/mesh/unfitted_domain.py (the `create_quad_*` methods),
python/qugar/quad/custom_quad.py and the wrappers of python/nanobind_wrappers/cut_quad.cpp, on top of the model of the C++ quadratures
(Model/Quadrature), of the mesh (Model/PyMesh) and of the facets (Model/PyFacets). `none`: an exception (or, in C++, a failed
assertion).
-/
namespace Qugar.Py.Quad

variable {K : Type} [Field K] [LinearOrder K]

/-- A one-dimensional NumPy array: a view of a buffer, with the position of its first entry, the distance between consecutive entries
(both counted in entries) and the number of entries. -/
structure NdArray where
  buffer : List Nat
  start : Nat
  stride : Int
  size : Nat

/-- The entries of an array, as NumPy sees them. -/
def NdArray.entries (a : NdArray) : Option (List Nat) :=
  (List.range a.size).mapM fun (k : Nat) =>
    let i : Int := (a.start : Int) + (k : Int) * a.stride
    if i < 0 then none else a.buffer[i.toNat]?

/-- `std::span(cells_py.data(), cells_py.size())` copied to a vector: `size()` consecutive entries of the memory, from the first entry
of the array. The type `CellsArray` does not ask for contiguous arrays. `none`: beyond the buffer. cut_quad.cpp:176-177, 182-183. -/
def NdArray.read (a : NdArray) : Option (List Nat) := (List.range a.size).mapM fun k => a.buffer[a.start + k]?

/-- A new array (the result of indexing an array with an array: `dlf_to_orig[dlf_local_cell_ids]`). -/
def NdArray.new (l : List Nat) : NdArray := ⟨l, 0, 1, l.length⟩

/-- `unique_combined[:, 0]` (`MeshFacets.unique`): the first column of an array of pairs stored by rows. mesh_facets.py:116. -/
def NdArray.firstColumn (a : Facets) : NdArray := ⟨asArray a, 0, 2, a.length⟩

/-- `CustomQuad`. custom_quad.py:28-61. -/
structure CustomQuad (K : Type) where
  cells : List Nat
  nPts : List Int
  points : List (List K)
  weights : List K
deriving DecidableEq

/-- `CustomQuadFacet`. custom_quad.py:64-104. -/
structure CustomQuadFacet (K : Type) where
  facets : Facets
  nPts : List Int
  points : List (List K)
  weights : List K
deriving DecidableEq

/-- `CustomQuadUnfBoundary`. custom_quad.py:107-145. -/
structure CustomQuadUnf (K : Type) where
  cells : List Nat
  nPts : List Int
  points : List (List K)
  weights : List K
  normals : List (List K)
deriving DecidableEq

/-- The unfitted domain of Python together with what its C++ object needs to create quadratures: the function, the grid, the library
of one-dimensional rules. `debug`: the C++ library was compiled with assertions. -/
structure QDomain (K : Type) where
  u : UDomain
  rules : QuadType K
  oracle : QOracle K
  grid : Grid K
  debug : Bool

/-- The wrapper `create_quadrature`. cut_quad.cpp:174-190. -/
def cppCells (q : QDomain K) (cells : NdArray) (n : Nat) (ch : Cache K) : Option (Cache K × CellsQuad K) :=
  cells.read.bind fun l => createQuadrature q.rules q.oracle q.grid q.u.dom l n ch

/-- The wrapper `create_unfitted_bound_quadrature`. cut_quad.cpp:192-215. -/
def cppUnf (q : QDomain K) (cells : NdArray) (n : Nat) (incl exclExt : Bool) (ch : Cache K) : Option (Cache K × UnfQuad K) :=
  cells.read.bind fun l => createUnfQuadrature q.debug q.rules q.oracle q.grid q.u.dom l n incl exclExt ch

/-- The wrappers `create_facets_quadrature_interior_integral` and `create_facets_quadrature_exterior_integral`.
cut_quad.cpp:217-265. -/
def cppFacets (q : QDomain K) (kind : FacetIntegral) (cells facets : NdArray) (n : Nat) (ch : Cache K) :
    Option (Cache K × FacetsQuad K) :=
  cells.read.bind fun l => facets.read.bind fun f =>
    createFacetsQuadrature q.debug q.rules q.oracle q.grid q.u.dom kind l f n ch

/-- `create_quad_custom_cells`. unfitted_domain.py:531-566. -/
def createCells (q : QDomain K) (degree : Nat) (cells : List Nat) (ch : Cache K) : Option (Cache K × CustomQuad K) :=
  (q.u.mesh.origCells cells).bind fun orig =>
    (cppCells q (NdArray.new orig) (UDomain.numGaussPoints degree) ch).map fun x =>
      (x.1, ⟨cells, x.2.nPts, x.2.points, x.2.weights⟩)

/-- `create_quad_unf_boundaries`. unfitted_domain.py:568-612. -/
def createUnf (q : QDomain K) (degree : Nat) (cells : List Nat) (ch : Cache K) : Option (Cache K × CustomQuadUnf K) :=
  (q.u.mesh.origCells cells).bind fun orig =>
    (cppUnf q (NdArray.new orig) (UDomain.numGaussPoints degree) false false ch).map fun x =>
      (x.1, ⟨cells, x.2.nPts, x.2.points, x.2.weights, x.2.normals⟩)

/-- `create_quad_custom_facets`. unfitted_domain.py:614-674. -/
def createFacets (q : QDomain K) (degree : Nat) (facets : Facets) (ext : Bool) (ch : Cache K) :
    Option (Cache K × CustomQuadFacet K) :=
  let n := UDomain.numGaussPoints degree
  (toOriginal q.u.mesh q.u.dim facets).bind fun orig =>
    (cppFacets q (if ext then .exterior else .interior) (NdArray.new (orig.map Prod.fst)) (NdArray.new (orig.map Prod.snd)) n ch).map
      fun x => (x.1, ⟨facets, x.2.nPts, x.2.points, x.2.weights⟩)

end Qugar.Py.Quad
