import Verif.Model.PyQuad
import Verif.Model.PyReparam
/-
Model of python/qugar/plot/pyvista_tools.py: what the data sets created for PyVista contain. PyVista itself is external: a grid of
points or cells with their data; `none`: an exception (a failed assertion, an attribute that does not exist, data of another length
than the grid). Serial meshes (one process).
-/
namespace Qugar.Py.Plot
open Quad Mesh

variable {K : Type} [Field K] [LinearOrder K]

/-- A set of points (one vertex per point) with the data of its vertices. -/
structure PointSet (K : Type) where
  points : List (List K)
  lexCells : List Nat
  weights : List K
  normals : Option (List (List K)) := none
  lexFacets : Option (List Nat) := none
  dlfCells : Option (List Int) := none
  dlfFacets : Option (List Nat) := none

/-- `a[ofs : ofs + n]`. -/
def slice {α : Type} (a : List α) (ofs n : Nat) : List α := (a.drop ofs).take n

/-- `_scale_points` for one point, `bbox` the interval of each direction. pyvista_tools.py:50-71. -/
def scalePoint (bbox : Box K) (p : List K) : List K := List.zipWith (fun iv x => x * (iv.2 - iv.1) + iv.1) bbox p

/-- A row of `np.zeros((n_pts, 3))` with its first columns set. pyvista_tools.py:246, 252, 265-269. -/
def pad3 (p : List K) : List K := p ++ List.replicate (3 - p.length) 0

/-- The loop over the cells: `ofs` is the offset, the rows are written one after the other. pyvista_tools.py:247-253. -/
def scaleLoop (g : Grid K) (points : List (List K)) : List (Nat × Int) → Nat → List (List K) → Option (List (List K))
  | [], _, acc => some acc
  | (c, n) :: rest, ofs, acc =>
    (g.cellDomain c).bind fun dom =>
      scaleLoop g points rest (ofs + n.toNat) (acc ++ (slice points ofs n.toNat).map fun p => pad3 (scalePoint dom p))

/-- `np.repeat(ids, n)`. -/
def repeatIds (ids : List Nat) (n : List Int) : List Nat := (ids.zip n).flatMap fun x => List.replicate x.2.toNat x.1

/-- `_create_quad_points_grid`. pyvista_tools.py:203-272. Simplified: negative numbers of points are taken as zero, and points that
belong to no cell (the code leaves zeros) are an exception, as the number of ids differs from the number of points. The number of columns
(line 242, 262) is the one of the C++ type. -/
def quadPointsGrid (g : Grid K) (points : List (List K)) (nPts : List Int) (cells : List Nat) (weights : List K)
    (normals : Option (List (List K))) : Option (PointSet K) :=
  if cells.length = nPts.length ∧ points.length = weights.length then
    (scaleLoop g points (cells.zip nPts) 0 []).bind fun new =>
      if (repeatIds cells nPts).length = points.length then
        match normals with
        | none => some { points := new, lexCells := repeatIds cells nPts, weights := weights }
        | some nn =>
          if nn.length = points.length then
            some { points := new, lexCells := repeatIds cells nPts, weights := weights, normals := some (nn.map pad3) }
          else none
      else none
  else none

/-- `_cut_quad_to_PyVista` for a quadrature of cells: no normals. pyvista_tools.py:275-303. -/
def cellsQuadGrid (g : Grid K) (q : CellsQuad K) : Option (PointSet K) :=
  quadPointsGrid g q.points q.nPts q.cells q.weights none

/-- `_cut_quad_to_PyVista` for a quadrature of unfitted boundaries. pyvista_tools.py:275-303. -/
def unfQuadGrid (g : Grid K) (q : UnfQuad K) : Option (PointSet K) :=
  quadPointsGrid g q.points q.nPts q.cells q.weights (some q.normals)

/-- `_facets_const_dirs`. pyvista_tools.py:74-94. -/
def constDirs (dim : Nat) : List Nat := if dim = 2 then [0, 0, 1, 1] else [0, 0, 1, 1, 2, 2]

/-- `_facets_const_sides`. pyvista_tools.py:97-117. -/
def constSides (dim : Nat) : List Nat := if dim = 2 then [0, 1, 0, 1] else [0, 1, 0, 1, 0, 1]

/-- `_facets_active_dirs`. pyvista_tools.py:120-141. -/
def activeDirs (dim : Nat) : List (List Nat) :=
  if dim = 2 then [[1], [1], [0], [0]] else [[1, 2], [1, 2], [0, 2], [0, 2], [0, 1], [0, 1]]

/-- A point of a facet as a point of the reference cell: a row of zeros, the constant direction, then the active ones.
pyvista_tools.py:344-351. -/
def facetToCell (dim f : Nat) (p : List K) : Option (List K) :=
  (constDirs dim)[f]?.bind fun dir => (constSides dim)[f]?.bind fun side => (activeDirs dim)[f]?.map fun act =>
    act.zipIdx.foldl (fun row x => row.set x.1 (p.getD x.2 0)) ((List.replicate dim (0 : K)).set dir (side : K))

/-- The loop over the facets of one quadrature. pyvista_tools.py:342-361. Returns the points and weights of all its facets. -/
def facetLoop (dim : Nat) (q : FacetsQuad K) : List (Nat × Int) → Nat → List (List K) → List K → Option (List (List K) × List K)
  | [], _, pts, ws => some (pts, ws)
  | (f, n) :: rest, ofs, pts, ws =>
    ((slice q.points ofs n.toNat).mapM (facetToCell dim f)).bind fun new =>
      facetLoop dim q rest (ofs + n.toNat) (pts ++ new) (ws ++ slice q.weights ofs n.toNat)

/-- The loop over the quadratures: `zip` stops at the shortest array. pyvista_tools.py:340-361. -/
def facetQuads (dim : Nat) : List (FacetsQuad K) → Option (List (List K) × List K × List Nat × List Nat × List Int)
  | [] => some ([], [], [], [], [])
  | q :: rest =>
    if q.cells.length = q.facets.length ∧ q.cells.length = q.nPts.length then
      (facetLoop dim q (q.facets.zip q.nPts) 0 [] []).bind fun a =>
        (facetQuads dim rest).map fun b =>
          (a.1 ++ b.1, a.2 ++ b.2.1, q.cells ++ b.2.2.1, q.facets ++ b.2.2.2.1, q.nPts ++ b.2.2.2.2)
    else none

/-- `_create_quad_facet_points_grid`: the dimension is the one of the class of the quadratures. pyvista_tools.py:306-370. -/
def quadFacetPointsGrid (g : Grid K) (quads : List (FacetsQuad K)) : Option (PointSet K) :=
  if quads.isEmpty then none
  else (facetQuads g.length quads).bind fun a =>
    (quadPointsGrid g a.1 a.2.2.2.2 a.2.2.1 a.2.1 none).map fun s =>
      { s with lexFacets := some (repeatIds a.2.2.2.1 a.2.2.2.2) }

/-- `_append_DOLFINx_cell_ids`: the local ids (in serial the global ones are the same). pyvista_tools.py:376-400. -/
def appendCells (argsort : List Int → List Nat) (m : PyMesh) (s : PointSet K) : Option (PointSet K) :=
  (m.dlfCells argsort (s.lexCells.map Int.ofNat)).map fun ids => { s with dlfCells := some ids }

/-- `_append_DOLFINx_facets_ids`. pyvista_tools.py:402-424. -/
def appendFacets (dim : Nat) (s : PointSet K) : Option (PointSet K) :=
  (dlfToLexicgFaces dim).bind fun mask => s.lexFacets.bind fun fs =>
    (take mask fs).map fun r => { s with dlfFacets := some r }

/-- `quadrature_to_PyVista` for a C++ domain: the points of the cells, of the unfitted boundary and of the facets.
pyvista_tools.py:427-503. -/
def quadratureCpp (q : QDomain K) (n : Nat) (ch : Cache K) : Option (Cache K × PointSet K × PointSet K × PointSet K) :=
  (q.u.dom.tree.getCellIds q.u.dom.n .cut).bind fun cut =>
    (cppCells q (NdArray.new cut) n ch).bind fun a =>
      (cellsQuadGrid q.grid a.2).bind fun cells =>
        (cppUnf q (NdArray.new cut) n true true a.1).bind fun b =>
          (unfQuadGrid q.grid b.2).bind fun unf =>
            let cf := q.u.dom.cutFacets
            (cppFacets q .exterior (NdArray.new (cf.map Prod.fst)) (NdArray.new (cf.map Prod.snd)) n b.1).bind fun c =>
              let uf := q.u.dom.unfFacets
              (cppFacets q .exterior (NdArray.new (uf.map Prod.fst)) (NdArray.new (uf.map Prod.snd)) n c.1).bind fun d =>
                (quadFacetPointsGrid q.grid [c.2, d.2]).map fun facets => (d.1, cells, unf, facets)

/-- `quadrature_to_PyVista` for an unfitted Cartesian mesh, which is a mesh and a domain. pyvista_tools.py:427-503. -/
def quadraturePy (argsort : List Int → List Nat) (q : QDomain K) (n : Nat) (ch : Cache K) :
    Option (Cache K × PointSet K × PointSet K × PointSet K) :=
  (quadratureCpp q n ch).bind fun r =>
    (appendCells argsort q.u.mesh r.2.1).bind fun cells => (appendCells argsort q.u.mesh r.2.2.1).bind fun unf =>
      (appendCells argsort q.u.mesh r.2.2.2).bind fun facets => (appendFacets q.u.dim facets).map fun facets =>
        (r.1, cells, unf, facets)

/-! ### Grids of cells -/

/-- A cell of a plotted grid: its box, the id in its data. -/
structure GridCell (K : Type) where
  box : Box K
  lex : Nat

/-- External, `pv.RectilinearGrid(*breaks)`: the boxes of its cells, the first direction is the fastest. -/
def rectilinear : List (List K) → List (Box K)
  | [] => [[]]
  | bs :: rest => (rectilinear rest).flatMap fun b => (bs.zip bs.tail).map fun iv => iv :: b

/-- `cart_grid_tp_to_PyVista` for a C++ grid (or a mesh, before the extraction of the active cells). pyvista_tools.py:637-661. -/
def cartGrid (g : Grid K) : Option (List (GridCell K)) :=
  let n := tsize (g.map fun bs => bs.length - 1)
  let boxes := rectilinear g
  if 1 ≤ g.length ∧ g.length ≤ 3 ∧ boxes.length = n then some (List.zipWith GridCell.mk boxes (List.range n)) else none

/-- `cart_grid_tp_to_PyVista` for a mesh: `extract_cells` of the active cells (in increasing order), and the DOLFINx ids.
pyvista_tools.py:656-669. -/
def cartMesh (argsort : List Int → List Nat) (g : Grid K) (m : PyMesh) : Option (List (GridCell K × Int)) :=
  (cartGrid g).bind fun cells =>
    (match m.active with
      | some a => take cells (npUnique a)
      | none => some cells).bind fun cells =>
        (m.dlfCells argsort (cells.map fun (c : GridCell K) => Int.ofNat c.lex)).map fun ids => cells.zip ids

/-- `a[ids] = v`; negative ids are not modelled. -/
def setAll {α : Type} (a : List α) (ids : List Nat) (v : α) : Option (List α) :=
  if ∀ i ∈ ids, i < a.length then some (ids.foldl (fun a i => a.set i v) a) else none

/-- The arrays `value` and `status`, and the cells that `threshold` keeps, with their status. pyvista_tools.py:617-634. -/
def markCells {α : Type} (cells : List α) (n : Nat) (cutIds fullIds : List Nat) (cut full empty : Bool) : Option (List (α × Nat)) :=
  (setAll (List.replicate n empty) cutIds cut).bind fun v1 => (setAll v1 fullIds full).bind fun value =>
    (setAll (List.replicate n 2) cutIds 1).bind fun s1 => (setAll s1 fullIds 0).bind fun status =>
      if cells.length = n then
        some (((cells.zip status).zip value).filterMap fun x => if x.2 then some x.1 else none)
      else none

/-- `unfitted_domain_to_PyVista` for a C++ domain. pyvista_tools.py:600-634. -/
def domainCpp (g : Grid K) (d : Dom) (cut full empty : Bool) : Option (List (GridCell K × Nat)) :=
  (cartGrid g).bind fun cells =>
    (d.tree.getCellIds d.n .cut).bind fun cutIds => (d.tree.getCellIds d.n .full).bind fun fullIds =>
      markCells cells (tsize d.n) cutIds fullIds cut full empty

/-- The ids as naturals; negative ids are not modelled. -/
def nats (l : List Int) : Option (List Nat) := l.mapM fun i => if i < 0 then none else some i.toNat

/-- `unfitted_domain_to_PyVista` for an unfitted Cartesian mesh: the ids of the cells are those of DOLFINx, the cells those of the
grid. pyvista_tools.py:600-634. -/
def domainPy (argsort : List Int → List Nat) (g : Grid K) (u : UDomain) (s : UDomain.Caches) (cut full empty : Bool) :
    Option (List ((GridCell K × Int) × Nat) × UDomain.Caches) :=
  (cartMesh argsort g u.mesh).bind fun cells =>
    (u.cells argsort .cut s).bind fun a => (nats a.1).bind fun cutIds =>
      (u.cells argsort .full a.2).bind fun b => (nats b.1).bind fun fullIds =>
        (markCells cells u.numLocal cutIds fullIds cut full empty).map fun r => (r, b.2)

/-! ### Facets -/

/-- The argument of `unfitted_domain_facets_to_PyVista`. The C++ classes have no attribute `tdim`
(nanobind_wrappers/unf_domain.cpp:104-114). -/
inductive DomainArg | cpp (d : Dom) | mesh (u : UDomain)

/-- A plotted facet: the position of its cell in the grid, its number in VTK's numbering of the facets of the cell, and its data. -/
structure FacetCell where
  cell : Nat
  vtk : Nat
  status : Nat
  lexFacet : Nat
  dlfFacet : Nat
deriving DecidableEq

/-- Positions of facets of one status in the grid of all the facets. pyvista_tools.py:560-561. -/
def facetPositions (mask : List Nat) (nf : Nat) (fs : Facets) : Option (List Nat) :=
  fs.mapM fun x => mask[x.2]?.map fun v => x.1 * nf + v

/-- The loop over the statuses. pyvista_tools.py:559-563. -/
def markFacets (mask : List Nat) (nf : Nat) : List (Nat × Facets) → List Nat → List Nat → Option (List Nat × List Nat)
  | [], status, active => some (status, active)
  | (st, fs) :: rest, status, active =>
    (facetPositions mask nf fs).bind fun ids => (setAll status ids st).bind fun status =>
      markFacets mask nf rest status (active ++ ids)

/-- `unfitted_domain_facets_to_PyVista`. External: the exploded grid has the facets of the cells one cell after the other, in VTK's
order (as the code assumes when it numbers them); `extract_cells` keeps facets in increasing order. pyvista_tools.py:506-579. -/
def facetsPlot (argsort : List Int → List Nat) (g : Grid K) (arg : DomainArg) (s : UDomain.Caches) (cut full empty : Bool) :
    Option (List FacetCell) :=
  match arg with
  | .cpp _ => none
  | .mesh u =>
    (domainPy argsort g u s true true true).bind fun r =>
      let nf := 2 * u.dim
      let nCells := r.1.length
      if 2 ≤ u.dim ∧ u.dim ≤ 3 then
        (vtkToLexicgFaces u.dim).bind fun mask => (lexicgToVtkFaces u.dim).bind fun back => (dlfToLexicgFaces u.dim).bind fun dlf =>
          (if full then (u.ask argsort (.full true) r.2).map fun a => ([(0, a.1)], a.2) else some ([], r.2)).bind fun x0 =>
          (if cut then (u.ask argsort (.cut true) x0.2).map fun a => (x0.1 ++ [(1, a.1)], a.2) else some x0).bind fun x1 =>
          (if empty then (u.ask argsort (.empty true) x1.2).map fun a => (x1.1 ++ [(2, a.1)], a.2) else some x1).bind fun x2 =>
          (markFacets mask nf x2.1 (List.replicate (nCells * nf) 3) []).bind fun m =>
            (npUnique m.2).mapM fun i => m.1[i]?.bind fun st => back[i % nf]?.bind fun lf => dlf[lf]?.map fun df =>
              ⟨i / nf, i % nf, st, lf, df⟩
      else none

/-! ### Reparameterizations -/

/-- `_get_PyVista_cell_type`: LINE, QUAD, HEXAHEDRON, or their Lagrange versions. pyvista_tools.py:144-177. -/
def cellType (dim degree : Nat) : Option Nat :=
  if 1 ≤ dim ∧ dim ≤ 3 then (if degree = 1 then [3, 9, 12] else [68, 70, 72])[dim - 1]? else none

/-- An unstructured grid: for each cell the number of its points followed by their ids, its type; the points. -/
structure Unstructured (K : Type) where
  conn : List (List Nat)
  types : List Nat
  points : List (List K)

/-- `_create_unstructured_grid`, `cols` the number of columns of the connectivity. pyvista_tools.py:731-744. -/
def unstructured (points : List (List K)) (degree : Nat) (conn : List (List Nat)) (cols dim : Nat) : Option (Unstructured K) :=
  (vtkToLexicg dim degree).bind fun mask =>
    if mask.length = cols ∧ ∀ i ∈ mask, i < cols then
      (conn.mapM fun row => (take row mask).map fun r => cols :: r).bind fun new =>
        (cellType dim degree).map fun t => ⟨new, List.replicate conn.length t, points⟩
    else none

/-- `_reparam_mesh_to_PyVista`: the cells and the wirebasket. pyvista_tools.py:700-748. -/
def reparamGrid (m : Mesh K) : Option (Unstructured K × Unstructured K) :=
  let degree := m.order - 1
  let points := m.points.map fun p => if m.range = 2 then p ++ [0] else p
  (Reparam.cellsConn m).bind fun conn => (Reparam.wirebasketConn m).bind fun wires =>
    (unstructured points degree conn (ppc m) m.dim).bind fun a =>
      (unstructured points degree wires m.order 1).map fun b => (a, b)

end Qugar.Py.Plot
