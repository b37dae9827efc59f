import Verif.Model.BBox
import Verif.Model.Grid
import Verif.Model.Points
import Verif.Model.Roots
import Verif.Model.Lagrange
/-
Model of `qugar::ReparamMesh` (cpp/qugar/reparam_mesh.cpp) and `qugar::impl::ImplReparamMesh`
(cpp/qugar/impl_reparam_mesh.cpp). Coordinates are in an ordered field `K` (rounding is not modelled), integers are
unbounded. External: `algoim::bernstein::modifiedChebyshevNode` (parameter `cheb`), the (unstable) `std::ranges::sort`
(parameters `srt`, `srtE`), the Euclidean norm (parameter `norm`). `none`: a failed assertion, or an exception of
`std::vector::at`. The `reserve` calls (and `reserve_cells`) have no observable effect and are not modelled.
-/
namespace Qugar.Mesh
open Poly
variable {K : Type} [Field K] [LinearOrder K]

/-- `ReparamMesh<dim, range>`: order, points, cells connectivity, wirebasket connectivity. reparam_mesh.hpp:45-303. The
template parameters are fields. -/
structure Mesh (K : Type) where
  dim : Nat
  range : Nat
  order : Nat
  points : List (List K)
  conn : List Nat
  wires : List Nat
deriving DecidableEq

/-- Constructor. reparam_mesh.cpp:325-328. -/
def new (dim range order : Nat) : Option (Mesh K) := if 1 < order then some ⟨dim, range, order, [], [], []⟩ else none

/-- `get_num_points_per_cell`. reparam_mesh.cpp:431-434. -/
def ppc (m : Mesh K) : Nat := m.order ^ m.dim

/-- `get_num_cells`. reparam_mesh.cpp:419-424. -/
def numCells (m : Mesh K) : Option Nat :=
  if m.conn.length % ppc m = 0 then some (m.conn.length / ppc m) else none

/-- `merge`. reparam_mesh.cpp:330-347. -/
def merge (m other : Mesh K) : Option (Mesh K) :=
  if m.order = other.order then
    some { m with
      points := m.points ++ other.points
      conn := m.conn ++ other.conn.map (· + m.points.length)
      wires := m.wires ++ other.wires.map (· + m.points.length) }
  else none

/-- `use_Chebyshev`. reparam_mesh.hpp:53, reparam_mesh.cpp:477-485. -/
def useChebyshev (order : Nat) : Bool := decide (7 ≤ order)

/-- `generate_point_in_01`. reparam_mesh.cpp:360-366. -/
def pointIn01 (cheb : Nat → Nat → K) (order ind : Nat) : K :=
  if useChebyshev order then cheb ind order else (ind : K) / ((order - 1 : Nat) : K)

/-- The point of `add_full_cell` for the index `tid`. reparam_mesh.cpp:368-372. -/
def fullCellPoint (cheb : Nat → Nat → K) (order : Nat) (domain : Box K) (tid : List Nat) : List K :=
  List.zipWith (fun iv t => iv.1 + (iv.2 - iv.1) * pointIn01 cheb order t) domain tid

/-- `sort_edge_points`. reparam_mesh.cpp:516-529. (An edge has `order ≥ 2` entries.) -/
def sortEdge (order : Nat) (e : List Nat) : List Nat :=
  let reverse := decide (e.getLastD 0 < e.headD 0)
  let reverse := if e.headD 0 = e.getLastD 0 ∧ 2 < order then decide (e.getD (order - 2) 0 < e.getD 1 0) else reverse
  if reverse then e.reverse else e

/-- The bounds of the loop of `get_edge_points`. reparam_mesh.cpp:545-554. -/
def edgeRange (dim order : Nat) (dirs sides : List Nat) : Range :=
  (List.zip dirs sides).foldl (fun r ds =>
    if ds.2 = 0 then ⟨r.lo, r.up.set ds.1 1⟩ else ⟨r.lo.set ds.1 (order - 1), r.up⟩)
    ⟨List.replicate dim 0, List.replicate dim order⟩

/-- `get_edge_points`. reparam_mesh.cpp:535-571. -/
def edgePoints (m : Mesh K) (cell edge : Nat) : Option (List Nat) := do
  let dirs ← Ids.edgeConstantDirs m.dim edge
  let sides ← Ids.edgeSides m.dim edge
  let ids ← (visitAll (edgeRange m.dim m.order dirs sides)).mapM fun tid => do
    let k ← flat tid (List.replicate m.dim m.order)
    m.conn[cell * ppc m + k]?
  some (sortEdge m.order ids)

/-- Number of edges of a cell. -/
def numEdges (dim : Nat) : Nat := if dim = 2 then 4 else 12

/-- The part of `add_full_cell` before the wirebasket. reparam_mesh.cpp:368-375. -/
def pushFullCell (cheb : Nat → Nat → K) (m : Mesh K) (domain : Box K) : Mesh K :=
  (visitAll (Range.ofUpper (List.replicate m.dim m.order))).foldl (fun m tid =>
    { m with conn := m.conn ++ [m.points.length], points := m.points ++ [fullCellPoint cheb m.order domain tid] }) m

/-- `add_full_cell`. reparam_mesh.cpp:352-390. -/
def addFullCell (cheb : Nat → Nat → K) (m : Mesh K) (domain : Box K) (wirebasket : Bool) : Option (Mesh K) := do
  let m := pushFullCell cheb m domain
  let n ← numCells m
  if wirebasket then
    (List.range (numEdges m.dim)).foldlM (fun m' edge => do
      let e ← edgePoints m' (n - 1) edge
      some { m' with wires := m'.wires ++ e }) m
  else some m

/-- `add_full_cells`. reparam_mesh.cpp:395-416. -/
def addFullCells (cheb : Nat → Nat → K) (m : Mesh K) (g : Grid K) (cells : List Nat) (wirebasket : Bool) :
    Option (Mesh K) :=
  cells.foldlM (fun m cell => do
    let domain ← g.cellDomain cell
    addFullCell cheb m domain wirebasket) m

/-- `allocate_cells`: the mesh and the id of the first new cell. reparam_mesh.cpp:465-475. (`resize` fills with 0.) -/
def allocateCells (m : Mesh K) (n : Nat) : Mesh K × Nat :=
  ({ m with conn := m.conn ++ List.replicate (n * ppc m) 0 }, m.conn.length / ppc m)

/-- `insert_cell_point`. reparam_mesh.cpp:489-498. -/
def insertCellPoint (m : Mesh K) (p : List K) (cell pt : Nat) : Option (Mesh K) :=
  if cell * ppc m + pt < m.conn.length then
    some { m with conn := m.conn.set (cell * ppc m + pt) m.points.length, points := m.points ++ [p] }
  else none

/-- `Tolerance::coincident`. tolerance.hpp:200-209. -/
def coincident (tol : K) (range : Nat) (p q : List K) : Bool := (List.range range).all fun d => Tol.equal tol (vat p d) (vat q d)

/-- `check_subentity_degenerate`. reparam_mesh.cpp:502-513. -/
def degenerate (m : Mesh K) (tol : K) (ids : List Nat) : Option Bool := do
  let first ← ids.head?
  let p0 ← m.points[first]?
  let pts ← ids.mapM fun i => m.points[i]?
  some (pts.all fun p => coincident tol m.range p0 p)

/-- `get_bounds` of `check_edge_in_subdomain`: -1, 0 or 1 per direction. reparam_mesh.cpp:579-591. -/
def getBounds (tol : K) (domain : Box K) (p : List K) : List Int :=
  List.zipWith (fun iv x => if Tol.equal tol x iv.1 then (0 : Int) else if Tol.equal tol x iv.2 then 1 else -1) domain p

/-- `check_edge_in_subdomain<sub_dim>`. reparam_mesh.cpp:575-605. -/
def edgeInSubdomain (sub : Nat) (m : Mesh K) (tol : K) (domain : Box K) (ids : List Nat) : Option Bool := do
  let first ← ids.head?
  let p0 ← m.points[first]?
  let b0 := getBounds tol domain p0
  let pts ← ids.mapM fun i => m.points[i]?
  some (pts.all fun p =>
    let b := getBounds tol domain p
    !decide (((List.zip b0 b).filter fun xy => decide (0 ≤ xy.1) && decide (xy.1 = xy.2)).length < sub))

/-- The subspans `edges.subspan(id * order, order)` of the wirebasket connectivity. reparam_mesh.cpp:663-670. -/
def chunks (order : Nat) (w : List Nat) : List (List Nat) :=
  (List.range (w.length / order)).map fun i => (w.drop (i * order)).take order

/-- The comparison of edges in `sort_wirebasket_edges`. reparam_mesh.cpp:677-686. -/
def edgeLess : List Nat → List Nat → Bool
  | a :: as, b :: bs => if a ≠ b then decide (a < b) else edgeLess as bs
  | _, _ => false

/-- `sort_wirebasket_edges`, as a list of edges: each edge sorted, then the edges sorted. reparam_mesh.cpp:659-696. (The
code sorts the positions of the edges and copies the edges; entries after the last complete edge, of which there are
none, stay.) -/
def sortEdges (srtE : List (List Nat) → List (List Nat)) (order : Nat) (w : List Nat) : List (List Nat) :=
  srtE ((chunks order w).map (sortEdge order))

/-- Loop of `purge_duplicate_wirebasket_edges`: `edge0` is `edge_0`, `pend` the edges in `[it_0, it)`, `rep` is
`repetition`, `out` is `new_wires_conn`; the last argument holds the edges from `it` on. reparam_mesh.cpp:707-732. -/
def purgeLoop (edge0 : List Nat) (pend : List (List Nat)) (rep : Bool) (out : List (List Nat)) :
    List (List Nat) → List (List Nat)
  | [] => if rep then out else out ++ pend
  | edge1 :: rest =>
    if edge0 = edge1 then purgeLoop edge0 (pend ++ [edge1]) true (if rep then out else out ++ pend) rest
    else purgeLoop edge1 ((if rep then [] else pend) ++ [edge1]) false out rest

/-- The edges left by `purge_duplicate_wirebasket_edges`. -/
def purgeEdges : List (List Nat) → List (List Nat)
  | [] => []
  | e :: rest => purgeLoop e [e] false [] rest

/-- `purge_duplicate_wirebasket_edges`. reparam_mesh.cpp:698-735. -/
def purge (srtE : List (List Nat) → List (List Nat)) (order : Nat) (w : List Nat) : List Nat :=
  (purgeEdges (sortEdges srtE order w)).flatten

/-- `merge_coincident_points`. reparam_mesh.cpp:607-626. -/
def mergeCoincident (srt : (Nat → K) → List Nat → List Nat) (srtE : List (List Nat) → List (List Nat)) (m : Mesh K)
    (tol : K) : Option (Mesh K) :=
  if m.points.length < 2 then some m
  else do
    let u := Points.makeUnique srt m.range m.points tol
    let conn ← m.conn.mapM fun i => u.2[i]?
    let wires ← m.wires.mapM fun i => u.2[i]?
    some { m with points := u.1, conn := conn, wires := purge srtE m.order wires }

/-- The affine map of `scale_points`. reparam_mesh.cpp:633-645. -/
def scalePoint (old new : Box K) (p : List K) : List K :=
  List.zipWith (fun (on : (K × K) × (K × K)) x =>
    let scale := (on.2.2 - on.2.1) / (on.1.2 - on.1.1)
    let shift := on.2.1 - on.1.1 * scale
    scale * x + shift) (List.zip old new) p

/-- `scale_points(point_ids, old_domain, new_domain)`. reparam_mesh.cpp:629-646. -/
def scalePoints (m : Mesh K) (ids : List Nat) (old new : Box K) : Option (Mesh K) :=
  ids.foldlM (fun m i => do
    let p ← m.points[i]?
    some { m with points := m.points.set i (scalePoint old new p) }) m

/-- `scale_points(old_domain, new_domain)`. reparam_mesh.cpp:650-656. -/
def scaleAll (m : Mesh K) (old new : Box K) : Option (Mesh K) := scalePoints m (List.range m.points.length) old new

/-- `std::swap(at(connectivity, a), at(connectivity, b))`. -/
def swapAt (l : List Nat) (a b : Nat) : Option (List Nat) := do
  let x ← l[a]?
  let y ← l[b]?
  some ((l.set a y).set b x)

/-- `std::swap(tid(0), tid(1))`. -/
def swap01 : List Nat → List Nat
  | a :: b :: t => b :: a :: t
  | t => t

/-- `permute_cell_directions`. reparam_mesh.cpp:759-785. -/
def permuteCell (m : Mesh K) (cell : Nat) : Option (Mesh K) := do
  let n ← numCells m
  if cell < n then
    let offset := cell * ppc m
    let conn ←
      if m.dim = 1 then
        (List.range (m.order / 2)).foldlM (fun c i => swapAt c (offset + i) (offset + (m.order - 1 - i))) m.conn
      else
        let order := List.replicate m.dim m.order
        (visitAll (Range.ofUpper order)).foldlM (fun c tid =>
          if tid.getD 0 0 ≤ tid.getD 1 0 then some c
          else do
            let a ← flat tid order
            let b ← flat (swap01 tid) order
            swapAt c (offset + a) (offset + b)) m.conn
    some { m with conn := conn }
  else none

/-! ### `ImplReparamMesh` -/

/-- `generate_wirebasket(cell_ids, domain, tol, check_face, check_internal)`. impl_reparam_mesh.cpp:129-177. -/
def addWires (m : Mesh K) (cells : List Nat) (domain : Box K) (tol : K) (checkFace checkInternal : List K → Bool) :
    Option (Mesh K) :=
  if 1 < m.dim then
    cells.foldlM (fun m cell => (List.range (numEdges m.dim)).foldlM (fun m edge => do
      let e ← edgePoints m cell edge
      let deg ← degenerate m tol e
      if deg then some m
      else
        let onEdge ← edgeInSubdomain (m.range - 1) m tol domain e
        let onFace ← edgeInSubdomain 1 m tol domain e
        let pts ← e.mapM fun i => m.points[i]?
        if onEdge || (if onFace then pts.all checkFace else pts.all checkInternal) then
          some { m with wires := m.wires ++ e }
        else some m) m) m
  else some m

/-- `generate_wirebasket(impl_funcs, cell_ids, domain, tol)`, the functions given by their values.
impl_reparam_mesh.cpp:100-125. -/
def generateWirebasket (m : Mesh K) (funcs : List (List K → K)) (cells : List Nat) (domain : Box K) (tol : K) :
    Option (Mesh K) :=
  if funcs.length = 1 then
    addWires m cells domain tol (fun p => funcs.any fun f => Tol.isZero tol (f p))
      (fun p => decide (m.range - 1 ≤ funcs.length) && decide (m.range - 1 ≤ (funcs.filter fun f => Tol.isZero tol (f p)).length))
  else none

/-- `compute_determinant`; `J` holds one row (the derivative of the point) per direction. impl_reparam_mesh.cpp:47-63. -/
def determinant (dim : Nat) (J : List (List K)) : K :=
  let j (r c : Nat) : K := vat (J.getD r []) c
  if dim = 3 then
    j 0 0 * (j 1 1 * j 2 2 - j 1 2 * j 2 1) + j 0 1 * (j 1 2 * j 2 0 - j 1 0 * j 2 2)
      + j 0 2 * (j 1 0 * j 2 1 - j 1 1 * j 2 0)
  else j 0 0 * j 1 1 - j 0 1 * j 1 0

/-- The sum `Σ points(cell_points[i]) * w[i]` over the points of a cell, for the weights `w`.
impl_reparam_mesh.cpp:201-209, 252-261. -/
def cellSum (m : Mesh K) (cell : Nat) (w : List K) : List K :=
  (List.range m.range).map fun c =>
    sumTo (ppc m) fun i => vat (m.points.getD (m.conn.getD (cell * ppc m + i) 0) []) c * w.getD i 0

/-- `orient_cells_positively(cell_ids)`. impl_reparam_mesh.cpp:183-214. -/
def orientCells (cheb : Nat → Nat → K) (m : Mesh K) (cells : List Nat) : Option (Mesh K) := do
  let ders ← Lagrange.derivative cheb (List.replicate m.dim (1 / 2)) (List.replicate m.dim m.order) false
  cells.foldlM (fun m cell => do
    let n ← numCells m
    if cell < n then
      if determinant m.dim (ders.map fun w => cellSum m cell w) < 0 then permuteCell m cell else some m
    else none) m

/-- `orient_cells_positively()`. impl_reparam_mesh.cpp:219-224. -/
def orientAllCells (cheb : Nat → Nat → K) (m : Mesh K) : Option (Mesh K) := do
  let n ← numCells m
  orientCells cheb m (List.range n)

/-- The normal of a cell, before its normalisation. impl_reparam_mesh.cpp:263-269. -/
def cellNormal (dim : Nat) (J : List (List K)) : List K :=
  if dim = 2 then crossProduct (J.getD 0 []) (J.getD 1 []) else [vat (J.getD 0 []) 1, -vat (J.getD 0 []) 0]

/-- `dot`. -/
def dot (n : Nat) (x y : List K) : K := sumTo n fun i => vat x i * vat y i

/-- `orient_levelset_cells_positively(cell_ids, outer_normal_computer)`. impl_reparam_mesh.cpp:229-278. -/
def orientLevelset (cheb : Nat → Nat → K) (norm : List K → K) (m : Mesh K) (cells : List Nat) (outer : List K → List K) :
    Option (Mesh K) := do
  let basis ← Lagrange.basis cheb (List.replicate m.dim (1 / 2)) (List.replicate m.dim m.order) false
  let ders ← Lagrange.derivative cheb (List.replicate m.dim (1 / 2)) (List.replicate m.dim m.order) false
  cells.foldlM (fun m cell => do
    let n ← numCells m
    if cell < n then
      let normal := cellNormal m.dim (ders.map fun w => cellSum m cell w)
      let normal := normal.map (· / norm normal)
      if dot m.range normal (outer (cellSum m cell basis)) < 0 then permuteCell m cell else some m
    else none) m

/-- `std::ranges::min_element` of the values of the functions (value and gradient) at the point: the first of the smallest ones.
impl_reparam_mesh.cpp:288-292. -/
def minFunc (p : List K) (f : (List K → K) × (List K → List K)) (fs : List ((List K → K) × (List K → List K))) :
    (List K → K) × (List K → List K) :=
  fs.foldl (fun best g => if g.1 p < best.1 p then g else best) f

/-- `orient_levelset_cells_positively(impl_funcs, cell_ids)`; dereferencing the end of an empty list is `none`.
impl_reparam_mesh.cpp:283-301. -/
def orientLevelsetFuncs (cheb : Nat → Nat → K) (norm : List K → K) (m : Mesh K)
    (funcs : List ((List K → K) × (List K → List K))) (cells : List Nat) : Option (Mesh K) :=
  match funcs with
  | [] => none
  | f :: fs => orientLevelset cheb norm m cells fun p =>
      let normal := (minFunc p f fs).2 p
      normal.map (· / norm normal)

/-- `orient_levelset_cells_positively(impl_funcs)`. impl_reparam_mesh.cpp:306-312. -/
def orientAllLevelsetFuncs (cheb : Nat → Nat → K) (norm : List K → K) (m : Mesh K)
    (funcs : List ((List K → K) × (List K → List K))) : Option (Mesh K) := do
  let n ← numCells m
  orientLevelsetFuncs cheb norm m funcs (List.range n)

/-- The normal of `orient_facet_cells_positively`. impl_reparam_mesh.cpp:322-325. -/
def facetNormal (range facet : Nat) : Option (List K) := do
  let dir ← Ids.facetConstantDir range facet
  let side ← Ids.facetSide range facet
  some ((List.replicate range (0 : K)).set dir (if side = 0 then -1 else 1))

/-- `orient_facet_cells_positively(local_facet_id, cell_ids)`. impl_reparam_mesh.cpp:317-330. -/
def orientFacet (cheb : Nat → Nat → K) (norm : List K → K) (m : Mesh K) (facet : Nat) (cells : List Nat) :
    Option (Mesh K) := do
  let normal ← facetNormal m.range facet
  orientLevelset cheb norm m cells fun _ => normal

end Qugar.Mesh
