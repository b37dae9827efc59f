import Verif.Model.PyPacker
/-
Model of python/qugar/dolfinx/custom_quad_utils.py and of the part of custom_coefficients.py that maps the quadratures of facets to
the cells. Arrays of points are lists of rows; numbers are of any commutative ring. `none`: an exception (a failed assertion, an index
out of bounds) or an entry that was never assigned.
-/
namespace Qugar.Py.FacetQuad

variable {K : Type} [CommRing K]

/-- Types of cells. -/
inductive Cell
  | interval | triangle | quadrilateral | tetrahedron | hexahedron
deriving DecidableEq

/-- `basix.geometry` (not part of the code): coordinates of the vertices of the reference cell. -/
def Cell.geometry : Cell → List (List Nat)
  | .interval => [[0], [1]]
  | .triangle => [[0, 0], [1, 0], [0, 1]]
  | .quadrilateral => [[0, 0], [1, 0], [0, 1], [1, 1]]
  | .tetrahedron => [[0, 0, 0], [1, 0, 0], [0, 1, 0], [0, 0, 1]]
  | .hexahedron => [[0, 0, 0], [1, 0, 0], [0, 1, 0], [1, 1, 0], [0, 0, 1], [1, 0, 1], [0, 1, 1], [1, 1, 1]]

/-- `basix.topology(…)[-2]` (not part of the code): vertices of the facets of the reference cell. -/
def Cell.topology : Cell → List (List Nat)
  | .interval => [[0], [1]]
  | .triangle => [[1, 2], [0, 2], [0, 1]]
  | .quadrilateral => [[0, 1], [0, 2], [1, 3], [2, 3]]
  | .tetrahedron => [[1, 2, 3], [0, 2, 3], [0, 1, 3], [0, 1, 2]]
  | .hexahedron => [[0, 1, 2, 3], [0, 1, 4, 5], [0, 2, 4, 6], [1, 3, 5, 7], [2, 3, 6, 7], [4, 5, 6, 7]]

/-- `facet_vertices`. custom_quad_utils.py:45-48. -/
def Cell.vertices (c : Cell) (f : Nat) : Option (List (List K)) :=
  c.topology[f]?.bind fun vs => vs.mapM fun v => c.geometry[v]?.map fun x => x.map fun n => (n : K)

/-- `mapped_points += points[:, i] * dir`, for one point. custom_quad_utils.py:58-60. -/
def addDir (x : K) (v origin p : List K) : List K :=
  List.zipWith (fun a d => a + x * d) p (List.zipWith (fun a b => a - b) v origin)

/-- `_map_single_facet_points` for one point (the rows of the array are independent). custom_quad_utils.py:27-62. -/
def mapPoint (c : Cell) (f : Nat) (pt : List K) : Option (List K) :=
  (c.vertices f).bind fun vs => vs.head?.bind fun origin =>
    if pt.length + 1 ≠ origin.length then none
    else (List.range pt.length).foldlM (fun p i =>
      vs[i + 1]?.bind fun v => pt[i]?.map fun x => addDir x v origin p) origin

/-- `_map_single_facet_points`. custom_quad_utils.py:27-62. -/
def mapSingle (c : Cell) (f : Nat) (pts : List (List K)) : Option (List (List K)) := pts.mapM (mapPoint c f)

/-- `np.where(a == v)[0]`. -/
def whereEq (a : List Nat) (v : Nat) : List Nat := (List.range a.length).filter fun k => a[k]? == some v

/-- `np.unique`. -/
def uniqueN (a : List Nat) : List Nat := (a.insertionSort (· ≤ ·)).dedup

/-- `new[ids, :] = vals`. -/
def scatter {α : Type} (new : List α) (ids : List Nat) (vals : List α) : List α :=
  (ids.zip vals).foldl (fun n p => n.set p.1 p.2) new

/-- `map_facets_points`; the new array has no values before the loop. custom_quad_utils.py:65-101. -/
def mapFacets (c : Cell) (pts : List (List K)) (facets : List Nat) : Option (List (List K)) :=
  if facets.length ≠ pts.length then none
  else ((uniqueN facets).foldlM (fun (new : List (Option (List K))) f =>
    let ids := whereEq facets f
    (ids.mapM fun k => pts[k]?).bind fun sel => (mapSingle c f sel).map fun vals => scatter new ids (vals.map some))
    (List.replicate pts.length none)).bind fun new => new.mapM id

/-- A matrix. -/
abbrev Mat (K : Type) := List (List K)

/-- Product of matrices (`@`). -/
def mul (a b : Mat K) : Mat K :=
  a.map fun row => (List.range (b.headD []).length).map fun j => ((row.zip b).map fun p => p.1 * p.2.getD j 0).sum

/-- Identity. -/
def eye (n : Nat) : Mat K := (List.range n).map fun i => (List.range n).map fun j => if i = j then 1 else 0

/-- `_create_permutation_operators`. The comparison of line 150 is of a UFL cell with a string, not of its name: it is never true, and
the last two operators are not added. custom_quad_utils.py:104-153. -/
def operators (facetCell : Cell) : Option (List (Mat K)) :=
  match facetCell with
  | .interval => some [eye 2, [[-1, 1], [0, 1]]]
  | .triangle => some (ops [[0, 1, 0], [-1, -1, 1], [0, 0, 1]])
  | .quadrilateral => some (ops [[0, 1, 0], [-1, 0, 1], [0, 0, 1]])
  | _ => none
where
  /-- The operators for a rotation. custom_quad_utils.py:142-148. -/
  ops (rt : Mat K) : List (Mat K) :=
    let rf : Mat K := [[0, 1, 0], [1, 0, 0], [0, 0, 1]]
    [eye 3, rf, rt, mul rf rt, mul rt rt, mul rf (mul rt rt)]

/-- `hom_points @ P[:, :-1]` for one point, `P` being the transpose of the operator. custom_quad_utils.py:182, 191-192. -/
def applyOp (m : Mat K) (pt : List K) : List K :=
  m.dropLast.map fun row => (List.zipWith (· * ·) (pt ++ [1]) row).sum

/-- `_permute_points`. custom_quad_utils.py:156-194. -/
def permute (facetCell : Cell) (pts : List (List K)) (perms : List Nat) : Option (List (List K)) :=
  if perms.length ≠ pts.length then none
  else (operators facetCell).bind fun ps =>
    (uniqueN perms).foldlM (fun new perm =>
      if perm = 0 then some new
      else
        let ids := whereEq perms perm
        ps[perm]?.bind fun m => (ids.mapM fun k => pts[k]?).map fun sel => scatter new ids (sel.map (applyOp m))) pts

/-- Facet type. custom_quad_utils.py:250-253. -/
def Cell.facet : Cell → Option Cell
  | .triangle | .quadrilateral => some .interval
  | .tetrahedron => some .triangle
  | .hexahedron => some .quadrilateral
  | .interval => none

/-- `_get_facet_permutations`: `all` has the permutations of DOLFINx of all the facets of all the cells.
custom_quad_utils.py:197-225. -/
def facetPerms (c : Cell) (all : List Nat) (cells facets : List Nat) : Option (List Nat) :=
  if cells.length ≠ facets.length then none
  else (cells.zip facets).mapM fun p =>
    if p.2 < c.topology.length then all[p.1 * c.topology.length + p.2]? else none

/-- `permute_facet_points`. custom_quad_utils.py:228-255. -/
def permuteFacet (c : Cell) (all : List Nat) (pts : List (List K)) (cells facets : List Nat) : Option (List (List K)) :=
  (facetPerms c all cells facets).bind fun perms => c.facet.bind fun fc => permute fc pts perms

/-- `np.repeat`. -/
def rep {α : Type} (l : List α) (n : List Nat) : List α := (l.zip n).flatMap fun p => List.replicate p.2 p.1

/-- `_map_facet_quadrature`: the points. custom_coefficients.py:593-629. -/
def mapQuad (c : Cell) (needsPerm : Bool) (all : List Nat) (nPts : List Nat) (pts : List (List K)) (facets : Facets) :
    Option (List (List K)) :=
  let cells := rep (facets.map Prod.fst) nPts
  let locals := rep (facets.map Prod.snd) nPts
  (if needsPerm then permuteFacet c all pts cells locals else some pts).bind fun p => mapFacets c p locals

/-- `_create_quadrature_facet` for interior facets: the points on both sides. custom_coefficients.py:544-591. -/
def mapInterior (c : Cell) (all : List Nat) (nPts : List Nat) (pts : List (List K)) (domain : List ((Nat × Nat) × (Nat × Nat))) :
    Option (List (List K) × List (List K)) :=
  (mapQuad c true all nPts pts (domain.map Prod.fst)).bind fun q0 =>
    (mapQuad c true all nPts pts (domain.map Prod.snd)).map fun q1 => (q0, q1)

end Qugar.Py.FacetQuad
