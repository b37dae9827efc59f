import Verif.Model.Domain
import Mathlib.Data.List.Sort
/-
Model of `qugar::Quadrature` (cpp/qugar/quadrature.cpp), of the generation of cell, facet and unfitted boundary
quadratures (cpp/qugar/impl_quadrature.cpp) and of the exported functions of cpp/qugar/cut_quadrature.cpp.
`none` = failed assertion. The points generated by Algoim are an oracle (`QOracle`).
-/
namespace Qugar
variable {K : Type} [Field K] [LinearOrder K]

/-- A quadrature point with its weight. -/
abbrev Node (K : Type) := List K × K

/-- The template parameter `QuadType` of `create_tp_quadrature`: `n_max`, `get_abscissa`, `get_weight`.
quadrature.cpp:89-108, 199-201. -/
structure QuadType (K : Type) where
  nMax : Nat
  abscissa : Nat → Nat → K
  weight : Nat → Nat → K

/-- `Quadrature<dim>`: points and weights. quadrature.cpp:110-116. -/
structure Rule (K : Type) where
  points : List (List K)
  weights : List K
deriving DecidableEq

namespace Rule

/-- Writing the nodes through the two iterators `it_p` and `it_w`, which advance together. quadrature.cpp:211-277. -/
def ofNodes (l : List (Node K)) : Rule K := ⟨l.map (·.1), l.map (·.2)⟩

/-- `get_num_points`. quadrature.cpp:189-192. -/
def numPoints (r : Rule K) : Nat := r.points.length

/-- `scale_weights`. quadrature.cpp:194-197. -/
def scaleWeights (r : Rule K) (ratio : K) : Rule K := { r with weights := r.weights.map (· * ratio) }

end Rule

/-- `create_tp_quadrature`, `dim == 1`. quadrature.cpp:217-224. -/
def tpNodes1 (q : QuadType K) (n0 : Nat) (i0 : K × K) : List (Node K) :=
  (List.range n0).map fun i => ([i0.1 + q.abscissa n0 i * (i0.2 - i0.1)], q.weight n0 i * (i0.2 - i0.1))

/-- `create_tp_quadrature`, `dim == 2`. quadrature.cpp:226-245. -/
def tpNodes2 (q : QuadType K) (n0 n1 : Nat) (i0 i1 : K × K) : List (Node K) :=
  (List.range n1).flatMap fun j =>
    let pj := i1.1 + q.abscissa n1 j * (i1.2 - i1.1)
    let wj := q.weight n1 j * (i1.2 - i1.1)
    (List.range n0).map fun i =>
      let pi := i0.1 + q.abscissa n0 i * (i0.2 - i0.1)
      let wi := q.weight n0 i * (i0.2 - i0.1)
      ([pi, pj], wi * wj)

/-- `create_tp_quadrature`, `dim == 3` (the lower corner is added to the weights instead of to the points, as in the
code). quadrature.cpp:247-275. -/
def tpNodes3 (q : QuadType K) (n0 n1 n2 : Nat) (i0 i1 i2 : K × K) : List (Node K) :=
  (List.range n2).flatMap fun k =>
    let pk := q.abscissa n2 k * (i2.2 - i2.1)
    let wk := i2.1 + q.weight n2 k * (i2.2 - i2.1)
    (List.range n1).flatMap fun j =>
      let pj := q.abscissa n1 j * (i1.2 - i1.1)
      let wj := i1.1 + q.weight n1 j * (i1.2 - i1.1)
      (List.range n0).map fun i =>
        let pi := q.abscissa n0 i * (i0.2 - i0.1)
        let wi := i0.1 + q.weight n0 i * (i0.2 - i0.1)
        ([pi, pj, pk], wi * wj * wk)

/-- `create_tp_quadrature`. quadrature.cpp:199-279. The assertions met on the way are collected in one test: the
accessors assert `1 ≤ n ≤ n_max` (lines 50-51, 77-78) and the constructor asserts that there is a point (line 114). -/
def createTp (q : QuadType K) (ns : List Nat) (b : Box K) : Option (Rule K) :=
  if ns.all fun n => decide (1 ≤ n ∧ n ≤ q.nMax) then
    match ns, b with
    | [n0], [i0] => some (.ofNodes (tpNodes1 q n0 i0))
    | [n0, n1], [i0, i1] => some (.ofNodes (tpNodes2 q n0 n1 i0 i1))
    | [n0, n1, n2], [i0, i1, i2] => some (.ofNodes (tpNodes3 q n0 n1 n2 i0 i1 i2))
    | _, _ => none
  else none

/-- `create_Gauss_01(n_points)`, `create_tanh_sinh_01(n_points)`: the same number of points in each direction, default
domain `[0,1]^dim`. quadrature.cpp:118-165; bbox.cpp:34. -/
def create01 (q : QuadType K) (dim n : Nat) : Option (Rule K) :=
  createTp q (List.replicate dim n) (List.replicate dim (0, 1))

/-- The `static` rules of `create_cell_quadrature<dim>` and `create_facet_quadrature<dim>`, one per instantiation
(`none`: not initialised yet). impl_quadrature.cpp:522, 625. -/
structure Cache (K : Type) where
  cell : Nat → Option (Rule K)
  facet : Nat → Option (Rule K)

/-- Nothing initialised. -/
def Cache.init : Cache K := ⟨fun _ => none, fun _ => none⟩

/-- Initialisation of the static rule in the first call, and its replacement when the number of points differs.
impl_quadrature.cpp:522-525, 625-628. `size` is `n_pts_per_quad_set`. -/
def refreshRule (q : QuadType K) (dim n size : Nat) (st : Option (Rule K)) : Option (Rule K) :=
  (match st with
    | none => create01 q dim n
    | some r => some r).bind fun r => if r.numPoints ≠ size then create01 q dim n else some r

/-- `n_pts_per_quad_set` for cells. impl_quadrature.cpp:520. -/
def cellSetSize (dim n : Nat) : Nat := n * n * (if dim = 3 then n else 1)

/-- `n_pts_per_quad_set` for facets. impl_quadrature.cpp:623. -/
def facetSetSize (dim n : Nat) : Nat := n * (if dim = 3 then n else 1)

/-- `CutCellsQuad`. cut_quadrature.hpp:36-49. -/
structure CellsQuad (K : Type) where
  cells : List Nat
  nPts : List Int
  points : List (List K)
  weights : List K
deriving DecidableEq

/-- `CutIsoBoundsQuad`. cut_quadrature.hpp:51-66. -/
structure FacetsQuad (K : Type) where
  cells : List Nat
  facets : List Nat
  nPts : List Int
  points : List (List K)
  weights : List K
deriving DecidableEq

/-- `CutUnfBoundsQuad`. cut_quadrature.hpp:68-82. -/
structure UnfQuad (K : Type) where
  cells : List Nat
  nPts : List Int
  points : List (List K)
  weights : List K
  normals : List (List K)
deriving DecidableEq

/-- What the quadrature code gets from outside: the implicit function and the points that Algoim passes to the
callbacks, in the order in which it passes them. The `…Gen` fields are `ImplicitIntegral` on a box (points in the box);
the `…Bzr` fields are `ImplicitPolyQuadrature` for the Bezier function rescaled to the box (points in the unit cube, in
Algoim's reversed order of directions). -/
structure QOracle (K : Type) where
  isBezier : Bool
  val : List K → K
  grad : List K → List K
  norm : List K → K
  tol : K
  volGen : Box K → Nat → List (Node K)
  surfGen : Box K → Nat → List (Node K)
  facetGen : Box K → Nat → Nat → Nat → List (Node K)
  volBzr : Box K → Nat → List (Node K)
  surfBzr : Box K → Nat → List (Node K)
  facetBzr : Box K → Nat → Nat → List (Node K)
  bzrVal : Box K → List K → K
  bzrGrad : Box K → List K → List K
  bzrFacetVal : Box K → Nat → List K → K

/-- `CutCellsQuadWrapper::evalIntegrand`. impl_quadrature.cpp:65-69. -/
def evalCell (dom : Box K) (q : CellsQuad K) (x : Node K) : CellsQuad K :=
  { q with points := q.points ++ [dom.scaleTo01 x.1], weights := q.weights ++ [x.2 / dom.volume] }

/-- The callback of `ImplicitPolyQuadrature::integrate`. impl_quadrature.cpp:188-196. -/
def evalCellBzr (o : QOracle K) (dom : Box K) (q : CellsQuad K) (x : Node K) : CellsQuad K :=
  let p := x.1.reverse
  if o.bzrVal dom p < 0 then { q with points := q.points ++ [p], weights := q.weights ++ [x.2] } else q

/-- `compute_quadrature_with_algoim<dim, false>`. impl_quadrature.cpp:138-215. -/
def algoimCell (o : QOracle K) (dom : Box K) (n : Nat) (q : CellsQuad K) : CellsQuad K :=
  let q' := if o.isBezier then (o.volBzr dom n).foldl (evalCellBzr o dom) q
    else (o.volGen dom n).foldl (evalCell dom) q
  { q' with nPts := q'.nPts ++ [(q'.points.length : Int) - q.points.length] }

/-- `create_cell_quadrature`. impl_quadrature.cpp:492-537. -/
def cellQuad (t : QuadType K) (o : QOracle K) (g : Grid K) (d : Dom) (n c : Nat) (ch : Cache K) (q : CellsQuad K) :
    Option (Cache K × CellsQuad K) :=
  if 0 < n then
    (d.isCutCell c).bind fun cut =>
      if cut then (g.cellDomain c).map fun dom => (ch, algoimCell o dom n q)
      else
        (d.isFullCell c).bind fun full =>
          if full then
            let size := cellSetSize g.length n
            (refreshRule t g.length n size (ch.cell g.length)).map fun r =>
              ({ ch with cell := fun k => if k = g.length then some r else ch.cell k },
               { q with points := q.points ++ r.points, weights := q.weights ++ r.weights,
                        nPts := q.nPts ++ [(size : Int)] })
          else some (ch, { q with nPts := q.nPts ++ [0] })
  else none

/-- The loop of `create_quadrature` over the cells. cut_quadrature.cpp:129-131. -/
def cellLoop (t : QuadType K) (o : QOracle K) (g : Grid K) (d : Dom) (n : Nat) :
    List Nat → Cache K → CellsQuad K → Option (Cache K × CellsQuad K)
  | [], ch, q => some (ch, q)
  | c :: cs, ch, q => (cellQuad t o g d n c ch q).bind fun x => cellLoop t o g d n cs x.1 x.2

/-- `create_quadrature`. cut_quadrature.cpp:107-138. -/
def createQuadrature (t : QuadType K) (o : QOracle K) (g : Grid K) (d : Dom) (cells : List Nat) (n : Nat)
    (ch : Cache K) : Option (Cache K × CellsQuad K) :=
  if 0 < n then cellLoop t o g d n cells ch ⟨cells, [], [], []⟩ else none

/-- `points_to_erase` sorted in descending order and erased one by one, in one of the vectors.
impl_quadrature.cpp:219-228. -/
def erasePoints {α : Type} (ids : List Nat) (l : List α) : List α :=
  (ids.insertionSort (· ≥ ·)).foldl (fun l i => l.eraseIdx i) l

/-- `v.back() -= k`. impl_quadrature.cpp:230-235. -/
def backSub (l : List Int) (k : Int) : List Int := l.dropLast ++ [l.getLastD 0 - k]

/-- `++v.back()`. impl_quadrature.cpp:381. -/
def backInc (l : List Int) : List Int := l.dropLast ++ [l.getLastD 0 + 1]

/-- `erase_points_in_quad<CutIsoBoundsQuad, true>`. impl_quadrature.cpp:217-236. -/
def eraseFacet (ids : List Nat) (q : FacetsQuad K) : FacetsQuad K :=
  { q with points := erasePoints ids q.points, weights := erasePoints ids q.weights,
           nPts := backSub q.nPts ids.length }

/-- `erase_points_in_quad<CutUnfBoundsQuad, false>`. impl_quadrature.cpp:217-236. -/
def eraseUnf (ids : List Nat) (q : UnfQuad K) : UnfQuad K :=
  { q with points := erasePoints ids q.points, weights := erasePoints ids q.weights,
           normals := erasePoints ids q.normals, nPts := backSub q.nPts ids.length }

/-- `facet_coord_0_1`. impl_quadrature.cpp:258, 317. -/
def facetCoord (f : Nat) : K := if f % 2 = 0 then 0 else 1

/-- The body of the loop of `purge_facet_points` for unfitted boundary rules: is the point removed?
impl_quadrature.cpp:266-285. -/
def purgeUnfTest (o : QOracle K) (dom : Box K) (f : Nat) (p nrm : List K) : Bool :=
  if !Tol.equal o.tol (p.getD (f / 2) 0) (facetCoord f) then false
  else if Tol.smallerThan o.tol |nrm.getD (f / 2) 0| 1 then false
  else Tol.isZero o.tol (o.val (dom.scaleFrom01 p))

/-- The ids visited by the loops of `purge_facet_points`: the last `back()` points. impl_quadrature.cpp:260-266, 319-327. -/
def lastIds (nPts : List Int) (total : Nat) : List Nat :=
  let n := (nPts.getLastD 0).toNat
  (List.range n).map fun i => total - n + i

/-- `purge_facet_points` (unfitted boundary rules). impl_quadrature.cpp:238-288. -/
def purgeUnf (o : QOracle K) (g : Grid K) (d : Dom) (c f : Nat) (q : UnfQuad K) : Option (UnfQuad K) :=
  (d.hasUnfFacet c f).bind fun unf => (d.hasExtFacet c f).bind fun ext =>
    if !unf && !ext then some q
    else (g.cellDomain c).map fun dom =>
      eraseUnf ((lastIds q.nPts q.points.length).filter fun i =>
        purgeUnfTest o dom f (q.points.getD i []) (q.normals.getD i [])) q

/-- The body of the loop of `purge_facet_points` for facet rules: is the point removed?
impl_quadrature.cpp:327-344. -/
def purgeFacetTest (o : QOracle K) (dom : Box K) (f : Nat) (purgeUnf purgeExt purgeCut : Bool) (p : List K) : Bool :=
  let x := dom.scaleFrom01 (p.insertIdx (f / 2) (facetCoord f))
  if Tol.isZero o.tol (o.val x) then
    let comp := (o.grad x).getD (f / 2) 0
    let outside := if f % 2 = 0 then Tol.isNegative o.tol comp else Tol.isPositive o.tol comp
    (outside && purgeUnf) || (!outside && purgeExt)
  else purgeCut

/-- `purge_facet_points` (facet rules). impl_quadrature.cpp:291-347. -/
def purgeFacet (o : QOracle K) (g : Grid K) (d : Dom) (c f : Nat) (remUnf remExt remCut : Bool) (q : FacetsQuad K) :
    Option (FacetsQuad K) :=
  (d.hasUnfFacet c f).bind fun hasUnf =>
    let pu := remUnf && hasUnf
    let pe := remExt && hasUnf
    (if remCut then d.isCutFacet c f else some false).bind fun pc =>
      if !pu && !pe && !pc then some q
      else (g.cellDomain c).map fun dom =>
        eraseFacet ((lastIds q.nPts q.points.length).filter fun i =>
          purgeFacetTest o dom f pu pe pc (q.points.getD i [])) q

/-- `CutIsoBoundsQuadWrapper::evalIntegrand`. impl_quadrature.cpp:130-135. -/
def evalFacet (dom : Box K) (dir : Nat) (q : FacetsQuad K) (x : Node K) : FacetsQuad K :=
  { q with points := q.points ++ [(dom.slice dir).scaleTo01 (x.1.eraseIdx dir)],
           weights := q.weights ++ [x.2 / (dom.slice dir).volume] }

/-- The callback of the facet version of `ImplicitPolyQuadrature::integrate`. impl_quadrature.cpp:458-465. -/
def evalFacetBzr (o : QOracle K) (dom : Box K) (f : Nat) (q : FacetsQuad K) (x : Node K) : FacetsQuad K :=
  let p := x.1.reverse
  if o.bzrFacetVal dom f p < 0 then { q with points := q.points ++ [p], weights := q.weights ++ [x.2] } else q

/-- `compute_facet_quadrature_with_algoim`. impl_quadrature.cpp:392-487. `debug`: assertions are compiled in
(lines 404, 444 assert that the facet is cut). -/
def algoimFacet (debug : Bool) (o : QOracle K) (g : Grid K) (d : Dom) (c f n : Nat) (q : FacetsQuad K) :
    Option (FacetsQuad K) :=
  (if debug then d.isCutFacet c f else some true).bind fun ok =>
    if ok then (g.cellDomain c).map fun dom =>
      let q' := if o.isBezier then (o.facetBzr dom f n).foldl (evalFacetBzr o dom f) q
        else (o.facetGen dom (f / 2) (f % 2) n).foldl (evalFacet dom (f / 2)) q
      { q' with nPts := q'.nPts ++ [(q'.points.length : Int) - q.points.length] }
    else none

/-- `create_facet_quadrature`. impl_quadrature.cpp:594-649. The disjunctions are short-circuited as in C++. -/
def facetQuad (debug : Bool) (t : QuadType K) (o : QOracle K) (g : Grid K) (d : Dom) (n c f : Nat)
    (remUnf remCut : Bool) (ch : Cache K) (q : FacetsQuad K) : Option (Cache K × FacetsQuad K) :=
  if f < g.length * 2 ∧ 0 < n then
    (d.isFullUnfFacet c f).bind fun fullUnf =>
      (if fullUnf then some true else d.isFullFacet c f).bind fun full =>
        if full then
          if fullUnf && remUnf then some (ch, { q with nPts := q.nPts ++ [0] })
          else
            let size := facetSetSize g.length n
            (refreshRule t (g.length - 1) n size (ch.facet g.length)).map fun r =>
              ({ ch with facet := fun k => if k = g.length then some r else ch.facet k },
               { q with points := q.points ++ r.points, weights := q.weights ++ r.weights,
                        nPts := q.nPts ++ [(size : Int)] })
        else
          (d.isCutFacet c f).bind fun cut =>
            (if cut then some true else d.hasUnfFacet c f).bind fun b =>
              if b then
                (algoimFacet debug o g d c f n q).bind fun q1 =>
                  (purgeFacet o g d c f remUnf true remCut q1).map fun q2 => (ch, q2)
              else some (ch, { q with nPts := q.nPts ++ [0] })
  else none

/-- Which integral the facet rules are meant for. cut_quadrature.cpp:178-262. -/
inductive FacetIntegral | interior | exterior
deriving DecidableEq

/-- The lambdas `facet_quad_creator`. cut_quadrature.cpp:197-209, 238-256; `is_exterior_facet`:
unfitted_domain.cpp:47-53. -/
def facetCreator (debug : Bool) (t : QuadType K) (o : QOracle K) (g : Grid K) (d : Dom) (n : Nat)
    (kind : FacetIntegral) (c f : Nat) (ch : Cache K) (q : FacetsQuad K) : Option (Cache K × FacetsQuad K) :=
  (g.onBoundary c f).bind fun ext =>
    match kind with
    | .interior =>
      if !ext then facetQuad debug t o g d n c f true false ch q
      else some (ch, { q with nPts := q.nPts ++ [0] })
    | .exterior =>
      if ext then facetQuad debug t o g d n c f false false ch q
      else (d.hasUnfFacet c f).bind fun unf =>
        if unf then facetQuad debug t o g d n c f false true ch q
        else some (ch, { q with nPts := q.nPts ++ [0] })

/-- The loop of `create_facets_quadrature_generic`. cut_quadrature.cpp:66-72. -/
def facetLoop (debug : Bool) (t : QuadType K) (o : QOracle K) (g : Grid K) (d : Dom) (n : Nat)
    (kind : FacetIntegral) : List (Nat × Nat) → Cache K → FacetsQuad K → Option (Cache K × FacetsQuad K)
  | [], ch, q => some (ch, q)
  | (c, f) :: cs, ch, q =>
    (facetCreator debug t o g d n kind c f ch q).bind fun x => facetLoop debug t o g d n kind cs x.1 x.2

/-- `create_facets_quadrature_interior_integral` and `create_facets_quadrature_exterior_integral`.
cut_quadrature.cpp:39-76, 178-262. -/
def createFacetsQuadrature (debug : Bool) (t : QuadType K) (o : QOracle K) (g : Grid K) (d : Dom)
    (kind : FacetIntegral) (cells facets : List Nat) (n : Nat) (ch : Cache K) : Option (Cache K × FacetsQuad K) :=
  if cells.length = facets.length ∧ 0 < n then
    facetLoop debug t o g d n kind (cells.zip facets) ch ⟨cells, facets, [], [], []⟩
  else none

/-- `CutUnfBoundsQuadWrapper::evalIntegrand`. impl_quadrature.cpp:87-111. -/
def evalUnf (o : QOracle K) (dom : Box K) (q : UnfQuad K) (x : Node K) : UnfQuad K :=
  let n0 := o.grad x.1
  let n1 := n0.map (· / o.norm n0)
  let n2 := List.zipWith (· * ·) n1 dom.lengths
  let nn := o.norm n2
  { q with points := q.points ++ [dom.scaleTo01 x.1], weights := q.weights ++ [x.2 * nn / dom.volume],
           normals := q.normals ++ [n2.map (· / nn)] }

/-- The callback of `integrate_surf`. impl_quadrature.cpp:174-186. -/
def evalUnfBzr (o : QOracle K) (dom : Box K) (q : UnfQuad K) (x : Node K) : UnfQuad K :=
  let gr := o.bzrGrad dom x.1
  { q with points := q.points ++ [x.1.reverse], weights := q.weights ++ [x.2],
           normals := q.normals ++ [(gr.map (· / o.norm gr)).reverse] }

/-- `compute_quadrature_with_algoim<dim, true>`. impl_quadrature.cpp:138-215. -/
def algoimUnf (o : QOracle K) (dom : Box K) (n : Nat) (q : UnfQuad K) : UnfQuad K :=
  let q' := if o.isBezier then (o.surfBzr dom n).foldl (evalUnfBzr o dom) q
    else (o.surfGen dom n).foldl (evalUnf o dom) q
  { q' with nPts := q'.nPts ++ [(q'.points.length : Int) - q.points.length] }

/-- The loop of `create_cell_unfitted_bound_quadrature` that removes points on facets. impl_quadrature.cpp:571-576. -/
def purgeUnfLoop (o : QOracle K) (g : Grid K) (d : Dom) (c : Nat) : List Nat → UnfQuad K → Option (UnfQuad K)
  | [], q => some q
  | f :: fs, q =>
    (d.hasUnfFacet c f).bind fun unf =>
      (if unf then purgeUnf o g d c f q else some q).bind fun q' => purgeUnfLoop o g d c fs q'

/-- One turn of the loop at the end of `add_unf_bdry_quad`. impl_quadrature.cpp:379-388. The normal starts as the zero
vector (`Point<dim> normal;`, default constructor of Algoim's vector). -/
def addUnfPoint (dim f : Nat) (q : UnfQuad K) (x : Node K) : UnfQuad K :=
  { q with nPts := backInc q.nPts, points := q.points ++ [x.1.insertIdx (f / 2) (facetCoord f)],
           weights := q.weights ++ [x.2],
           normals := q.normals ++ [(List.replicate dim (0 : K)).set (f / 2) (if f % 2 = 0 then -1 else 1)] }

/-- `add_unf_bdry_quad`. impl_quadrature.cpp:349-389. -/
def addUnfBdry (debug : Bool) (t : QuadType K) (o : QOracle K) (g : Grid K) (d : Dom) (n c f : Nat) (ch : Cache K)
    (q : UnfQuad K) : Option (Cache K × UnfQuad K) :=
  (d.hasUnfFacet c f).bind fun unf =>
    if unf then
      (facetQuad debug t o g d n c f false true ch ⟨[], [], [], [], []⟩).map fun x =>
        (x.1, ((x.2.points.zip x.2.weights).take (x.2.nPts.getLastD 0).toNat).foldl (addUnfPoint g.length f) q)
    else some (ch, q)

/-- The loop of `create_cell_unfitted_bound_quadrature` that adds the facets. impl_quadrature.cpp:582-591. -/
def addUnfLoop (debug : Bool) (t : QuadType K) (o : QOracle K) (g : Grid K) (d : Dom) (n c : Nat) (exclExt : Bool) :
    List Nat → Cache K → UnfQuad K → Option (Cache K × UnfQuad K)
  | [], ch, q => some (ch, q)
  | f :: fs, ch, q =>
    (d.hasUnfFacet c f).bind fun unf =>
      (if unf then
        (if exclExt then g.onBoundary c f else some false).bind fun skip =>
          if skip then some (ch, q) else addUnfBdry debug t o g d n c f ch q
      else some (ch, q)).bind fun x => addUnfLoop debug t o g d n c exclExt fs x.1 x.2

/-- `create_cell_unfitted_bound_quadrature`. impl_quadrature.cpp:539-592. -/
def unfQuad (debug : Bool) (t : QuadType K) (o : QOracle K) (g : Grid K) (d : Dom) (n : Nat) (incl exclExt : Bool)
    (c : Nat) (ch : Cache K) (q : UnfQuad K) : Option (Cache K × UnfQuad K) :=
  if 0 < n then
    (d.isCellWithUnf c).bind fun w =>
      if !w then some (ch, { q with nPts := q.nPts ++ [0] })
      else
        (d.isCutCell c).bind fun cut =>
          (if cut then
            (g.cellDomain c).bind fun dom =>
              purgeUnfLoop o g d c (List.range (g.length * 2)) (algoimUnf o dom n q)
          else some { q with nPts := q.nPts ++ [0] }).bind fun q1 =>
            if incl then addUnfLoop debug t o g d n c exclExt (List.range (g.length * 2)) ch q1
            else some (ch, q1)
  else none

/-- The loop of `create_unfitted_bound_quadrature`. cut_quadrature.cpp:165-168. -/
def unfLoop (debug : Bool) (t : QuadType K) (o : QOracle K) (g : Grid K) (d : Dom) (n : Nat) (incl exclExt : Bool) :
    List Nat → Cache K → UnfQuad K → Option (Cache K × UnfQuad K)
  | [], ch, q => some (ch, q)
  | c :: cs, ch, q =>
    (unfQuad debug t o g d n incl exclExt c ch q).bind fun x => unfLoop debug t o g d n incl exclExt cs x.1 x.2

/-- `create_unfitted_bound_quadrature`. cut_quadrature.cpp:140-175. -/
def createUnfQuadrature (debug : Bool) (t : QuadType K) (o : QOracle K) (g : Grid K) (d : Dom) (cells : List Nat)
    (n : Nat) (incl exclExt : Bool) (ch : Cache K) : Option (Cache K × UnfQuad K) :=
  if 0 < n then unfLoop debug t o g d n incl exclExt cells ch ⟨cells, [], [], [], []⟩ else none

/-- A call of one of the exported functions. -/
inductive QuadCall (K : Type)
  | cells (o : QOracle K) (g : Grid K) (d : Dom) (cells : List Nat) (n : Nat)
  | facets (o : QOracle K) (g : Grid K) (d : Dom) (kind : FacetIntegral) (cells facets : List Nat) (n : Nat)
  | unfitted (o : QOracle K) (g : Grid K) (d : Dom) (cells : List Nat) (n : Nat) (incl exclExt : Bool)

/-- The object returned by a call. -/
inductive QuadResult (K : Type)
  | cells (q : CellsQuad K)
  | facets (q : FacetsQuad K)
  | unfitted (q : UnfQuad K)
deriving DecidableEq

/-- Executing a call in a process whose static rules are `ch`. -/
def QuadCall.exec (debug : Bool) (t : QuadType K) (ch : Cache K) : QuadCall K → Option (Cache K × QuadResult K)
  | .cells o g d cs n => (createQuadrature t o g d cs n ch).map fun x => (x.1, .cells x.2)
  | .facets o g d kind cs fs n =>
    (createFacetsQuadrature debug t o g d kind cs fs n ch).map fun x => (x.1, .facets x.2)
  | .unfitted o g d cs n incl exclExt =>
    (createUnfQuadrature debug t o g d cs n incl exclExt ch).map fun x => (x.1, .unfitted x.2)

/-- Executing calls one after the other. -/
def QuadCall.execAll (debug : Bool) (t : QuadType K) : List (QuadCall K) → Cache K → Option (Cache K)
  | [], ch => some ch
  | c :: cs, ch => (c.exec debug t ch).bind fun x => execAll debug t cs x.1

end Qugar
