import Verif.Model.Mesh
/-
Model of the reparameterization of Bézier implicit domains: `ImplicitPolyReparam` and `reparam_Bezier`
(cpp/qugar/impl_reparam_bezier.cpp).

Coordinates are in an ordered field `K` (rounding is not modelled). External (parameters): the Algoim functions that
eliminate an axis, choose the height direction, find the roots of a polynomial along a line and evaluate polynomials
(`PolySet`); `std::sort` of the roots (`srt`); the interpolation parameters of the backup strategy, that the code
computes with `exp` and `log` (`ts`); the nodes `modifiedChebyshevNode` (`cheb`); the norm. `none`: a failed assertion, an
exception of `at`, or an access out of the bounds of a point. A point or tensor index is a list, direction 0 first;
the template parameter `dim` of an object is one more than the length of the points it receives.
-/
namespace Qugar.Reparam
open Roots Mesh Poly
variable {K : Type} [Field K] [LinearOrder K]

/-- The polynomials `phi_` of one level of `ImplicitPolyReparam`, given by what Algoim computes with them: their number,
the chosen height direction (`argmax(score)`), the roots of polynomial `i` on the line over a base point
(`compute_roots`, impl_reparam_bezier.cpp:218-250) and the values (`evalBernsteinPoly`). -/
structure PolySet (K : Type) where
  count : Nat
  dir : Nat
  roots : Nat → List K → List K
  eval : Nat → List K → K

/-- One level with polynomials: the polynomials, `dir_k_`, and `dir_k_` of its base. -/
structure Level (K : Type) where
  phi : PolySet K
  dir : Nat
  baseDir : Nat

/-- Parameters: tolerance, number of points per direction, nodes in [0,1], sort, interpolation parameters, and the flag `S`. -/
structure Env (K : Type) where
  tol : K
  order : Nat
  node : Nat → K
  srt : List (Root K) → List (Root K)
  ts : List K
  S : Bool

/-- `add_component`. -/
def addComponent {α : Type} (p : List α) (dir : Nat) (x : α) : List α := p.insertIdx dir x

/-- `RootsIntervals`. impl_utils.hpp. -/
structure Intervals (K : Type) where
  point : List K
  roots : List (Root K)
  active : List Bool

/-- `ref_intervals_`: an unordered map. -/
abbrev RefMap (K : Type) := List (List Nat × Intervals K)

/-- `check_point_inside`. impl_reparam_bezier.cpp:257-268. -/
def inside (phi : PolySet K) (x : List K) : Bool := (List.range phi.count).all fun i => !decide (0 < phi.eval i x)

/-- The roots added by `compute_all_intervals`. impl_reparam_bezier.cpp:280-291. -/
def allRoots (phi : PolySet K) (p : List K) : List (Root K) :=
  [(0, -1), (1, -1)] ++ (List.range phi.count).flatMap fun i => (phi.roots i p).map fun r => (r, (i : Int))

/-- `compute_all_intervals`. impl_reparam_bezier.cpp:273-306. -/
def computeAll (E : Env K) (L : Level K) (p : List K) : Option (Intervals K) :=
  let roots := adjust E.tol 0 1 (E.srt (allRoots L.phi p))
  if 0 < roots.length - 1 then
    some ⟨p, roots, (List.range (roots.length - 1)).map fun i =>
      !Tol.equal E.tol (roots.getD i (0, -1)).1 (roots.getD (i + 1) (0, -1)).1⟩
  else none

/-- `check_all_ref_intervals_inactive`; the lists hold this level and the higher ones. impl_reparam_bezier.cpp:313-333. -/
def allInactive : List (Level K) → List (RefMap K) → List Nat → Option Bool
  | L :: Ls, M :: Ms, tid => do
    let iv ← M.lookup tid
    let any ← (List.range iv.active.length).anyM fun i =>
      if iv.active.getD i false then
        if Ls.isEmpty then some true
        else (allInactive Ls Ms (addComponent tid L.dir i)).map (!·)
      else some false
    some (!any)
  | _, _, _ => none

/-- `unordered_map::emplace`: nothing is done if the key is present. -/
def emplace (M : RefMap K) (tid : List Nat) (iv : Intervals K) : RefMap K :=
  if (M.lookup tid).isSome then M else (tid, iv) :: M

/-- The mid-point of interval `i`, added to the base point. impl_reparam_bezier.cpp:356-359. -/
def midPoint (L : Level K) (roots : List (Root K)) (p : List K) (i : Nat) : List K :=
  addComponent p L.dir (1 / 2 * ((roots.getD i (0, -1)).1 + (roots.getD (i + 1) (0, -1)).1))

/-- `compute_ref_intervals`, except for the clearing of the maps of the parents when `dim == 1` (the maps are empty, as the
function is called once per object with `dim == 1`). The lists hold this level and the higher ones; the result holds their
maps. impl_reparam_bezier.cpp:340-380. -/
def computeRef (E : Env K) : List (Level K) → List K → List Nat → List (RefMap K) → Option (List (RefMap K))
  | L :: Ls, p, tid, M :: Ms => do
    let iv ← computeAll E L p
    let (act, Ms) ← (List.range iv.active.length).foldlM (fun (st : List Bool × List (RefMap K)) i =>
      if iv.active.getD i false then
        let x := midPoint L iv.roots p i
        if Ls.isEmpty then some (st.1.set i (inside L.phi x), st.2)
        else do
          let Ms ← computeRef E Ls x (addComponent tid L.dir i) st.2
          let ina ← allInactive Ls Ms (addComponent tid L.dir i)
          some (st.1.set i (!ina), Ms)
      else some st) (iv.active, Ms)
    let act := if Ls.isEmpty && E.S then
        (List.range act.length).map fun i => decide (i < act.length - 1) && (act.getD i false != act.getD (i + 1) false)
      else act
    some (emplace M tid ⟨p, iv.roots, act⟩ :: Ms)
  | _, _, _, _ => none

/-- The roots at the ends of the interval that are added when roots are missing; `n` is the number of roots of the
reference. impl_reparam_bezier.cpp:439-469. -/
def endRoots (E : Env K) (L : Level K) (i : Nat) (refPt p : List K) (refRoots new : List K) : List K :=
  let n := refRoots.length
  if new.length < n then
    let root0 := Tol.equal E.tol |L.phi.eval i (addComponent p L.dir 0)| 0
    let root1 := Tol.equal E.tol |L.phi.eval i (addComponent p L.dir 1)| 0
    if root0 != root1 then new ++ List.replicate (n - new.length) (if root0 then 0 else 1)
    else if root0 && root1 then
      if new.length + 2 = n then new ++ [0, 1]
      else if new.length + 1 = n then
        let sign := decide (0 < L.phi.eval i (addComponent refPt L.dir (1 / 2 * (0 + refRoots.headD 0))))
        let new := new.mergeSort (fun a b => decide (a ≤ b))
        let xmid := new.headD 1
        let newSign := decide (0 < L.phi.eval i (addComponent p L.dir (1 / 2 * (0 + xmid))))
        new ++ [if sign = newSign then 1 else 0]
      else new
    else new
  else new

/-- First backup strategy, interpolation along one direction: the roots at the first interpolation point with the right
number of roots. impl_reparam_bezier.cpp:471-501. -/
def backupDir (E : Env K) (L : Level K) (i : Nat) (refPt p : List K) (n : Nat) : Option (Option (List K)) :=
  let dir := max L.baseDir (p.length - 1)
  if dir < p.length then
    some ((E.ts.map fun v => L.phi.roots i (p.set dir ((1 - v) * vat p dir + v * vat refPt dir))).find? fun r =>
      r.length == n)
  else none

/-- Interpolation along all the directions. impl_reparam_bezier.cpp:503-513. -/
def backupAll (E : Env K) (L : Level K) (i : Nat) (refPt p : List K) (n : Nat) : Option (List K) :=
  (E.ts.map fun v => L.phi.roots i (List.zipWith (fun a b => (1 - v) * a + v * b) p refPt)).find? fun r => r.length == n

/-- The roots of polynomial `i` at `p`, as many as `refRoots`. impl_reparam_bezier.cpp:418-522. -/
def similarRoots (E : Env K) (L : Level K) (i : Nat) (refPt p : List K) (refRoots : List K) : Option (List K) :=
  let n := refRoots.length
  let new := (L.phi.roots i p).filter fun r => !(Tol.equal E.tol r 0 || Tol.equal E.tol r 1)
  let new := endRoots E L i refPt p refRoots new
  if new.length = n then some new
  else do
    match ← backupDir E L i refPt p n with
    | some r => some r
    | none =>
      match backupAll E L i refPt p n with
      | some r => some r
      | none => some refRoots

/-- `compute_similar_intervals`. impl_reparam_bezier.cpp:395-532. -/
def computeSimilar (E : Env K) (L : Level K) (ref : Intervals K) (p : List K) : Option (Intervals K) :=
  if ref.roots.length = 2 then some ref
  else do
    let rs ← (List.range L.phi.count).mapM fun (i : Nat) =>
      let refRoots := (ref.roots.filter fun r => decide (r.2 = (i : Int))).map (·.1)
      if refRoots.isEmpty then some []
      else (similarRoots E L i ref.point p refRoots).map fun l => l.map fun r => (r, (i : Int))
    let roots := rs.flatten ++ [(0, -1), (1, -1)]
    if roots.length = ref.roots.length then some ⟨p, adjust E.tol 0 1 (E.srt roots), ref.active⟩ else none

/-- `compute_intervals`. impl_reparam_bezier.cpp:562-573. -/
def computeIntervals (E : Env K) (L : Level K) (M : RefMap K) (p : List K) (tid : List Nat) : Option (Intervals K) := do
  let ref ← M.lookup tid
  if p.length = 0 then some ref else computeSimilar E L ref p

/-- A call of `insert_point_reparam`: point, cell, index of the point in the cell. -/
structure Event (K : Type) where
  point : List K
  cell : List Nat
  pt : List Nat

/-- Concatenation of the results of a loop. -/
def collect {α β : Type} (l : List α) (f : α → Option (List β)) : Option (List β) := (l.mapM f).map List.flatten

/-- `process`, as the list of the calls of `insert_point_reparam` it makes (these calls have no influence on it).
impl_reparam_bezier.cpp:580-617. -/
def process (E : Env K) : List (Level K) → List (RefMap K) → List K → List Nat → List Nat → Option (List (Event K))
  | L :: Ls, M :: Ms, p, tid, pt => do
    let iv ← computeIntervals E L M p tid
    collect (List.range iv.active.length) fun i =>
      if iv.active.getD i false then do
        let x0 ← iv.roots[i]?
        let x1 ← iv.roots[i + 1]?
        let cell := addComponent tid L.dir i
        if Ls.isEmpty && E.S then some [⟨addComponent p L.dir x1.1, cell, pt⟩]
        else collect (List.range E.order) fun j =>
          let x := addComponent p L.dir (x0.1 + (x1.1 - x0.1) * E.node j)
          if Ls.isEmpty then some [⟨x, cell, addComponent pt L.dir j⟩]
          else process E Ls Ms x cell (addComponent pt L.dir j)
      else some []
  | _, _, _, _, _ => none

/-- `dir_k_` of the base of a level of dimension `dim + 1`. impl_reparam_bezier.cpp:147-182. -/
def baseDirOf (dim : Nat) : List (PolySet K) → Nat
  | base :: _ => if base.count = 0 then dim else if dim = 1 then 0 else base.dir
  | [] => 0

/-- `build`: the dimension of the level without polynomials where the elimination stops (0: none), and the levels above it,
lowest first. The list holds the polynomials obtained by successive elimination, in dimension `dim`, `dim - 1`, … The other
base cases of the aggregate mode are not used by the reparameterization. impl_reparam_bezier.cpp:141-200. -/
def build : Nat → List (PolySet K) → List (Level K) → Nat × List (Level K)
  | 0, _, parents => (0, parents)
  | dim + 1, [], parents => (dim + 1, parents)
  | dim + 1, phi :: rest, parents =>
    if phi.count = 0 then (dim + 1, parents)
    else build dim rest (⟨phi, if dim = 0 then 0 else phi.dir, baseDirOf dim rest⟩ :: parents)

/-- `reparam` when there is a level with polynomials: the calls of `insert_point_reparam`; `b` and `Ls` are the results of
`build`. impl_reparam_bezier.cpp:642-689. -/
def events (E : Env K) (b : Nat) (Ls : List (Level K)) : Option (List (Event K)) := do
  let Ms ← computeRef E Ls (List.replicate b (1 / 2)) (List.replicate b 0) (Ls.map fun _ => [])
  if b = 0 then process E Ls Ms [] [] []
  else collect (visitAll (Range.ofUpper (List.replicate b E.order))) fun pt =>
    process E Ls Ms (pt.map E.node) (List.replicate b 0) pt

/-- The first part of `insert_point_reparam`: the id of a cell, that is allocated if needed; the state is the mesh and
`cells_indices_map_`. impl_reparam_bezier.cpp:538-546. -/
def cellId (st : Mesh K × List (List Nat × Nat)) (tid : List Nat) : Mesh K × List (List Nat × Nat) × Nat :=
  match st.2.lookup tid with
  | some c => (st.1, st.2, c)
  | none => ((allocateCells st.1 1).1, (tid, (allocateCells st.1 1).2) :: st.2, (allocateCells st.1 1).2)

/-- `insert_point_reparam`. impl_reparam_bezier.cpp:534-552. -/
def insertPoint (st : Mesh K × List (List Nat × Nat)) (e : Event K) : Option (Mesh K × List (List Nat × Nat)) := do
  let c := cellId st e.cell
  let id ← flat e.pt (List.replicate c.1.dim c.1.order)
  let m ← insertCellPoint c.1 e.point.reverse c.2.2 id
  some (m, c.2.1)

/-- A polynomial of the domain: is its mask empty (`maskEmpty(nonzeroMask(...))`), its value at the centre, its values.
The oracle `phis` of `create` gives the result of the successive eliminations for a list of polynomials. -/
structure BezierPoly (K : Type) where
  maskEmpty : Bool
  centre : K
  value : List K → K

/-- The polynomials kept by `create`: the loop stops, and none are kept, at a polynomial without zeros that is positive.
impl_reparam_bezier.cpp:722-733. -/
def keptPolys (polys : List (BezierPoly K)) : List (BezierPoly K) :=
  if polys.any fun q => q.maskEmpty && decide (0 < q.centre) then [] else polys.filter fun q => !q.maskEmpty

/-- The box `[0,1]^n`. -/
def unitBox (n : Nat) : Box K := List.replicate n (0, 1)

/-- `create`: `build` and `reparam`. impl_reparam_bezier.cpp:713-738, 642-689. -/
def create (cheb : Nat → Nat → K) (E : Env K) (phis : List (BezierPoly K) → List (PolySet K)) (m : Mesh K)
    (polys : List (BezierPoly K)) : Option (Mesh K) :=
  let bl := build m.range (phis (keptPolys polys)) []
  if bl.2.isEmpty then
    if E.S then some m else addFullCell cheb m (unitBox m.range) false
  else do
    let evs ← events E bl.1 bl.2
    let st ← evs.foldlM insertPoint (m, [])
    some st.1

/-- The orientation of the new cells. impl_reparam_bezier.cpp:694-704. -/
def orientNew (cheb : Nat → Nat → K) (norm : List K → K) (S : Bool) (outer : List K → List K) (m : Mesh K) (cells : List Nat) :
    Option (Mesh K) :=
  if S then orientLevelset cheb norm m cells outer else orientCells cheb m cells

/-- `reparameterize`; `outer` is the normal of the level set used by `orient_levelset_cells_positively`, `wtol` the tolerance
`1.0e4 * eps`. impl_reparam_bezier.cpp:747-777. -/
def reparameterize (cheb : Nat → Nat → K) (norm : List K → K) (E : Env K) (phis : List (BezierPoly K) → List (PolySet K))
    (outer : List K → List K) (wtol : K) (m : Mesh K) (polys : List (BezierPoly K)) (domain : Box K) : Option (Mesh K) := do
  let n0 ← numCells m
  let p0 := m.points.length
  let m ← create cheb E phis m polys
  let n1 ← numCells m
  let p1 := m.points.length
  let cells := List.range' n0 (n1 - n0)
  let m ← orientNew cheb norm E.S outer m cells
  let m ← generateWirebasket m (polys.map (·.value)) cells (unitBox m.range) wtol
  scalePoints m (List.range' p0 (p1 - p0)) (unitBox m.range) domain

end Qugar.Reparam
