import Verif.Model.Partition
import Verif.Model.Classify
/-
Model of `qugar::impl::UnfittedImplDomain` (construction, cpp/qugar/impl_unfitted_domain.cpp:77-133, 409-513) and of
`qugar::UnfittedDomain` (queries, cpp/qugar/unfitted_domain.cpp).
-/
namespace Qugar
variable {K : Type} [Field K] [LinearOrder K]

/-- How a construction can fail: a failed `assert`, or (model artefact, proved impossible) exhausted recursion fuel. -/
inductive Fault | assertion | fuel
deriving DecidableEq, Repr

/-- Turning a failed precondition into a failed assertion. -/
def orFail {α : Type} : Option α → Except Fault α
  | some a => .ok a
  | none => .error .assertion

/-- The external ingredients of the construction: sign of the function on a box (interval arithmetic), cell and facet
classifiers. `margin` is the enlargement `numbers::eps * 1000` of line 453. -/
structure Oracles (K : Type) where
  sign : Box K → FuncSign
  cell : Box K → CellTmp
  facet : Box K → Nat → CellTmp → FStatus
  margin : K

/-- `std::unordered_map<cell id, facet statuses>`: association list; iteration order is the list order. -/
abbrev FMap := List (Nat × List FStatus)

/-- `find`. -/
def FMap.find? (m : FMap) (c : Nat) : Option (List FStatus) := List.lookup c m

/-- `contains`. -/
def FMap.contains (m : FMap) (c : Nat) : Bool := (m.find? c).isSome

/-- `emplace`: no effect if the key is present. -/
def FMap.emplace (m : FMap) (c : Nat) (v : List FStatus) : FMap := if m.contains c then m else m ++ [(c, v)]

/-- `intersect`. impl_unfitted_domain.cpp:77-110. -/
def intersects (n : List Nat) (r : Range) : Option (List Nat) → Bool
  | none => true
  | some cs => cs.any fun c => r.isInRangeFlat c n

/-- `insert_cells`; `debug` says whether `assert`s are compiled in (line 129 asserts that there are no target cells).
impl_unfitted_domain.cpp:121-133. -/
def insertCells (debug : Bool) (targets : Option (List Nat)) (t : Tree) (sg : FuncSign) : Except Fault Tree :=
  if debug && targets.isSome then .error .assertion
  else orFail (t.setStatus (if sg = .positive then .empty else .full))

/-- `transform_cell_status`. impl_unfitted_domain.cpp:472-483. -/
def transformStatus : CellTmp → Status
  | .cut => .cut
  | .full | .fullUnf => .full
  | .empty => .empty

/-- `classify_undetermined_sign_cell`. impl_unfitted_domain.cpp:485-513. -/
def classifyUndetermined (o : Oracles K) (g : Grid K) (t : Tree) (fm : FMap) : Except Fault (Tree × FMap) :=
  if Grid.isUniqueCell t.range then
    let dom := g.subDomain t.range.lo t.range.up
    let cell := o.cell dom
    if cell = .cut ∨ cell = .fullUnf then
      let facets := (List.range (g.length * 2)).map fun f => o.facet dom f cell
      let allFull := facets.all fun s => decide (s = .full)
      if cell = .fullUnf ∧ allFull = true then
        (orFail (t.setStatus (transformStatus .full))).map fun t' => (t', fm)
      else
        (orFail (g.singleCell t.range)).bind fun c =>
          (orFail (t.setStatus (transformStatus cell))).map fun t' => (t', fm.emplace c facets)
    else (orFail (t.setStatus (transformStatus cell))).map fun t' => (t', fm)
  else .error .assertion

/-- `create_decomposition`. impl_unfitted_domain.cpp:441-469. -/
def decompose (debug : Bool) (o : Oracles K) (g : Grid K) (targets : Option (List Nat)) :
    Nat → Tree → FMap → Except Fault (Tree × FMap)
  | 0, _, _ => .error .fuel
  | fuel + 1, t, fm =>
    if intersects g.numCellsDir t.range targets then
      let dom := g.subDomain t.range.lo t.range.up
      match o.sign (dom.extendDelta o.margin) with
      | .undetermined =>
        if Grid.isUniqueCell t.range then classifyUndetermined o g t fm
        else
          match t.branch with
          | some (.node r s a b) =>
            (decompose debug o g targets fuel a fm).bind fun x =>
              (decompose debug o g targets fuel b x.2).map fun y => (.node r s x.1 y.1, y.2)
          | _ => .error .assertion
      | sg => (insertCells debug targets t sg).map fun t' => (t', fm)
    else .ok (t, fm)

/-- `UnfittedDomain`: the grid, the partition, the facet statuses and the list of full cells with unfitted
boundary. unfitted_domain.hpp:146-152. -/
structure Dom where
  n : List Nat
  tree : Tree
  facets : FMap
  fullUnf : List Nat

/-- `std::ranges::binary_search` on a sorted list: `lower_bound`, then comparison. -/
def binarySearch (l : List Nat) (c : Nat) : Bool :=
  match l.dropWhile (fun x => decide (x < c)) with
  | [] => false
  | x :: _ => !decide (c < x)

/-- `init_full_cells_with_unf_bdry`. unfitted_domain.cpp:518-543. -/
def initFullUnf (n : List Nat) (t : Tree) (fm : FMap) : Option (List Nat) :=
  if fm.length - t.getNumCells .cut = 0 then some []
  else (t.getCellIds n .cut).map fun cuts =>
    Tree.sortIds ((fm.map (·.1)).filter fun c => !binarySearch cuts c)

/-- Constructors of `UnfittedImplDomain`. impl_unfitted_domain.cpp:415-439. The fuel (number of cells) is enough:
see the theorems for C12. -/
def build (debug : Bool) (o : Oracles K) (g : Grid K) (targets : Option (List Nat)) : Except Fault Dom :=
  (decompose debug o g targets g.numCells (Tree.root g.numCellsDir) []).bind fun x =>
    (orFail (initFullUnf g.numCellsDir x.1 x.2)).map fun l => ⟨g.numCellsDir, x.1, x.2, l⟩

namespace Dom

/-- `n_facets_per_cell`. unfitted_domain.hpp:53. -/
def nFacets (d : Dom) : Nat := d.n.length * 2

/-- `is_full_cell`. unfitted_domain.cpp:354-357. -/
def isFullCell (d : Dom) (c : Nat) : Option Bool := d.tree.isCell d.n .full c

/-- `is_full_with_unf_bdry_cell`. unfitted_domain.cpp:359-362. -/
def isFullUnfCell (d : Dom) (c : Nat) : Bool := d.facets.contains c && binarySearch d.fullUnf c

/-- `is_empty_cell`. unfitted_domain.cpp:364-367. -/
def isEmptyCell (d : Dom) (c : Nat) : Option Bool := d.tree.isCell d.n .empty c

/-- `is_cut_cell` (short-circuit `&&`). unfitted_domain.cpp:369-372. -/
def isCutCell (d : Dom) (c : Nat) : Option Bool :=
  if d.facets.contains c then d.tree.isCell d.n .cut c else some false

/-- `is_cell_with_unf_bdry`. unfitted_domain.cpp:423-426. -/
def isCellWithUnf (d : Dom) (c : Nat) : Option Bool := (d.isCutCell c).map fun b => b || d.isFullUnfCell c

/-- The facet predicates of one cell: look the cell up in the facet map, otherwise use `other`.
unfitted_domain.cpp:375-453. -/
def facetQuery (d : Dom) (p : FStatus → Bool) (other : Option Bool) (c f : Nat) : Option Bool :=
  if f < d.nFacets then
    match d.facets.find? c with
    | some fs => (fs[f]?).map p
    | none => other
  else none

/-- `is_full_facet(cell, facet)`. unfitted_domain.cpp:375-385. -/
def isFullFacet (d : Dom) (c f : Nat) : Option Bool := d.facetQuery FStatus.isFull (d.isFullCell c) c f
/-- `is_empty_facet(cell, facet)`. unfitted_domain.cpp:387-397. -/
def isEmptyFacet (d : Dom) (c f : Nat) : Option Bool := d.facetQuery FStatus.isEmpty (d.isEmptyCell c) c f
/-- `is_cut_facet(cell, facet)`. unfitted_domain.cpp:399-409. -/
def isCutFacet (d : Dom) (c f : Nat) : Option Bool := d.facetQuery FStatus.isCut (some false) c f
/-- `is_full_unfitted_facet(cell, facet)`. unfitted_domain.cpp:411-421. -/
def isFullUnfFacet (d : Dom) (c f : Nat) : Option Bool := d.facetQuery FStatus.isFullUnfitted (some false) c f
/-- `has_unfitted_boundary(cell, facet)`. unfitted_domain.cpp:428-439. -/
def hasUnfFacet (d : Dom) (c f : Nat) : Option Bool := d.facetQuery FStatus.hasUnfitted (some false) c f
/-- `has_external_boundary(cell, facet)`. unfitted_domain.cpp:441-453. -/
def hasExtFacet (d : Dom) (c f : Nat) : Option Bool := d.facetQuery FStatus.hasExternal (some false) c f

/-- `has_facets_with_unf_bdry`. unfitted_domain.cpp:75-80. -/
def hasFacetsWithUnf (d : Dom) : Bool := d.facets.any fun x => x.2.any FStatus.hasUnfitted

/-- The loop over the facet map common to all the facet lists (the two output vectors are modelled as one list of
pairs). unfitted_domain.cpp:140-147, 161-169, 196-203, 217-224, 239-246. -/
def mapFacets (d : Dom) (p : FStatus → Bool) : List (Nat × Nat) :=
  d.facets.flatMap fun x => ((List.range d.nFacets).filter fun f => p (x.2.getD f .empty)).map fun f => (x.1, f)

/-- All the facets of the listed cells. unfitted_domain.cpp:133-138, 174-183. -/
def allFacets (d : Dom) (cs : List Nat) : List (Nat × Nat) :=
  cs.flatMap fun c => (List.range d.nFacets).map fun f => (c, f)

/-- `get_empty_facets()`. unfitted_domain.cpp:119-148. -/
def emptyFacets (d : Dom) : Option (List (Nat × Nat)) :=
  (d.tree.getCellIds d.n .empty).map fun cs => d.allFacets cs ++ d.mapFacets FStatus.isEmpty

/-- `get_full_facets()`. unfitted_domain.cpp:150-183. -/
def fullFacets (d : Dom) : Option (List (Nat × Nat)) :=
  (d.tree.getCellIds d.n .full).map fun cs =>
    d.mapFacets FStatus.isFull ++ d.allFacets (cs.filter fun c => !d.facets.contains c)

/-- `get_cut_facets()`. unfitted_domain.cpp:185-203. -/
def cutFacets (d : Dom) : List (Nat × Nat) := d.mapFacets FStatus.isCut
/-- `get_full_unfitted_facets()`. unfitted_domain.cpp:205-224. -/
def fullUnfFacets (d : Dom) : List (Nat × Nat) := d.mapFacets FStatus.isFullUnfitted
/-- `get_unfitted_facets()`. unfitted_domain.cpp:227-246. -/
def unfFacets (d : Dom) : List (Nat × Nat) := d.mapFacets FStatus.hasUnfitted

/-- `get_facets_target` with the given predicate: the loop over the zipped targets.
unfitted_domain.cpp:248-275 (`none`: a predicate's assertion fails). -/
def facetsTarget (p : Nat → Nat → Option Bool) : List (Nat × Nat) → Option (List (Nat × Nat))
  | [] => some []
  | (c, f) :: xs => (p c f).bind fun b => (facetsTarget p xs).map fun ys => if b then (c, f) :: ys else ys

end Dom
end Qugar
