import Verif.Model.Tensor
import Verif.Model.Tolerance
import Verif.Model.BBox
/-
Model of `qugar::CartGridTP` and `qugar::SubCartGridTP` (cpp/qugar/cart_grid_tp.cpp).
A grid is the list of its break lists, one per direction. `none` = failed assertion or undefined behaviour.
-/
namespace Qugar
variable {K : Type} [Field K] [LinearOrder K]

/-- `CartGridTP`: the breaks along each direction (`breaks_`); domain and range are derived from them by the
constructor. cart_grid_tp.cpp:78-111. -/
abbrev Grid (K : Type) := List (List K)

namespace Grid

/-- Assertions of the constructor: at least two breaks per direction and strictly increasing breaks.
cart_grid_tp.cpp:81-96. -/
def Valid (g : Grid K) : Prop := ∀ bs ∈ g, 1 < bs.length ∧ bs.Pairwise (· < ·)

/-- `_impl::get_num_cells_dir` / `get_num_cells_dir`. cart_grid_tp.cpp:38-49, 237-240. -/
def numCellsDir (g : Grid K) : List Nat := g.map fun bs => bs.length - 1

/-- `get_num_cells`. cart_grid_tp.cpp:242-245. -/
def numCells (g : Grid K) : Nat := tsize g.numCellsDir

/-- The domain set by the constructor: first and last breaks. cart_grid_tp.cpp:98-108. -/
def domain (g : Grid K) : Box K := g.map fun bs => (bs.headD 0, bs.getLastD 0)

/-- One direction of `create_equispaced_breaks`: `x0 + dx * i`, `i = 0..n`. cart_grid_tp.cpp:56-71. -/
def equispacedDir (x0 x1 : K) (n : Nat) : List K :=
  let dx := (x1 - x0) / (n : K)
  (List.range (n + 1)).map fun (i : Nat) => x0 + dx * (i : K)

/-- `create_equispaced_breaks`. cart_grid_tp.cpp:51-74. -/
def equispaced (dom : Box K) (n : List Nat) : Grid K :=
  List.zipWith (fun iv m => equispacedDir iv.1 iv.2 m) dom n

/-- `std::distance(begin, std::upper_bound(begin, end, v))` on a sorted list: the number of leading entries not
greater than `v`. -/
def upperBound (bs : List K) (v : K) : Nat := (bs.takeWhile fun b => decide (b ≤ v)).length

/-- One direction of `get_cell_id`. cart_grid_tp.cpp:138-157. `none`: `std::prev(begin)` (undefined behaviour) or
the assertion of line 155 fails. -/
def cellIdDir (tol : K) (bs : List K) (coord : K) : Option Nat :=
  let nSpans := bs.length - 1
  match upperBound bs (coord + tol) with
  | 0 => none
  | dist + 1 =>
    let dist' := if Tol.equal tol coord (bs.getD dist 0) && dist == nSpans then dist - 1 else dist
    if dist' < nSpans then some dist' else none

/-- The loop over directions of `get_cell_id`, giving the tensor index. cart_grid_tp.cpp:136-158. -/
def cellTid (tol : K) : Grid K → List K → Option (List Nat)
  | bs :: g, x :: xs => do
    let k ← cellIdDir tol bs x
    let ks ← cellTid tol g xs
    return k :: ks
  | [], [] => some []
  | _, _ => none

/-- `CartGridTP::get_cell_id`. cart_grid_tp.cpp:134-161. -/
def cellId (g : Grid K) (tol : K) (p : List K) : Option Nat := do
  let tid ← cellTid tol g p
  flat tid g.numCellsDir

/-- `at_cells_boundary`: first direction (counted from `dir`) in which the point is on an interior knot.
cart_grid_tp.cpp:163-185. The undefined `std::prev(begin)` case gives `none` for the whole query. -/
def atCellsBoundaryFrom (tol : K) : Nat → Grid K → List K → Option (Option Nat)
  | dir, bs :: g, x :: xs =>
    match upperBound bs (x + tol) with
    | 0 => none
    | dist + 1 =>
      if Tol.equal tol x (bs.getD dist 0) && decide (0 < dist) && decide (dist < bs.length - 1) then some (some dir)
      else atCellsBoundaryFrom tol (dir + 1) g xs
  | _, _, _ => some none

/-- `CartGridTP::at_cells_boundary`. cart_grid_tp.cpp:163-185. -/
def atCellsBoundary (g : Grid K) (tol : K) (p : List K) : Option (Option Nat) := atCellsBoundaryFrom tol 0 g p

/-- `CartGridTP::on_boundary`. cart_grid_tp.cpp:188-199. -/
def onBoundary (g : Grid K) (cell facet : Nat) : Option Bool :=
  if facet < g.length * 2 then do
    let tid ← unflat cell g.numCellsDir
    let dir := facet / 2
    return tid.getD dir 0 == (if facet % 2 = 0 then 0 else g.numCellsDir.getD dir 0 - 1)
  else none

/-- The slab of tensor indices scanned by `get_boundary_cells`. cart_grid_tp.cpp:206-214. -/
def boundaryRange (g : Grid K) (facet : Nat) : Range :=
  let n := g.numCellsDir
  let dir := facet / 2
  ⟨(n.map fun _ => 0).set dir (if facet % 2 = 0 then 0 else n.getD dir 0 - 1),
   n.set dir (if facet % 2 = 0 then 1 else n.getD dir 0)⟩

/-- `CartGridTP::get_boundary_cells`: the loop of lines 220-222 over the slab. cart_grid_tp.cpp:201-225. (The code
casts each flat id to `int`; overflow is not modelled.) -/
def boundaryCells (g : Grid K) (facet : Nat) : Option (List Nat) :=
  if facet < g.length * 2 then do
    let r := boundaryRange g facet
    let tids ← r.visit (r.size + 1)
    tids.mapM fun t => flat t g.numCellsDir
  else none

/-- One direction of `get_cell_domain` / `SubCartGridTP::get_domain`. -/
def spanDir (bs : List K) (i j : Nat) : K × K := (bs.getD i 0, bs.getD j 0)

/-- `get_cell_domain` for the tensor index of the cell. cart_grid_tp.cpp:247-266. -/
def cellDomainTid (g : Grid K) (tid : List Nat) : Box K := List.zipWith (fun bs i => spanDir bs i (i + 1)) g tid

/-- `CartGridTP::get_cell_domain`. cart_grid_tp.cpp:247-266. -/
def cellDomain (g : Grid K) (cell : Nat) : Option (Box K) := (unflat cell g.numCellsDir).map g.cellDomainTid

/-- `SubCartGridTP::get_domain` (a sub-grid is a grid together with a `Range`). cart_grid_tp.cpp:328-343. -/
def subDomain : Grid K → (lo up : List Nat) → Box K
  | bs :: g, l :: ls, u :: us => spanDir bs l u :: subDomain g ls us
  | _, _, _ => []

/-- The sub-grid of all the cells. cart_grid_tp.cpp:285-289. -/
def fullRange (g : Grid K) : Range := Range.ofUpper g.numCellsDir

/-- `SubCartGridTP::is_unique_cell`. cart_grid_tp.cpp:306-309. -/
def isUniqueCell (r : Range) : Bool := r.size == 1

/-- `SubCartGridTP::get_single_cell`. cart_grid_tp.cpp:349-359. -/
def singleCell (g : Grid K) (r : Range) : Option Nat :=
  if r.size = 1 then (if r.isInRange r.lo then flat r.lo g.numCellsDir else none) else none

end Grid
end Qugar
