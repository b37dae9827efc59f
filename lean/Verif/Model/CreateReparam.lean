import Verif.Model.Mesh
import Verif.Model.Partition
/-
Model of `qugar::impl::create_reparameterization` (cpp/qugar/impl_reparam.cpp). The reparameterization of one cut cell
(`reparam_Bezier` or `reparam_general`) is the parameter `cutCell`: it takes the mesh and the domain of the cell and gives the
new mesh, or `none` if one of its assertions fails. The sorts of `merge_coincident_points` are parameters, as in the model of the mesh.
-/
namespace Qugar.Mesh
open Tree
variable {K : Type} [Field K] [LinearOrder K]

/-- The loop over the cut cells. impl_reparam.cpp:77-90. -/
def addCutCells (g : Grid K) (cutCell : Mesh K → Box K → Option (Mesh K)) (cut : List Nat) (m : Mesh K) : Option (Mesh K) :=
  cut.foldlM (fun m c => do
    let domain ← g.cellDomain c
    cutCell m domain) m

/-- The full cells, for volumes only. impl_reparam.cpp:92-98. -/
def addFulls (cheb : Nat → Nat → K) (g : Grid K) (t : Tree) (levelset : Bool) (sorted : List Nat) (m : Mesh K) : Option (Mesh K) :=
  if levelset then some m
  else do
    let full ← getCellIdsTarget g.numCellsDir .full t sorted
    addFullCells cheb m g full true

/-- `create_reparameterization(unf_domain, cells, n_pts_dir, merge_points)`; `t` is the partition of the unfitted domain, `tol` is
`1.0e4 * eps`. impl_reparam.cpp:49-108. (`reserve_cells` has no observable effect.) -/
def createReparam (cheb : Nat → Nat → K) (srt : (Nat → K) → List Nat → List Nat) (srtE : List (List Nat) → List (List Nat)) (tol : K)
    (g : Grid K) (t : Tree) (levelset : Bool) (cutCell : Mesh K → Box K → Option (Mesh K)) (cells : List Nat) (order : Nat)
    (mergePts : Bool) : Option (Mesh K) :=
  if 1 < order then do
    let sorted := sortIds cells
    let cut ← getCellIdsTarget g.numCellsDir .cut t sorted
    let m ← Mesh.new (if levelset then g.length - 1 else g.length) g.length order
    let m ← addCutCells g cutCell cut m
    let m ← addFulls cheb g t levelset sorted m
    if mergePts then mergeCoincident srt srtE m tol else some m
  else none

/-- The overload without a list of cells. impl_reparam.cpp:38-46. -/
def createReparamAll (cheb : Nat → Nat → K) (srt : (Nat → K) → List Nat → List Nat) (srtE : List (List Nat) → List (List Nat)) (tol : K)
    (g : Grid K) (t : Tree) (levelset : Bool) (cutCell : Mesh K → Box K → Option (Mesh K)) (order : Nat) (mergePts : Bool) :
    Option (Mesh K) :=
  createReparam cheb srt srtE tol g t levelset cutCell (List.range g.numCells) order mergePts

end Qugar.Mesh
