import Verif.Model.BBox
import Verif.Model.Tolerance
/-
Model of the per-cell and per-facet classification (cpp/qugar/impl_unfitted_domain.cpp:121-409) and of the facet
status predicates (cpp/qugar/unfitted_domain.cpp:455-516). The quadratures generated by Algoim (external) are inputs.
-/
namespace Qugar
variable {K : Type} [Field K] [LinearOrder K]

/-- `FuncSign`. domain_function.hpp. -/
inductive FuncSign | negative | positive | undetermined
deriving DecidableEq, Repr

/-- `ImmersedCellStatusTmp`. impl_unfitted_domain.cpp:58-63. -/
inductive CellTmp | cut | full | empty | fullUnf
deriving DecidableEq, Repr

/-- `ImmersedFacetStatus`. unfitted_domain.hpp:36-48. -/
inductive FStatus
  | cut | full | empty | cutUnf | cutExt | cutUnfExt | fullUnf | fullExt | unf | ext | unfExt
deriving DecidableEq, Repr

namespace FStatus

/-- `is_full_facet(status)`. unfitted_domain.cpp:455-458. -/
def isFull (s : FStatus) : Bool := decide (s = full)

/-- `is_empty_facet(status)`. unfitted_domain.cpp:460-470. -/
def isEmpty : FStatus → Bool
  | empty | fullExt | ext => true
  | _ => false

/-- `is_cut_facet(status)`. unfitted_domain.cpp:472-483. -/
def isCut : FStatus → Bool
  | cut | cutUnf | cutExt | cutUnfExt => true
  | _ => false

/-- `is_full_unfitted_facet(status)`. unfitted_domain.cpp:485-488. -/
def isFullUnfitted (s : FStatus) : Bool := decide (s = fullUnf)

/-- `has_unfitted_boundary(status)`. unfitted_domain.cpp:490-502. -/
def hasUnfitted : FStatus → Bool
  | cutUnf | cutUnfExt | fullUnf | unf | unfExt => true
  | _ => false

/-- `has_external_boundary(status)`. unfitted_domain.cpp:504-516. -/
def hasExternal : FStatus → Bool
  | cutExt | cutUnfExt | fullExt | ext | unfExt => true
  | _ => false

end FStatus

/-- The result of Algoim's interval evaluation that `create_compute_sign_function` inspects: the flag
`uniformSign()` and the centre value `alpha` (external). -/
structure IntervalResult (K : Type) where
  uniform : Bool
  alpha : K

/-- The body of the function built by `create_compute_sign_function` after the interval evaluation.
impl_unfitted_domain.cpp:149-158. -/
def signOfInterval (r : IntervalResult K) : FuncSign :=
  if r.uniform then (if r.alpha < 0 then .negative else .positive) else .undetermined

/-- `classify_cell_from_quad`: `vol` is the sum of the weights. impl_unfitted_domain.cpp:163-180. -/
def classifyCellFromQuad (tol vol domVol : K) : CellTmp :=
  if Tol.equal tol vol 0 then .empty
  else if Tol.equal tol vol domVol then .fullUnf
  else .cut

/-- `classify_cell_general` (`bezSign = none`) and `classify_cell_Bezier` (`bezSign` = sign of the coefficients of the
*original* Bezier, line 197): `measured` is the sum of the weights Algoim returns for the negative part of the box
(of the unit cube for Beziers). impl_unfitted_domain.cpp:183-233. -/
def classifyCell (tol : K) (bezSign : Option FuncSign) (measured : Box K → K) (b : Box K) : CellTmp :=
  match bezSign with
  | none => classifyCellFromQuad tol (measured b) b.volume
  | some .positive => .empty
  | some .negative => .full
  | some .undetermined => classifyCellFromQuad tol (measured b) 1

/-- What `classify_facet_from_quad` looks at for a node: whether it is on the level set, the component of the unit
normal in the facet's direction, and the weight. -/
structure FacetNode (K : Type) where
  onLevelset : Bool
  normalComp : K
  weight : K

/-- The three flags of the loop. -/
structure FacetFlags where
  ext : Bool := false
  unf : Bool := false
  cut : Bool := false
deriving DecidableEq, Repr

/-- Body of the loop over the nodes. impl_unfitted_domain.cpp:294-312. -/
def facetNodeStep (tol : K) (side : Nat) (fl : FacetFlags) (nd : FacetNode K) : FacetFlags :=
  if nd.onLevelset then
    if !Tol.equal tol |nd.normalComp| 1 then fl
    else if (if side = 0 then Tol.isNegative tol nd.normalComp else Tol.isPositive tol nd.normalComp) then
      { fl with unf := true }
    else { fl with ext := true }
  else { fl with cut := true }

/-- The table of statuses, indexed by `ext + 2 unf + 4 cut`. impl_unfitted_domain.cpp:318-328. -/
def facetTable : List FStatus := [.empty, .ext, .unf, .unfExt, .cut, .cutExt, .cutUnf, .cutUnfExt]

/-- `classify_facet_full_unfitted_boundary`. impl_unfitted_domain.cpp:237-270. -/
def classifyFacetFull (tol : K) (st : FStatus) (domFacetVol facetVol : K) (nPts : Nat) : FStatus :=
  if Tol.equalAbsRel tol (tol * 1000) facetVol domFacetVol then
    match st with
    | .unf => if nPts = 1 then .fullUnf else st
    | .ext => if nPts = 1 then .fullExt else st
    | .cut => .full
    | _ => st
  else st

/-- `classify_facet_from_quad`. impl_unfitted_domain.cpp:272-333. -/
def classifyFacetFromQuad (tol : K) (side : Nat) (domFacetVol : K) (cell : CellTmp) (nodes : List (FacetNode K)) :
    FStatus :=
  if nodes.isEmpty then (if cell = .fullUnf then .fullUnf else .empty)
  else
    let fl := nodes.foldl (facetNodeStep tol side) {}
    if cell = .fullUnf ∧ fl.cut = false then .fullUnf
    else
      let index := fl.ext.toNat + fl.unf.toNat * 2 + fl.cut.toNat * 4
      classifyFacetFull tol (facetTable.getD index .empty) domFacetVol ((nodes.map (·.weight)).sum) nodes.length

/-- `classify_facet`: `quad` is the facet rule that Algoim returns for the negative part of the facet, `domFacetVol`
the facet's measure. impl_unfitted_domain.cpp:336-409. -/
def classifyFacet (tol : K) (quad : Box K → Nat → List (FacetNode K)) (domFacetVol : Box K → Nat → K) (b : Box K)
    (facet : Nat) (cell : CellTmp) : FStatus :=
  match cell with
  | .empty => .empty
  | .full => .full
  | _ => classifyFacetFromQuad tol (facet % 2) (domFacetVol b facet) cell (quad b facet)

end Qugar
