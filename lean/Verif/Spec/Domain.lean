import Verif.Model.Domain
import Verif.Spec.Partition
import Verif.Spec.Grid
/-
Specification vocabulary for implicitly described unfitted domains.
-/
namespace Qugar.Spec
variable {K : Type} [Field K] [LinearOrder K]

/-- A sign oracle is sound for `phi`: a determined sign is the sign of `phi` at every point of the closed box. -/
def SoundSign (phi : List K → K) (sign : List (K × K) → FuncSign) : Prop :=
  ∀ b, (sign b = .negative → ∀ x, InClosedBox 0 b x → phi x < 0) ∧
    (sign b = .positive → ∀ x, InClosedBox 0 b x → 0 < phi x)

/-- What the per-cell classifier's answer on the cell box `b` means for the cell: the status the user sees and the
record of facet statuses (if any). `nf` is the number of facets of a cell. -/
def classifierVerdict (o : Oracles K) (nf : Nat) (b : List (K × K)) : Status × Option (List FStatus) :=
  match o.cell b with
  | .empty => (.empty, none)
  | .full => (.full, none)
  | .cut => (.cut, some ((List.range nf).map fun f => o.facet b f .cut))
  | .fullUnf =>
    if ∀ f, f < nf → o.facet b f .fullUnf = .full then (.full, none)
    else (.full, some ((List.range nf).map fun f => o.facet b f .fullUnf))

/-- The record of facet statuses of a cell. -/
def FacetRecord (d : Dom) (c : Nat) : Option (List FStatus) := d.facets.lookup c

/-- Two unfitted domains are the same object up to the (unspecified) iteration order of the facet map. -/
def SameUpToOrder (d d' : Dom) : Prop :=
  d.n = d'.n ∧ d.tree = d'.tree ∧ d.fullUnf = d'.fullUnf ∧ d.facets.Perm d'.facets

end Qugar.Spec
