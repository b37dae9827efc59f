import Verif.Props.QuadTotal
/-
C18-C21, C51: concrete runs that meet the hypotheses of the theorems, and two findings about facet rules.
-/
namespace Qugar
open Spec
variable {K : Type} [Field K] [LinearOrder K]

/-- **C19** (finding). With assertions compiled in, requesting the rule of a facet that holds part of the unfitted
boundary but is neither cut nor full aborts, although without assertions the same request is served. -/
theorem C19_debug_aborts_on_pure_unfitted_facets (t : QuadType K) (o : QOracle K) (g : Grid K) (d : Dom)
    (n c f : Nat) (ch : Cache K) (q : FacetsQuad K) (h1 : d.isFullUnfFacet c f = some false)
    (h2 : d.isFullFacet c f = some false) (h3 : d.isCutFacet c f = some false) (h4 : d.hasUnfFacet c f = some true)
    (h5 : g.onBoundary c f = some true) :
    facetCreator true t o g d n .exterior c f ch q = none := by
  unfold facetCreator facetQuad algoimFacet
  rw [h5, h1, h2, h3, h4]
  by_cases h : f < g.length * 2 ∧ 0 < n
  · simp [h]
  · simp [h]

/-- **C19** (finding). On a cut facet that touches the zero level set only where the function's normal points into the
cell (external boundary, no unfitted boundary), nothing is removed, neither for interior nor for exterior integrals,
although `create_facet_quadrature` always asks for the removal of external boundary points. -/
theorem C19_external_boundary_points_are_kept (o : QOracle K) (dom : List (K × K)) (f n : Nat)
    (isCut remUnf : Bool) :
    ((cutFacetRule o dom f n).filter fun x => !decide (FacetPointRemoved o dom f false isCut remUnf false x.1)) =
      cutFacetRule o dom f n := by
  rw [List.filter_eq_self]
  intro x _
  simp [FacetPointRemoved]

/-! ### A concrete domain: `phi x = x₀ - 3` on `[0,6] × [0,1]`, three cells -/

namespace Example

/-- The grid. -/
def grid : Grid ℚ := [[0, 2, 4, 6], [0, 1]]

/-- The sign of `x₀ - 3` on boxes; the middle cell is cut, with its lower and upper facets cut, its left facet full. -/
def oracles : Oracles ℚ where
  sign := fun b => match b with
    | iv :: _ => if iv.2 < 3 then .negative else if 3 < iv.1 then .positive else .undetermined
    | [] => .undetermined
  cell := fun _ => .cut
  facet := fun _ f _ => if f = 0 then .full else if f = 1 then .empty else .cutUnf
  margin := 1 / 1000

/-- The midpoint rule (for one point), and the same abscissa with weights `1/n` otherwise. -/
def midpoint : QuadType ℚ := ⟨100, fun _ _ => 1 / 2, fun n _ => 1 / n⟩

/-- Algoim's answers for that function: midpoint rules of the parts where it is negative. -/
def qo : QOracle ℚ where
  isBezier := false
  val := fun x => x.headD 0 - 3
  grad := fun _ => [1, 0]
  norm := fun v => (v.map fun x => |x|).sum
  tol := 1 / 1000
  volGen := fun _ _ => [([5 / 2, 1 / 2], 1)]
  surfGen := fun _ _ => [([3, 1 / 2], 1)]
  facetGen := fun _ _ s _ => [([5 / 2, s], 1), ([3, s], 1 / 4)]
  volBzr := fun _ _ => []
  surfBzr := fun _ _ => []
  facetBzr := fun _ _ _ => []
  bzrVal := fun _ _ => 0
  bzrGrad := fun _ _ => []
  bzrFacetVal := fun _ _ _ => 0

/-- The domain is built, cell 0 is full, cell 1 cut, cell 2 empty; the cell rules in reversed order: nothing, the mapped
cut rule, the unit rule. -/
example : ∃ d, build true oracles grid none = .ok d ∧ d.isCutCell 1 = some true ∧ d.isFullCell 0 = some true ∧
    (createQuadrature midpoint qo grid d [2, 1, 0] 1 Cache.init).map (·.2) =
      some ⟨[2, 1, 0], [0, 1, 1], [[1 / 4, 1 / 2], [1 / 2, 1 / 2]], [1 / 2, 1]⟩ :=
  exists_ok_of (fun d : Dom => d.isCutCell 1 = some true ∧ d.isFullCell 0 = some true ∧
    (createQuadrature midpoint qo grid d [2, 1, 0] 1 Cache.init).map (·.2) =
      some ⟨[2, 1, 0], [0, 1, 1], [[1 / 4, 1 / 2], [1 / 2, 1 / 2]], [1 / 2, 1]⟩) (by decide +kernel)

/-- Interior and exterior facet rules: the point on the level set is removed from the cut facet (it is not outward),
the full facet gets the unit rule, the empty one nothing. -/
example : ∃ d, build true oracles grid none = .ok d ∧
    (createFacetsQuadrature true midpoint qo grid d .interior [1, 1, 1] [0, 1, 2] 2 Cache.init).map (·.2) =
      some ⟨[1, 1, 1], [0, 1, 2], [2, 0, 0], [[1 / 2], [1 / 2]], [1 / 2, 1 / 2]⟩ ∧
    (createFacetsQuadrature true midpoint qo grid d .exterior [1, 0] [2, 0] 2 Cache.init).map (·.2) =
      some ⟨[1, 0], [2, 0], [1, 2], [[1 / 4], [1 / 2], [1 / 2]], [1 / 2, 1 / 2, 1 / 2]⟩ :=
  exists_ok_of (fun d : Dom =>
    (createFacetsQuadrature true midpoint qo grid d .interior [1, 1, 1] [0, 1, 2] 2 Cache.init).map (·.2) =
      some ⟨[1, 1, 1], [0, 1, 2], [2, 0, 0], [[1 / 2], [1 / 2]], [1 / 2, 1 / 2]⟩ ∧
    (createFacetsQuadrature true midpoint qo grid d .exterior [1, 0] [2, 0] 2 Cache.init).map (·.2) =
      some ⟨[1, 0], [2, 0], [1, 2], [[1 / 4], [1 / 2], [1 / 2]], [1 / 2, 1 / 2, 1 / 2]⟩) (by decide +kernel)

/-- Unfitted boundary rule of the three cells; the weight is the surface measure in the unit cell. -/
example : ∃ d, build true oracles grid none = .ok d ∧
    (createUnfQuadrature true midpoint qo grid d [0, 1, 2] 1 true false Cache.init).map (·.2) =
      some ⟨[0, 1, 2], [0, 1, 0], [[1 / 2, 1 / 2]], [1], [[1, 0]]⟩ :=
  exists_ok_of (fun d : Dom =>
    (createUnfQuadrature true midpoint qo grid d [0, 1, 2] 1 true false Cache.init).map (·.2) =
      some ⟨[0, 1, 2], [0, 1, 0], [[1 / 2, 1 / 2]], [1], [[1, 0]]⟩) (by decide +kernel)

/-- A history that changes the static rules: the same request after a request with another number of points. -/
example : ∃ d, build true oracles grid none = .ok d ∧
    ((QuadCall.execAll true midpoint [.cells qo grid d [0] 3, .facets qo grid d .exterior [0] [0] 2] Cache.init).bind
      fun ch => (ch.cell 2).map (·.numPoints)) = some 9 ∧
    ((QuadCall.execAll true midpoint [.cells qo grid d [0] 3, .cells qo grid d [0, 1] 2] Cache.init).bind
      fun ch => (ch.cell 2).map (·.numPoints)) = some 4 :=
  exists_ok_of (fun d : Dom =>
    ((QuadCall.execAll true midpoint [.cells qo grid d [0] 3, .facets qo grid d .exterior [0] [0] 2] Cache.init).bind
      fun ch => (ch.cell 2).map (·.numPoints)) = some 9 ∧
    ((QuadCall.execAll true midpoint [.cells qo grid d [0] 3, .cells qo grid d [0, 1] 2] Cache.init).bind
      fun ch => (ch.cell 2).map (·.numPoints)) = some 4) (by decide +kernel)

/-- The same domain, but the lower facet of the middle cell lies on the unfitted boundary in part. -/
def oracles' : Oracles ℚ := { oracles with facet := fun _ f _ => if f = 2 then .unf else .cut }

/-- A constructed domain on which the debug build aborts and the release build does not. -/
example : ∃ d, build true oracles' grid none = .ok d ∧ d.isFullUnfFacet 1 2 = some false ∧
    d.isFullFacet 1 2 = some false ∧ d.isCutFacet 1 2 = some false ∧ d.hasUnfFacet 1 2 = some true ∧
    grid.onBoundary 1 2 = some true ∧
    (createFacetsQuadrature true midpoint qo grid d .exterior [1] [2] 2 Cache.init).map (·.2) = none ∧
    (createFacetsQuadrature false midpoint qo grid d .exterior [1] [2] 2 Cache.init).isSome = true :=
  exists_ok_of (fun d : Dom => d.isFullUnfFacet 1 2 = some false ∧
    d.isFullFacet 1 2 = some false ∧ d.isCutFacet 1 2 = some false ∧ d.hasUnfFacet 1 2 = some true ∧
    grid.onBoundary 1 2 = some true ∧
    (createFacetsQuadrature true midpoint qo grid d .exterior [1] [2] 2 Cache.init).map (·.2) = none ∧
    (createFacetsQuadrature false midpoint qo grid d .exterior [1] [2] 2 Cache.init).isSome = true) (by decide +kernel)

/-- Erasing positions 2 and 0, listed in ascending or descending order. -/
example : erasePoints [0, 2] ['a', 'b', 'c', 'd'] = ['b', 'd'] ∧ erasePoints [2, 0] ['a', 'b', 'c', 'd'] = ['b', 'd'] ∧
    keepOthers [0, 2] ['a', 'b', 'c', 'd'] = ['b', 'd'] := by decide

end Example
end Qugar
