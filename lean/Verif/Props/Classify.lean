import Verif.Model.Domain
import Verif.Lemmas.Grid
import Mathlib.Tactic.NormNum
/-
Property theorems C14 and C15: classification of a cell from its measured volume, classification of a facet from its
quadrature nodes, and coherence of the facet predicates.
-/
namespace Qugar
variable {K : Type} [Field K] [LinearOrder K] [IsStrictOrderedRing K]

/-- **C14** (general functions). A cell box `b` whose negative part has measured volume `vol` is reported empty iff
`vol` is zero up to the tolerance, full (with unfitted boundary) iff it is not and `vol` equals the volume of the box
up to the tolerance, cut otherwise. For boxes of volume above twice the tolerance the first two conditions exclude each
other, so that full means "equals the volume of the box up to the tolerance". -/
theorem C14_cell_verdicts (tol : K) (measured : Box K → K) (b : Box K) :
    let v := classifyCell tol none measured b
    (v = .empty ↔ |measured b| ≤ tol) ∧
    (v = .fullUnf ↔ ¬ |measured b| ≤ tol ∧ |measured b - b.volume| ≤ tol) ∧
    (v = .cut ↔ ¬ |measured b| ≤ tol ∧ ¬ |measured b - b.volume| ≤ tol) ∧ v ≠ .full ∧
    (2 * tol < b.volume → (v = .fullUnf ↔ |measured b - b.volume| ≤ tol)) := by
  intro v
  have hv : v = if |measured b| ≤ tol then .empty else if |measured b - b.volume| ≤ tol then .fullUnf else .cut := by
    simp only [v, classifyCell, classifyCellFromQuad, Tol.equal, sub_zero, decide_eq_true_eq]
  rw [hv]
  by_cases h1 : |measured b| ≤ tol
  · by_cases h2 : |measured b - b.volume| ≤ tol
    · simp only [h1, if_true, h2, reduceCtorEq, not_true_eq_false, false_and, true_and, ne_eq,
        not_false_eq_true, iff_true, iff_false]
      intro h; rw [abs_le] at h1 h2; linarith [h1.2, h2.1]
    · simp [h1, h2]
  · by_cases h2 : |measured b - b.volume| ≤ tol <;> simp [h1, h2]

/-- **C14** (Bezier functions). The verdict is immediate when all the coefficients have one strict sign; otherwise the
relative volume (measured in the unit cube) decides in the same way. -/
theorem C14_bezier_cell_verdicts (tol : K) (measured : Box K → K) (b : Box K) :
    classifyCell tol (some .positive) measured b = .empty ∧
    classifyCell tol (some .negative) measured b = .full ∧
    (let v := classifyCell tol (some .undetermined) measured b
     (v = .empty ↔ |measured b| ≤ tol) ∧
     (v = .fullUnf ↔ ¬ |measured b| ≤ tol ∧ |measured b - 1| ≤ tol) ∧
     (v = .cut ↔ ¬ |measured b| ≤ tol ∧ ¬ |measured b - 1| ≤ tol) ∧ v ≠ .full) := by
  refine ⟨rfl, rfl, ?_⟩
  intro v
  have hv : v = if |measured b| ≤ tol then .empty else if |measured b - 1| ≤ tol then .fullUnf else .cut := by
    simp only [v, classifyCell, classifyCellFromQuad, Tol.equal, sub_zero, decide_eq_true_eq]
  rw [hv]
  by_cases h1 : |measured b| ≤ tol <;> by_cases h2 : |measured b - 1| ≤ tol <;> simp [h1, h2]

/-- **C14** (the exclusion of small cells is necessary). The tolerance is absolute: a cell whose volume is at most the
tolerance is reported empty whatever part of it is inside, in particular when it is completely inside. -/
theorem C14_tiny_cells_are_always_empty (tol : K) (measured : Box K → K) (b : Box K)
    (h0 : 0 ≤ measured b) (h1 : measured b ≤ b.volume) (h2 : b.volume ≤ tol) :
    classifyCell tol none measured b = .empty := by
  rw [(C14_cell_verdicts tol measured b).1, abs_of_nonneg h0]; linarith

example : classifyCell (1/100 : ℚ) none (fun _ => 1/2) [(0, 1), (0, 1)] = .cut ∧
    classifyCell (1/100 : ℚ) none (fun _ => 999/1000) [(0, 1), (0, 1)] = .fullUnf ∧
    classifyCell (1/100 : ℚ) none (fun _ => 1/1000) [(0, 1), (0, 1)] = .empty ∧
    classifyCell (1/100 : ℚ) none (fun _ => 1/10000) [(0, 1/100), (0, 1/100)] = .empty := by decide +kernel

namespace Spec

/-- The node lies on the level set, the surface is parallel to the facet there (up to `tol`), and the outward normal
of the domain points out of the cell through side `side` of the facet's direction. -/
def NodeOnUnfitted (tol : K) (side : Nat) (nd : FacetNode K) : Prop :=
  nd.onLevelset = true ∧ |(|nd.normalComp| - 1)| ≤ tol ∧
    (side = 0 → nd.normalComp < -tol) ∧ (side ≠ 0 → tol < nd.normalComp)

/-- The node lies on the level set, the surface is parallel to the facet there, and the normal does not point out of
the cell: the boundary belongs to the neighbouring cell. -/
def NodeOnExternal (tol : K) (side : Nat) (nd : FacetNode K) : Prop :=
  nd.onLevelset = true ∧ |(|nd.normalComp| - 1)| ≤ tol ∧
    ¬ ((side = 0 → nd.normalComp < -tol) ∧ (side ≠ 0 → tol < nd.normalComp))

/-- The node lies off the level set: it is a node of the part of the facet inside the domain. -/
def NodeInside (nd : FacetNode K) : Prop := nd.onLevelset = false

/-- The nodes' weights add up to the facet's measure, up to an absolute and a relative tolerance. -/
def FullMeasure (tol vol : K) (nodes : List (FacetNode K)) : Prop :=
  |(nodes.map (·.weight)).sum - vol| ≤ tol + tol * 1000 * max |(nodes.map (·.weight)).sum| |vol|

end Spec
open Spec

theorem facetNodeStep_eq (tol : K) (side : Nat) (fl : FacetFlags) (nd : FacetNode K) :
    ((facetNodeStep tol side fl nd).unf = true ↔ fl.unf = true ∨ NodeOnUnfitted tol side nd) ∧
    ((facetNodeStep tol side fl nd).ext = true ↔ fl.ext = true ∨ NodeOnExternal tol side nd) ∧
    ((facetNodeStep tol side fl nd).cut = true ↔ fl.cut = true ∨ NodeInside nd) := by
  unfold facetNodeStep NodeOnUnfitted NodeOnExternal NodeInside Tol.equal Tol.isNegative Tol.isPositive
  cases nd.onLevelset
  · simp
  · by_cases h : |(|nd.normalComp| - 1)| ≤ tol
    · by_cases hs : side = 0
      · by_cases hn : nd.normalComp < -tol <;> simp [h, hs, hn]
      · by_cases hn : tol < nd.normalComp <;> simp [h, hs, hn]
    · simp [h]

theorem facetFold_eq (tol : K) (side : Nat) (nodes : List (FacetNode K)) (fl : FacetFlags) :
    ((nodes.foldl (facetNodeStep tol side) fl).unf = true ↔ fl.unf = true ∨ ∃ nd ∈ nodes, NodeOnUnfitted tol side nd) ∧
    ((nodes.foldl (facetNodeStep tol side) fl).ext = true ↔ fl.ext = true ∨ ∃ nd ∈ nodes, NodeOnExternal tol side nd) ∧
    ((nodes.foldl (facetNodeStep tol side) fl).cut = true ↔ fl.cut = true ∨ ∃ nd ∈ nodes, NodeInside nd) := by
  induction nodes generalizing fl with
  | nil => simp
  | cons nd nds ih =>
    obtain ⟨h1, h2, h3⟩ := ih (facetNodeStep tol side fl nd)
    obtain ⟨s1, s2, s3⟩ := facetNodeStep_eq tol side fl nd
    simp only [List.foldl_cons]
    rw [h1, h2, h3, s1, s2, s3]
    simp [or_assoc]

/-- Status of a facet from the three flags, `F` = "the weights measure the whole facet", `n` = number of nodes. -/
def statusOfFlags (fl : FacetFlags) (F : Bool) (n : Nat) : FStatus :=
  match fl.cut, fl.unf, fl.ext with
  | true, false, false => if F then .full else .cut
  | true, true, false => .cutUnf
  | true, false, true => .cutExt
  | true, true, true => .cutUnfExt
  | false, false, false => .empty
  | false, true, false => if F ∧ n = 1 then .fullUnf else .unf
  | false, false, true => if F ∧ n = 1 then .fullExt else .ext
  | false, true, true => .unfExt

theorem fullMeasure_iff (tol vol : K) (nodes : List (FacetNode K)) :
    Tol.equalAbsRel tol (tol * 1000) ((nodes.map (·.weight)).sum) vol = true ↔ FullMeasure tol vol nodes := by
  unfold Tol.equalAbsRel FullMeasure
  rw [decide_eq_true_eq]
  have : (if |(nodes.map (·.weight)).sum| < |vol| then |vol| else |(nodes.map (·.weight)).sum|) =
      max |(nodes.map (·.weight)).sum| |vol| := by
    split
    · rename_i h; rw [max_eq_right h.le]
    · rename_i h; rw [max_eq_left (not_lt.1 h)]
  rw [this]

theorem classifyFacetFromQuad_cut (tol : K) (side : Nat) (vol : K) (nodes : List (FacetNode K)) :
    classifyFacetFromQuad tol side vol .cut nodes =
      statusOfFlags (nodes.foldl (facetNodeStep tol side) {})
        (Tol.equalAbsRel tol (tol * 1000) ((nodes.map (·.weight)).sum) vol) nodes.length := by
  unfold classifyFacetFromQuad
  cases nodes with
  | nil => rfl
  | cons nd nds =>
    simp only [List.isEmpty_cons, Bool.false_eq_true, if_false, reduceCtorEq, false_and]
    unfold classifyFacetFull statusOfFlags
    generalize (List.foldl (facetNodeStep tol side) {} (nd :: nds)) = fl
    generalize Tol.equalAbsRel tol (tol * 1000) (List.map (fun x => x.weight) (nd :: nds)).sum vol = F
    generalize (nd :: nds).length = n
    obtain ⟨e, u, c⟩ := fl
    cases F <;> cases e <;> cases u <;> cases c <;> simp [facetTable]

/-- **C15** (cut cells). The status computed for a facet of a cut cell reflects the nodes found on it: the unfitted
(external) boundary predicate holds iff some node lies on the unfitted (external) boundary, the cut predicate iff some
node is inside, except when the facet carries no boundary and is fully measured, in which case it is full; a facet
is empty iff no node is inside or on the unfitted boundary. -/
theorem C15_cut_cell_facets (tol : K) (side : Nat) (vol : K) (nodes : List (FacetNode K)) :
    let s := classifyFacetFromQuad tol side vol .cut nodes
    let U := ∃ nd ∈ nodes, NodeOnUnfitted tol side nd
    let E := ∃ nd ∈ nodes, NodeOnExternal tol side nd
    let I := ∃ nd ∈ nodes, NodeInside nd
    (s.hasUnfitted = true ↔ U) ∧ (s.hasExternal = true ↔ E) ∧
    (s.isFull = true ↔ I ∧ ¬ U ∧ ¬ E ∧ FullMeasure tol vol nodes) ∧
    (s.isCut = true ↔ I ∧ ¬ (¬ U ∧ ¬ E ∧ FullMeasure tol vol nodes)) ∧
    (s.isEmpty = true ↔ ¬ I ∧ ¬ U) ∧
    (s.isFullUnfitted = true ↔ U ∧ ¬ E ∧ ¬ I ∧ FullMeasure tol vol nodes ∧ nodes.length = 1) := by
  obtain ⟨h1, h2, h3⟩ := facetFold_eq tol side nodes {}
  simp only [Bool.false_eq_true, false_or] at h1 h2 h3
  intro s U E I
  have hs : s = _ := classifyFacetFromQuad_cut tol side vol nodes
  have hU : U ↔ _ := h1.symm
  have hE : E ↔ _ := h2.symm
  have hI : I ↔ _ := h3.symm
  rw [hs, hU, hE, hI, ← fullMeasure_iff]
  generalize (List.foldl (facetNodeStep tol side) {} nodes) = fl
  generalize Tol.equalAbsRel tol (tol * 1000) (List.map (fun x => x.weight) nodes).sum vol = F
  generalize nodes.length = n
  obtain ⟨e, u, c⟩ := fl
  unfold statusOfFlags
  by_cases hn : n = 1
  · subst hn
    cases F <;> cases e <;> cases u <;> cases c <;>
      simp [FStatus.hasUnfitted, FStatus.hasExternal, FStatus.isFull, FStatus.isCut, FStatus.isEmpty,
        FStatus.isFullUnfitted]
  · cases F <;> cases e <;> cases u <;> cases c <;>
      simp [FStatus.hasUnfitted, FStatus.hasExternal, FStatus.isFull, FStatus.isCut, FStatus.isEmpty,
        FStatus.isFullUnfitted, hn]

/-- **C15** (full cells with unfitted boundary). A facet without inside nodes is a full unfitted facet; otherwise it is
classified as for a cut cell. -/
theorem C15_full_unfitted_cell_facets (tol : K) (side : Nat) (vol : K) (nodes : List (FacetNode K)) :
    ((¬ ∃ nd ∈ nodes, NodeInside nd) → classifyFacetFromQuad tol side vol .fullUnf nodes = .fullUnf) ∧
    ((∃ nd ∈ nodes, NodeInside nd) →
      classifyFacetFromQuad tol side vol .fullUnf nodes = classifyFacetFromQuad tol side vol .cut nodes) := by
  obtain ⟨_, _, h3⟩ := facetFold_eq tol side nodes {}
  simp only [Bool.false_eq_true, false_or] at h3
  rw [← h3]
  unfold classifyFacetFromQuad
  cases nodes with
  | nil => simp
  | cons nd nds =>
    simp only [List.isEmpty_cons, Bool.false_eq_true, if_false, true_and, reduceCtorEq, false_and]
    constructor
    · intro h; rw [if_pos (by simpa using h)]
    · intro h; rw [if_neg (by rw [h]; simp)]

/-- **C15** (predicates). For every facet status at most one of full / empty / cut / full-unfitted holds; none holds
exactly for the two statuses "unfitted boundary" and "unfitted and external boundary" (facets without inside part that
are not entirely on the unfitted boundary), which are reported only through `has_unfitted_boundary`. -/
theorem C15_predicates_exclusive (s : FStatus) :
    s.isFull.toNat + s.isEmpty.toNat + s.isCut.toNat + s.isFullUnfitted.toNat ≤ 1 ∧
    (s.isFull.toNat + s.isEmpty.toNat + s.isCut.toNat + s.isFullUnfitted.toNat = 0 ↔ s = .unf ∨ s = .unfExt) ∧
    (s.isFullUnfitted = true → s.hasUnfitted = true) ∧
    (s.isFull = true → s.hasUnfitted = false ∧ s.hasExternal = false) ∧
    (s.isEmpty = true → s.hasUnfitted = false) := by
  cases s <;> decide

/-- **C15** (whole classifier). Facets of cells that are neither cut nor full with unfitted boundary copy the cell's
status. -/
theorem C15_facets_of_plain_cells (tol : K) (quad : Box K → Nat → List (FacetNode K)) (vol : Box K → Nat → K)
    (b : Box K) (f : Nat) :
    classifyFacet tol quad vol b f .empty = .empty ∧ classifyFacet tol quad vol b f .full = .full ∧
    classifyFacet tol quad vol b f .cut = classifyFacetFromQuad tol (f % 2) (vol b f) .cut (quad b f) ∧
    classifyFacet tol quad vol b f .fullUnf = classifyFacetFromQuad tol (f % 2) (vol b f) .fullUnf (quad b f) :=
  ⟨rfl, rfl, rfl, rfl⟩

/-- Side 1 facet with one node inside and one on the level set whose normal points out: cut, with unfitted
boundary. -/
example : classifyFacetFromQuad (1/1000000 : ℚ) 1 1 .cut [⟨false, 0, 1/2⟩, ⟨true, 1, 1/2⟩] = .cutUnf ∧
    classifyFacetFromQuad (1/1000000 : ℚ) 0 1 .cut [⟨true, 1, 1/2⟩] = .ext ∧
    classifyFacetFromQuad (1/1000000 : ℚ) 0 1 .cut [⟨true, -1, 1⟩] = .fullUnf ∧
    classifyFacetFromQuad (1/1000000 : ℚ) 0 1 .cut [⟨false, 0, 1⟩] = .full := by decide +kernel

end Qugar
