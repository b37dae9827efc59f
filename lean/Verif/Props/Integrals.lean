import Verif.Lemmas.BoxMeasure
import Verif.Props.QuadTotal
import Verif.Props.QuadMapping
/-
Property theorems C92: integrals over implicitly described domains.
-/
namespace Qugar.Integrals
open Spec BoxMeasure Tree
open MeasureTheory hiding integral

/-- The cells in which interval arithmetic does not determine the sign of the function: those near the interface. -/
noncomputable def nearCells (o : Oracles ℝ) (g : Grid ℝ) : List Nat :=
  (List.range g.numCells).filter fun c => decide (o.sign ((boxOf g c).map fun iv => (iv.1 - o.margin, iv.2 + o.margin)) = .undetermined)

theorem arraysSum_stored (boxes : Nat → List (ℝ × ℝ)) (F : List ℝ → ℝ) : ∀ (cells : List Nat) (blocks : List (List (Node ℝ)))
    (_ : cells.length = blocks.length) (nPts : List Int) (points : List (List ℝ)) (weights : List ℝ)
    (_ : Stored blocks nPts points weights),
    arraysSum boxes F cells nPts points weights =
      (List.zipWith (fun c b => ruleSum (boxes c) (b.map (·.1)) (b.map (·.2)) F) cells blocks).sum := by
  intro cells
  induction cells with
  | nil => intro blocks hl nPts points weights h; simp [arraysSum]
  | cons c cs ih =>
    intro blocks hl nPts points weights h
    cases blocks with
    | nil => simp at hl
    | cons b bs =>
      obtain ⟨h1, h2, h3⟩ := h
      simp only [List.map_cons, List.flatten_cons] at h1 h2 h3
      subst h1 h2 h3
      rw [arraysSum, List.zipWith_cons_cons, List.sum_cons, ← ih bs (by simpa using hl) _ _ _ ⟨rfl, rfl, rfl⟩]
      simp only [Int.toNat_natCast]
      rw [List.take_append_of_le_length (by simp), List.take_append_of_le_length (by simp),
        List.drop_append_of_le_length (by simp), List.drop_append_of_le_length (by simp),
        List.take_of_length_le (by simp), List.take_of_length_le (by simp), List.drop_of_length_le (by simp),
        List.drop_of_length_le (by simp), List.nil_append, List.nil_append]

theorem scaleFrom01_eq (b : Box ℝ) (p : List ℝ) :
    List.zipWith (fun iv x => iv.1 + x * (iv.2 - iv.1)) b p = b.scaleFrom01 p := by
  unfold Box.scaleFrom01
  congr 1
  funext iv x
  ring

theorem boxVolume_eq_volume (b : Box ℝ) : boxVolume b = b.volume := by rw [boxVolume_eq_prod, volume_prod]

theorem integral_nodes (l : List (Node ℝ)) (F : List ℝ → ℝ) :
    integral (l.map (·.1)) (l.map (·.2)) F = (l.map fun x => x.2 * F x.1).sum := by
  unfold integral
  rw [List.zipWith_map, List.zipWith_self]

theorem ruleSum_cut (o : QOracle ℝ) (b : Box ℝ) (hb : ∀ iv ∈ b, iv.1 < iv.2) (n : Nat) (F : List ℝ → ℝ)
    (hl : o.isBezier = false → ∀ x ∈ o.volGen b n, x.1.length = b.length) :
    ruleSum b ((cutCellRule o b n).map (·.1)) ((cutCellRule o b n).map (·.2)) F = algoimSum o b n F := by
  unfold ruleSum algoimSum
  rw [integral_nodes]
  cases ho : o.isBezier with
  | false =>
    rw [if_neg (by simp)]
    unfold cutCellRule
    rw [ho, if_neg (by simp), ← (sameIntegrals_map b hb _ (hl ho)).2.2 F, mul_comm]
    simp only [scaleFrom01_eq, boxVolume_eq_prod]
  | true =>
    rw [if_pos rfl]
    unfold cutCellRule
    rw [ho, if_pos rfl]
    congr 1
    induction o.volBzr b n with
    | nil => rfl
    | cons x l ih =>
      simp only [List.map_cons, List.filter_cons, List.sum_cons]
      by_cases h : o.bzrVal b x.1.reverse < 0
      · simp only [h, decide_true, if_true, List.map_cons, List.sum_cons, ih]
      · simp only [h, decide_false, if_false, ih, zero_add, Bool.false_eq_true]

theorem abs_integralOver_le {d : Nat} {S T : Set (Fin d → ℝ)} (hST : S ⊆ T) (hT : volume T < ⊤) (F : List ℝ → ℝ) (M κ : ℝ) (hM0 : 0 ≤ M)
    (hM : ∀ x ∈ T, |F (List.ofFn x)| ≤ M) (hκ : measureOf S ≤ κ) : |integralOver S F| ≤ M * κ := by
  have h := norm_setIntegral_le_of_norm_le_const (f := fun x => F (List.ofFn x)) (lt_of_le_of_lt (measure_mono hST) hT)
    (fun x hx => hM x (hST hx))
  rw [Real.norm_eq_abs] at h
  exact h.trans (mul_le_mul_of_nonneg_left hκ hM0)

theorem sum_volumes (g : Grid ℝ) : ((List.range g.numCells).map fun c => boxVolume (boxOf g c)).sum = boxVolume g.domain := by
  obtain ⟨boxes, h1, h2⟩ := Grid.C07_cell_volumes_sum_to_domain g
  have : ∀ (l : List Nat) (r : List (Box ℝ)), l.mapM (Grid.cellDomain g) = some r → r = l.map (boxOf g) := by
    intro l
    induction l with
    | nil => intro r h; simpa using h.symm
    | cons c l ih =>
      intro r h
      rw [List.mapM_cons] at h
      cases hc : Grid.cellDomain g c with
      | none => rw [hc] at h; simp at h
      | some b =>
        cases hl : l.mapM (Grid.cellDomain g) with
        | none => rw [hc, hl] at h; simp at h
        | some r' =>
          rw [hc, hl] at h
          have e : r = b :: r' := by simpa using h.symm
          rw [e, ih r' hl, List.map_cons, boxOf, hc]
          rfl
  rw [this _ _ h1, List.map_map] at h2
  rw [boxVolume_eq_volume, ← h2]
  congr 1
  apply List.map_congr_left
  intro c _
  exact boxVolume_eq_volume _

/-- Accuracy of the ingredients that do not belong to the code, in the cells of the grid near the interface: the classification of cells
moves a measure of at most `κ` from a side to the other, and the rules of Algoim in cut cells have an error of at most `η`. -/
structure Accurate (oo : Oracles ℝ) (q : QOracle ℝ) (g : Grid ℝ) (phi F : List ℝ → ℝ) (n : Nat) (κ η : ℝ) : Prop where
  empty : ∀ c ∈ nearCells oo g, oo.cell (boxOf g c) = .empty →
    measureOf (inside g.length phi ∩ region g.length (boxOf g c)) ≤ κ
  full : ∀ c ∈ nearCells oo g, oo.cell (boxOf g c) = .full ∨ oo.cell (boxOf g c) = .fullUnf →
    measureOf (region g.length (boxOf g c) \ inside g.length phi) ≤ κ
  cut : ∀ c ∈ nearCells oo g, oo.cell (boxOf g c) = .cut →
    |algoimSum q (boxOf g c) n F - integralOver (inside g.length phi ∩ region g.length (boxOf g c)) F| ≤ η
  points : q.isBezier = false → ∀ c ∈ nearCells oo g, ∀ x ∈ q.volGen (boxOf g c) n, x.1.length = g.length

/-- The rule of full cells has an error of at most `δ` per unit of volume. -/
def FullAccurate (t : QuadType ℝ) (g : Grid ℝ) (F : List ℝ → ℝ) (n : Nat) (δ : ℝ) : Prop :=
  ∀ c, c < g.numCells → |ruleSum (boxOf g c) ((unitRule t g.length n).map (·.1)) ((unitRule t g.length n).map (·.2)) F -
    integralOver (region g.length (boxOf g c)) F| ≤ δ * boxVolume (boxOf g c)

/-- The error in a cell, of any number that is: in a cut cell, what the points of Algoim give; in a full cell, the integral up to an error of
`δ` per unit of volume; in an empty cell, zero. -/
theorem cell_error (debug : Bool) (oo : Oracles ℝ) (g : Grid ℝ) (hv : g.Valid) (hne : g ≠ []) (hm : 0 ≤ oo.margin) (phi : List ℝ → ℝ)
    (hs : SoundSign phi oo.sign) (hO : MeasurableSet (inside g.length phi)) (F : List ℝ → ℝ)
    (hF : IntegrableOn (fun x => F (List.ofFn x)) (region g.length g.domain)) (M : ℝ) (hM0 : 0 ≤ M)
    (hM : ∀ x ∈ region g.length g.domain, |F (List.ofFn x)| ≤ M) (q : QOracle ℝ) (n : Nat) (κ η δ : ℝ) (hκ : 0 ≤ κ) (hδ : 0 ≤ δ)
    (hA : Accurate oo q g phi F n κ η) {d : Dom} (h1 : build debug oo g none = .ok d) {c : Nat} (hc : c < g.numCells) {r : ℝ}
    (hcut : HasStatus d.n d.tree c .cut → r = algoimSum q (boxOf g c) n F)
    (hfull : HasStatus d.n d.tree c .full → |r - integralOver (region g.length (boxOf g c)) F| ≤ δ * boxVolume (boxOf g c))
    (hempty : HasStatus d.n d.tree c .empty → r = 0) :
    |r - integralOver (inside g.length phi ∩ region g.length (boxOf g c)) F| ≤
      (if c ∈ nearCells oo g then max η (M * κ) else 0) + δ * boxVolume (boxOf g c) := by
  obtain ⟨d', h1', hreach, hcells⟩ := C12_decomposition_sound debug oo g hv hne hm phi hs
  have : d = d' := by rw [h1] at h1'; simpa using h1'
  subst this
  obtain ⟨d', h1'', hn', _⟩ := build_summary debug oo g none hv hne (Or.inr rfl)
  have : d = d' := by rw [h1] at h1''; simpa using h1''
  subst this
  have hshape := gridShape_of_valid hv hne
  obtain ⟨hw, _⟩ := WF.of_reachable hshape.2 hreach
  have hN : g.numCells = listProd g.numCellsDir := tsize_eq _
  rw [hn'] at hcut hfull hempty
  obtain ⟨s1, s2, s3, s4⟩ := boxOf_spec g hv c hc
  obtain ⟨b', hb', hunk, hcase⟩ := hcells c (by omega)
  rw [s1] at hb'
  obtain rfl := Option.some.inj hb'
  have hvol : 0 ≤ δ * boxVolume (boxOf g c) := mul_nonneg hδ (boxVolume_pos s3).le
  have hfin := volume_region_lt_top s2
  have hMc : ∀ x ∈ region g.length (boxOf g c), |F (List.ofFn x)| ≤ M := fun x hx => hM x (s4 hx)
  have hI : IntegrableOn (fun x => F (List.ofFn x)) (region g.length (boxOf g c)) := hF.mono_set s4
  have hnear0 : 0 ≤ if c ∈ nearCells oo g then max η (M * κ) else 0 := by
    split
    · exact (mul_nonneg hM0 hκ).trans (le_max_right _ _)
    · exact le_rfl
  rcases hcase with ⟨q1, _, q2⟩ | ⟨q1, _, q2⟩ | ⟨q1, q2, _⟩
  · -- the function is positive
    have hS : inside g.length phi ∩ region g.length (boxOf g c) = ∅ := by
      rw [Set.eq_empty_iff_forall_notMem]
      rintro x ⟨x1, x2⟩
      exact absurd (q2 _ x2) (not_lt.2 (le_of_lt x1))
    have hz : integralOver (∅ : Set (Fin g.length → ℝ)) F = 0 := by simp [integralOver]
    rw [hempty q1, hS, hz, sub_zero, abs_zero]
    exact add_nonneg hnear0 hvol
  · -- the function is negative
    have hS : inside g.length phi ∩ region g.length (boxOf g c) = region g.length (boxOf g c) := by
      rw [Set.inter_eq_right]
      intro x hx
      exact q2 _ hx
    rw [hS]
    exact (hfull q1).trans (le_add_of_nonneg_left hnear0)
  · -- undetermined
    have hnear : c ∈ nearCells oo g := by
      unfold nearCells
      rw [List.mem_filter]
      exact ⟨List.mem_range.2 hc, by simpa [Box.extendDelta] using q1⟩
    rw [if_pos hnear]
    have hfullcase : oo.cell (boxOf g c) = .full ∨ oo.cell (boxOf g c) = .fullUnf → HasStatus g.numCellsDir d.tree c .full →
        |r - integralOver (inside g.length phi ∩ region g.length (boxOf g c)) F| ≤ max η (M * κ) + δ * boxVolume (boxOf g c) := by
      intro hcc hst
      have hdiff := abs_integralOver_le (S := region g.length (boxOf g c) \ inside g.length phi) Set.diff_subset hfin F M κ hM0 hMc
        (hA.full c hnear hcc)
      have hsplit : integralOver (inside g.length phi ∩ region g.length (boxOf g c)) F +
          integralOver (region g.length (boxOf g c) \ inside g.length phi) F = integralOver (region g.length (boxOf g c)) F := by
        unfold integralOver
        rw [Set.inter_comm]
        exact integral_inter_add_diff hO hI
      have h3 := hfull hst
      rw [abs_le] at hdiff h3 ⊢
      have := le_max_right η (M * κ)
      constructor <;> linarith [hdiff.1, hdiff.2, h3.1, h3.2]
    unfold classifierVerdict at q2
    cases he : oo.cell (boxOf g c) <;> simp only [he] at q2
    · rw [hcut q2]
      exact (hA.cut c hnear he).trans (by linarith [le_max_left η (M * κ)])
    · exact hfullcase (.inl he) q2
    · rw [hempty q2, zero_sub, abs_neg]
      refine (abs_integralOver_le Set.inter_subset_right hfin F M κ hM0 hMc (hA.empty c hnear he)).trans ?_
      linarith [le_max_right η (M * κ)]
    · split at q2 <;> exact hfullcase (.inr he) q2

/-- The errors of all the cells, each once and in any order. -/
theorem total_error (oo : Oracles ℝ) (g : Grid ℝ) (hv : g.Valid) (phi : List ℝ → ℝ) (hO : MeasurableSet (inside g.length phi)) (F : List ℝ → ℝ)
    (hF : IntegrableOn (fun x => F (List.ofFn x)) (region g.length g.domain)) (B δ : ℝ) (r : Nat → ℝ)
    (h : ∀ c, c < g.numCells → |r c - integralOver (inside g.length phi ∩ region g.length (boxOf g c)) F| ≤
      (if c ∈ nearCells oo g then B else 0) + δ * boxVolume (boxOf g c)) :
    |((List.range g.numCells).map r).sum - integralOver (inside g.length phi ∩ region g.length g.domain) F| ≤
      (nearCells oo g).length * B + δ * boxVolume g.domain := by
  rw [integral_cells g hv _ hO F hF]
  have hall : ∀ l : List Nat, (∀ c ∈ l, c < g.numCells) →
      |(l.map r).sum - (l.map fun c => integralOver (inside g.length phi ∩ region g.length (boxOf g c)) F).sum| ≤
      (l.map fun c => (if c ∈ nearCells oo g then B else 0) + δ * boxVolume (boxOf g c)).sum := by
    intro l
    induction l with
    | nil => intro _; simp
    | cons c l ih =>
      intro hl
      have i1 := h c (hl c (by simp))
      have i2 := ih (fun c hc => hl c (by simp [hc]))
      simp only [List.map_cons, List.sum_cons]
      rw [abs_le] at i1 i2 ⊢
      constructor <;> linarith [i1.1, i1.2, i2.1, i2.2]
  refine (hall _ fun c hc => List.mem_range.1 hc).trans (le_of_eq ?_)
  rw [List.sum_map_add, List.sum_map_mul_left, sum_volumes]
  congr 1
  have hcount : ∀ (l : List Nat) (p : Nat → Bool) (r : ℝ), (l.map fun c => if p c = true then r else 0).sum = (l.filter p).length * r := by
    intro l p r
    induction l with
    | nil => simp
    | cons c l ih =>
      rw [List.map_cons, List.sum_cons, ih, List.filter_cons]
      by_cases h : p c = true
      · rw [if_pos h, if_pos h, List.length_cons]; push_cast; ring
      · rw [if_neg h, if_neg h, zero_add]
  have := hcount (List.range g.numCells)
    (fun c => decide (oo.sign ((boxOf g c).map fun iv => (iv.1 - oo.margin, iv.2 + oo.margin)) = .undetermined)) B
  refine Eq.trans ?_ this
  congr 1
  apply List.map_congr_left
  intro c hc
  by_cases h : decide (oo.sign ((boxOf g c).map fun iv => (iv.1 - oo.margin, iv.2 + oo.margin)) = .undetermined) = true
  · rw [if_pos (show c ∈ nearCells oo g from List.mem_filter.2 ⟨hc, h⟩), if_pos h]
  · rw [if_neg (fun x : c ∈ nearCells oo g => h (List.mem_filter.1 x).2), if_neg h]

/-- **C92**. The integral of a function over the domain, computed with the quadratures of all the cells of the grid: the error is at most
`δ` per unit of volume (rules of full cells) plus, for each cell near the interface, the greatest of the errors of Algoim's rule and of the
classification (bounded function times misplaced measure). For all grids, level set functions, integrands, numbers of points and histories. -/
theorem C92_integral (debug debug' : Bool) (oo : Oracles ℝ) (g : Grid ℝ) (hv : g.Valid) (hg : g.length = 2 ∨ g.length = 3)
    (hm : 0 ≤ oo.margin) (phi : List ℝ → ℝ) (hs : SoundSign phi oo.sign) (hO : MeasurableSet (inside g.length phi))
    (F : List ℝ → ℝ) (hF : IntegrableOn (fun x => F (List.ofFn x)) (region g.length g.domain)) (M : ℝ) (hM0 : 0 ≤ M)
    (hM : ∀ x ∈ region g.length g.domain, |F (List.ofFn x)| ≤ M) (t : QuadType ℝ) (history : List (QuadCall ℝ))
    (hd : ∀ c ∈ history, c.dim = 2 ∨ c.dim = 3) (ch : Cache ℝ) (hr : QuadCall.execAll debug' t history Cache.init = some ch)
    (q : QOracle ℝ) (n : Nat) (hn : 1 ≤ n ∧ n ≤ t.nMax) (κ η δ : ℝ) (hκ : 0 ≤ κ) (hδ : 0 ≤ δ) (hA : Accurate oo q g phi F n κ η)
    (hfull : FullAccurate t g F n δ) :
    ∃ d ch' x, build debug oo g none = .ok d ∧ createQuadrature t q g d (List.range g.numCells) n ch = some (ch', x) ∧
      |arraysSum (boxOf g) F x.cells x.nPts x.points x.weights - integralOver (inside g.length phi ∩ region g.length g.domain) F| ≤
        (nearCells oo g).length * max η (M * κ) + δ * boxVolume g.domain := by
  have hne : g ≠ [] := by rintro rfl; simp at hg
  obtain ⟨d, h1, hreach, hcells⟩ := C12_decomposition_sound debug oo g hv hne hm phi hs
  obtain ⟨d', ⟨ch', x⟩, h1', hx⟩ := C18_cell_quadrature_total debug debug' oo g none hv hg (Or.inr rfl) t history hd ch hr q
    (List.range g.numCells) (fun c hc => List.mem_range.1 hc) n hn
  have : d = d' := by rw [h1] at h1'; simpa using h1'
  subst this
  obtain ⟨d', h1'', hn', _⟩ := build_summary debug oo g none hv hne (Or.inr rfl)
  have : d = d' := by rw [h1] at h1''; simpa using h1''
  subst this
  refine ⟨d, ch', x, h1, hx, ?_⟩
  obtain ⟨e1, _, _, _, blocks, hb1, hb2⟩ := C18_cell_quadrature debug' t history hd ch ch' hr q g hg d _ n x hx
  rw [e1, arraysSum_stored _ _ _ _ hb1.length_eq _ _ _ hb2]
  obtain ⟨d', h17, _, _, _, _, hcut, _⟩ := C17_full_cells_with_unfitted_boundary debug oo g none hv hne (Or.inr rfl)
  have : d = d' := by rw [h1] at h17; simpa using h17
  subst this
  have hshape := gridShape_of_valid hv hne
  obtain ⟨hw, _⟩ := WF.of_reachable hshape.2 hreach
  have hful' : ∀ c, HasStatus d.n d.tree c .full ↔ d.isFullCell c = some true := fun c => by
    rw [Dom.isFullCell, hn', hw.isCell_iff]
  -- each cell
  have hcell : ∀ c b, c < g.numCells → IsCellRule t q g d n c b →
      |ruleSum (boxOf g c) (b.map (·.1)) (b.map (·.2)) F - integralOver (inside g.length phi ∩ region g.length (boxOf g c)) F| ≤
        (if c ∈ nearCells oo g then max η (M * κ) else 0) + δ * boxVolume (boxOf g c) := by
    intro c b hc hrule
    have hw' : ∀ {a b : Status}, HasStatus d.n d.tree c a → HasStatus d.n d.tree c b → a = b := by
      rw [hn']; exact fun {a b} h h' => hw.hasStatus_unique h h'
    obtain ⟨s1, s2, s3, s4⟩ := boxOf_spec g hv c hc
    refine cell_error debug oo g hv hne hm phi hs hO F hF M hM0 hM q n κ η δ hκ hδ hA h1 hc ?_ ?_ ?_
    · intro hst
      rcases hrule with ⟨a, dom, a1, a2⟩ | ⟨a0, a, a2⟩ | ⟨a0, a, a2⟩
      · rw [s1] at a1
        obtain rfl := Option.some.inj a1
        by_cases hnear : c ∈ nearCells oo g
        · rw [a2, ruleSum_cut q _ s3 n F (fun ho y hy => by rw [s2]; exact hA.points ho c hnear y hy)]
        · exfalso
          obtain ⟨b', hb', -, hcase⟩ := hcells c (by rw [← tsize_eq]; exact hc)
          rw [s1] at hb'
          obtain rfl := Option.some.inj hb'
          rw [hn'] at hst
          rcases hcase with ⟨q1, _⟩ | ⟨q1, _⟩ | ⟨q1, _⟩
          · exact absurd (hw.hasStatus_unique q1 hst) (by simp)
          · exact absurd (hw.hasStatus_unique q1 hst) (by simp)
          · refine hnear ?_
            unfold nearCells
            rw [List.mem_filter]
            exact ⟨List.mem_range.2 hc, by simpa [Box.extendDelta] using q1⟩
      · rw [(hcut c).2 hst] at a0; simp at a0
      · rw [(hcut c).2 hst] at a0; simp at a0
    · intro hst
      rcases hrule with ⟨a, _⟩ | ⟨a0, a, a2⟩ | ⟨a0, a, a2⟩
      · exact absurd (hw' hst ((hcut c).1 a)) (by simp)
      · rw [a2]; exact hfull c hc
      · rw [(hful' c).1 hst] at a; simp at a
    · intro hst
      rcases hrule with ⟨a, _⟩ | ⟨a0, a, a2⟩ | ⟨a0, a, a2⟩
      · exact absurd (hw' hst ((hcut c).1 a)) (by simp)
      · exact absurd (hw' hst ((hful' c).2 a)) (by simp)
      · rw [a2]; simp [ruleSum, integral]
  -- all the cells
  have hzip : ∀ (l : List Nat) (bs : List (List (Node ℝ))), List.Forall₂ (IsCellRule t q g d n) l bs → l.Nodup →
      ∃ r : Nat → ℝ, List.zipWith (fun c b => ruleSum (boxOf g c) (b.map (·.1)) (b.map (·.2)) F) l bs = l.map r ∧
        ∀ c ∈ l, ∃ b, IsCellRule t q g d n c b ∧ r c = ruleSum (boxOf g c) (b.map (·.1)) (b.map (·.2)) F := by
    intro l bs h
    induction h with
    | nil => intro _; exact ⟨fun _ => 0, rfl, by simp⟩
    | @cons c b l bs h0 _ ih =>
      intro hnd
      rw [List.nodup_cons] at hnd
      obtain ⟨r, i1, i2⟩ := ih hnd.2
      refine ⟨Function.update r c (ruleSum (boxOf g c) (b.map (·.1)) (b.map (·.2)) F), ?_, ?_⟩
      · rw [List.zipWith_cons_cons, List.map_cons, Function.update_self, i1]
        congr 1
        apply List.map_congr_left
        intro c' hc'
        rw [Function.update_of_ne]
        rintro rfl
        exact hnd.1 hc'
      · intro c' hc'
        by_cases e : c' = c
        · subst e
          exact ⟨b, h0, by rw [Function.update_self]⟩
        · rw [Function.update_of_ne e]
          exact i2 c' ((List.mem_cons.1 hc').resolve_left e)
  obtain ⟨r, r1, r2⟩ := hzip _ _ hb1 List.nodup_range
  rw [r1]
  refine total_error oo g hv phi hO F hF _ δ r fun c hc => ?_
  obtain ⟨b, hb, e⟩ := r2 c (List.mem_range.2 hc)
  rw [e]
  exact hcell c b hc hb

end Qugar.Integrals
