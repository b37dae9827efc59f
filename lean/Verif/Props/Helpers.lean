import Verif.Props.Domain
import Verif.Props.Tolerance
import Verif.Props.QuadRules
import Verif.Props.BBox
import Verif.Props.Grid
/-
Property theorems on smaller helpers: components of tensor indices, grid lines through a point, relative tolerances, signs
from interval evaluations, scaled rules, boxes from corners.
-/
namespace Qugar
open Spec
variable {K : Type} [Field K] [LinearOrder K] [IsStrictOrderedRing K]

/-- **C01** (components). Removing a component keeps the others, in order: what is left is the index in which inserting the
removed component at its place gives the original. -/
theorem C01_remove_component (idx : List Nat) (comp : Nat) (h : comp < idx.length) :
    (removeComponent idx comp).length + 1 = idx.length ∧
    (∀ k, k < comp → (removeComponent idx comp)[k]? = idx[k]?) ∧
    (∀ k, comp ≤ k → (removeComponent idx comp)[k]? = idx[k + 1]?) ∧
    (removeComponent idx comp).insertIdx comp (idx.getD comp 0) = idx := by
  have key : removeComponent idx comp = idx.eraseIdx comp := by
    unfold removeComponent
    have e1 : List.range idx.length = List.range comp ++ comp :: List.range' (comp + 1) (idx.length - comp - 1) := by
      conv_lhs => rw [show idx.length = comp + (1 + (idx.length - comp - 1)) by omega]
      rw [List.range_eq_range', List.range_eq_range', ← List.range'_append_1, ← List.range'_append_1]
      simp
    rw [e1, List.filter_append, List.filter_cons]
    have f1 : (List.range comp).filter (fun dir => dir != comp) = List.range comp := by
      rw [List.filter_eq_self]
      intro a ha
      have := List.mem_range.1 ha
      simp; omega
    have f2 : (List.range' (comp + 1) (idx.length - comp - 1)).filter (fun dir => dir != comp) =
        List.range' (comp + 1) (idx.length - comp - 1) := by
      rw [List.filter_eq_self]
      intro a ha
      have := List.mem_range'_1.1 ha
      simp; omega
    rw [f1, f2]
    simp only [bne_self_eq_false, Bool.false_eq_true, if_false, List.map_append]
    apply List.ext_getElem?
    intro k
    rw [List.getElem?_eraseIdx]
    rcases Nat.lt_or_ge k comp with hk | hk
    · rw [if_pos hk, List.getElem?_append_left (by simpa using hk), List.getElem?_map, List.getElem?_range hk]
      simp [List.getElem?_eq_getElem (show k < idx.length by omega)]
    · rw [if_neg (by omega), List.getElem?_append_right (by simpa using hk), List.length_map, List.length_range,
        List.getElem?_map]
      by_cases hk2 : k + 1 < idx.length
      · rw [List.getElem?_range' (by omega)]
        have : comp + 1 + 1 * (k - comp) = k + 1 := by omega
        rw [this]
        simp [List.getElem?_eq_getElem hk2]
      · rw [List.getElem?_eq_none (by simp; omega), List.getElem?_eq_none (by omega)]
        rfl
  rw [key]
  refine ⟨by rw [List.length_eraseIdx_of_lt h]; omega, ?_, ?_, ?_⟩
  · intro k hk; rw [List.getElem?_eraseIdx, if_pos hk]
  · intro k hk; rw [List.getElem?_eraseIdx, if_neg (by omega)]
  · rw [List.getD_eq_getElem?_getD, List.getElem?_eq_getElem h, Option.getD_some]
    exact List.insertIdx_eraseIdx_getElem h

example : removeComponent [4, 7, 9] 1 = [4, 9] := by decide

/-- **C01** (iterators). The flat index an iterator reports is that of its index with respect to the upper bounds. -/
theorem C01_iterator_flat (r : Range) (idx : List Nat) (h : InSize r.up idx) :
    ∃ fl, r.iterFlat idx = some fl ∧ fl < tsize r.up ∧ unflat fl r.up = some idx :=
  C01_tensor_flat_tensor r.up idx h

/-! ### Grid lines through a point -/

/-- In direction `d`, the point is within the tolerance of a knot that is not the first nor the last. -/
def NearInteriorKnot (g : Grid K) (tol : K) (p : List K) (d : Nat) : Prop :=
  ∃ (bs : List K) (x : K) (k : Nat), g[d]? = some bs ∧ p[d]? = some x ∧ 0 < k ∧ k < bs.length - 1 ∧ |x - bs.getD k 0| ≤ tol

/-- Consecutive knots are more than twice the tolerance apart. -/
def WideSpans (g : Grid K) (tol : K) : Prop :=
  ∀ bs ∈ g, ∀ k, k + 1 < bs.length → bs.getD k 0 + 2 * tol < bs.getD (k + 1) 0

theorem near_zero {bs : List K} {g : Grid K} {tol x : K} {xs : List K} :
    NearInteriorKnot (bs :: g) tol (x :: xs) 0 ↔ ∃ k, 0 < k ∧ k < bs.length - 1 ∧ |x - bs.getD k 0| ≤ tol := by
  constructor
  · rintro ⟨b, y, k, h1, h2, h3⟩
    simp only [List.getElem?_cons_zero, Option.some.injEq] at h1 h2
    subst h1; subst h2
    exact ⟨k, h3⟩
  · rintro ⟨k, h⟩; exact ⟨bs, x, k, rfl, rfl, h⟩

theorem near_succ {bs : List K} {g : Grid K} {tol x : K} {xs : List K} {d : Nat} :
    NearInteriorKnot (bs :: g) tol (x :: xs) (d + 1) ↔ NearInteriorKnot g tol xs d := by
  simp [NearInteriorKnot]

theorem atCells_spec (tol : K) (ht : 0 ≤ tol) : ∀ (g : Grid K) (p : List K) (dir : Nat), g.Valid → WideSpans g tol →
    InClosedBox tol g.domain p → ∃ r, Grid.atCellsBoundaryFrom tol dir g p = some r ∧
      (∀ d, r = some d ↔ ∃ e, d = dir + e ∧ NearInteriorKnot g tol p e ∧ ∀ e' < e, ¬ NearInteriorKnot g tol p e') := by
  intro g
  induction g with
  | nil =>
    intro p dir _ _ _
    refine ⟨none, by simp [Grid.atCellsBoundaryFrom], ?_⟩
    simp [NearInteriorKnot]
  | cons bs g ih =>
    intro p dir hv hw hp
    rw [Grid.valid_cons] at hv
    rw [InClosedBox, Grid.domain_cons] at hp
    cases hp with
    | @cons _ x _ xs h hp =>
      dsimp only at h
      obtain ⟨⟨hl, hs⟩, hv⟩ := hv
      have hw1 := hw bs (by simp)
      have hpos := Grid.upperBound_pos bs hs (x + tol) (by omega) (by linarith [h.1])
      obtain ⟨d, hd⟩ : ∃ d, Grid.upperBound bs (x + tol) = d + 1 := ⟨_, (Nat.succ_pred_eq_of_pos hpos).symm⟩
      have hle := Grid.upperBound_le bs (x + tol)
      have hb := Grid.upperBound_below bs (x + tol) d (by omega)
      have hnear : NearInteriorKnot (bs :: g) tol (x :: xs) 0 ↔ (Tol.equal tol x (bs.getD d 0) && decide (0 < d) &&
          decide (d < bs.length - 1)) = true := by
        rw [near_zero]
        simp only [Bool.and_eq_true, decide_eq_true_eq, Tol.equal]
        constructor
        · rintro ⟨k, k1, k2, k3⟩
          rw [abs_le] at k3
          have : k = d := by
            have hk1 : ¬ d + 1 ≤ k := by
              intro hc
              have := Grid.upperBound_above bs hs (x + tol) k (by omega) (by omega)
              linarith [k3.1]
            have hk2 : ¬ k + 1 ≤ d := by
              intro hc
              have a := hw1 k (by omega)
              have b : bs.getD (k + 1) 0 ≤ bs.getD d 0 := by
                rcases Nat.lt_or_ge (k + 1) d with hlt | hge
                · have := List.pairwise_iff_getElem.1 hs (k + 1) d (by omega) (by omega) hlt
                  rw [List.getD_eq_getElem _ _ (by omega), List.getD_eq_getElem _ _ (by omega)]
                  exact le_of_lt this
                · rw [show d = k + 1 by omega]
              linarith [k3.2]
            omega
          subst this
          exact ⟨⟨abs_le.2 k3, k1⟩, k2⟩
        · rintro ⟨⟨k3, k1⟩, k2⟩; exact ⟨d, k1, k2, k3⟩
      rw [Grid.atCellsBoundaryFrom, hd]
      dsimp only
      split
      · next hc =>
        refine ⟨some dir, rfl, ?_⟩
        intro d'
        constructor
        · intro he
          cases he
          exact ⟨0, rfl, hnear.2 hc, by simp⟩
        · rintro ⟨e, rfl, he1, he2⟩
          cases e with
          | zero => rfl
          | succ e => exact absurd (hnear.2 hc) (he2 0 (by omega))
      · next hc =>
        obtain ⟨r, hr, hspec⟩ := ih xs (dir + 1) hv (fun b hb => hw b (by simp [hb])) hp
        refine ⟨r, hr, ?_⟩
        intro d'
        rw [hspec]
        constructor
        · rintro ⟨e, rfl, he1, he2⟩
          refine ⟨e + 1, by omega, near_succ.2 he1, ?_⟩
          intro e' he'
          cases e' with
          | zero => exact fun hn => hc (hnear.1 hn)
          | succ e' => exact fun hn => he2 e' (by omega) (near_succ.1 hn)
        · rintro ⟨e, rfl, he1, he2⟩
          cases e with
          | zero => exact absurd (hnear.1 he1) hc
          | succ e =>
            exact ⟨e, by omega, near_succ.1 he1, fun e' he' hn => he2 (e' + 1) (by omega) (near_succ.2 hn)⟩

/-- **C05** (cell boundaries). For a point of the grid domain, and a tolerance smaller than half of every span, the query
returns the first direction in which the point is within the tolerance of a knot between two cells; nothing is returned iff
there is none. -/
theorem C05_at_cells_boundary (g : Grid K) (hv : g.Valid) (tol : K) (ht : 0 ≤ tol) (hw : WideSpans g tol) (p : List K)
    (hp : InClosedBox tol g.domain p) : ∃ r, g.atCellsBoundary tol p = some r ∧
      (∀ d, r = some d ↔ NearInteriorKnot g tol p d ∧ ∀ e < d, ¬ NearInteriorKnot g tol p e) ∧
      (r = none ↔ ∀ d, ¬ NearInteriorKnot g tol p d) := by
  obtain ⟨r, hr, hs⟩ := atCells_spec tol ht g p 0 hv hw hp
  have hs' : ∀ d, r = some d ↔ NearInteriorKnot g tol p d ∧ ∀ e < d, ¬ NearInteriorKnot g tol p e := by
    intro d
    rw [hs]
    constructor
    · rintro ⟨e, rfl, h⟩; simpa using h
    · intro h; exact ⟨d, by omega, h⟩
  refine ⟨r, hr, hs', ?_⟩
  constructor
  · rintro rfl d hd
    classical
    obtain ⟨e, he⟩ : ∃ e, e = Nat.find ⟨d, hd⟩ := ⟨_, rfl⟩
    have h1 : NearInteriorKnot g tol p e := by rw [he]; exact Nat.find_spec ⟨d, hd⟩
    have h2 : ∀ e' < e, ¬ NearInteriorKnot g tol p e' := fun e' he' => Nat.find_min ⟨d, hd⟩ (by rw [← he]; exact he')
    have := (hs' e).2 ⟨h1, h2⟩
    cases this
  · intro hn
    cases r with
    | none => rfl
    | some d => exact absurd ((hs' d).1 rfl).1 (hn d)

example : Grid.atCellsBoundary ([[0, 1, 2], [0, 1/2, 1]] : Grid ℚ) (1/100) [0, 1/2] = some (some 1) ∧
    Grid.atCellsBoundary ([[0, 1, 2], [0, 1/2, 1]] : Grid ℚ) (1/100) [0, 3/4] = some none ∧
    WideSpans ([[0, 1, 2], [0, 1/2, 1]] : Grid ℚ) (1/100) := by
  refine ⟨by decide +kernel, by decide +kernel, ?_⟩
  intro bs hbs k hk
  simp only [List.mem_cons, List.not_mem_nil, or_false] at hbs
  rcases hbs with rfl | rfl
  all_goals
    simp only [List.length_cons, List.length_nil] at hk
    rcases (by omega : k = 0 ∨ k = 1) with rfl | rfl <;> norm_num

/-! ### Tolerances -/

/-- **C47** (relative comparisons and updates). `update` gives the larger tolerance; the relative comparisons compare with the
larger of the two magnitudes times the tolerance, so they do not depend on the scale; exactly one of smaller, equal and
greater holds. -/
theorem C47_relative (tol : K) (h : 0 ≤ tol) :
    (∀ other, tol ≤ Tol.update tol other ∧ other ≤ Tol.update tol other ∧
      (Tol.update tol other = tol ∨ Tol.update tol other = other)) ∧
    (∀ a b, Tol.equalRel tol a b = true ↔ |a - b| ≤ max |a| |b| * tol) ∧
    (∀ a b, Tol.equalAbsRel 0 tol a b = Tol.equalRel tol a b) ∧
    (∀ a b rel, 0 ≤ rel → Tol.equal tol a b = true → Tol.equalAbsRel tol rel a b = true) ∧
    (∀ a b, (Tol.smallerThanRel tol a b).toNat + (Tol.equalRel tol a b).toNat + (Tol.greaterThanRel tol a b).toNat = 1) ∧
    (∀ s a b, 0 < s → Tol.equalRel tol (s * a) (s * b) = Tol.equalRel tol a b ∧
      Tol.greaterThanRel tol (s * a) (s * b) = Tol.greaterThanRel tol a b) := by
  have hmax : ∀ a b : K, (if |a| < |b| then |b| else |a|) = max |a| |b| := by
    intro a b
    split
    · next h => rw [max_eq_right (le_of_lt h)]
    · next h => rw [max_eq_left (not_lt.1 h)]
  refine ⟨?_, ?_, ?_, ?_, ?_, ?_⟩
  · intro other
    exact ⟨le_max_left _ _, le_max_right _ _, max_choice _ _⟩
  · intro a b; simp [Tol.equalRel, hmax]
  · intro a b; simp [Tol.equalRel, Tol.equalAbsRel, hmax, mul_comm]
  · intro a b rel hrel he
    simp only [Tol.equal, Tol.equalAbsRel, hmax, decide_eq_true_eq] at *
    have : 0 ≤ rel * max |a| |b| := mul_nonneg hrel (le_max_of_le_left (abs_nonneg a))
    linarith
  · intro a b
    have hM : 0 ≤ max |a| |b| * tol := mul_nonneg (le_max_of_le_left (abs_nonneg a)) h
    unfold Tol.smallerThanRel Tol.equalRel Tol.greaterThanRel
    simp only [hmax, max_comm |b| |a|, gt_iff_lt]
    generalize max |a| |b| * tol = M at hM
    rcases lt_or_ge M (b - a) with h1 | h1
    · have h2 : ¬ |a - b| ≤ M := by rw [abs_le]; intro h; linarith [h.1]
      have h3 : ¬ M < a - b := by intro h; linarith
      simp [h1, h2, h3]
    · rcases lt_or_ge M (a - b) with h2 | h2
      · have h3 : ¬ |a - b| ≤ M := by rw [abs_le]; intro h; linarith [h.2]
        simp [not_lt.2 h1, h2, h3]
      · have h3 : |a - b| ≤ M := abs_le.2 ⟨by linarith, h2⟩
        simp [not_lt.2 h1, not_lt.2 h2, h3]
  · intro s a b hs
    have e : max |s * a| |s * b| = s * max |a| |b| := by
      rw [abs_mul, abs_mul, abs_of_pos hs, ← mul_max_of_nonneg _ _ hs.le]
    unfold Tol.equalRel Tol.greaterThanRel
    simp only [hmax, gt_iff_lt]
    rw [e, ← mul_sub, abs_mul, abs_of_pos hs, mul_assoc]
    constructor
    · rw [decide_eq_decide]; exact mul_le_mul_iff_right₀ hs
    · rw [decide_eq_decide]; exact mul_lt_mul_iff_right₀ hs

/-! ### Signs from interval evaluations -/

/-- **C12** (signs). When the interval evaluation on every box encloses the function (a box whose result is reported of
uniform sign has all values closer to the central value than zero is), the signs given to the decomposition are sound. -/
theorem C12_interval_signs_are_sound (phi : List K → K) (ev : Box K → IntervalResult K)
    (h : ∀ b, (ev b).uniform = true → ∀ x, InClosedBox 0 b x → |phi x - (ev b).alpha| < |(ev b).alpha|) :
    SoundSign phi (fun b => signOfInterval (ev b)) ∧
      (∀ b, (ev b).uniform = true → signOfInterval (ev b) ≠ .undetermined) := by
  constructor
  · intro b
    have h := h b
    unfold signOfInterval
    constructor
    · intro hs x hx
      dsimp only at hs
      split at hs
      · next hu =>
        split at hs
        · next ha =>
          have := h hu x hx
          rw [abs_of_neg ha, abs_lt] at this
          linarith [this.2]
        · cases hs
      · cases hs
    · intro hs x hx
      dsimp only at hs
      split at hs
      · next hu =>
        split at hs
        · cases hs
        · next ha =>
          have := h hu x hx
          rw [abs_of_nonneg (not_lt.1 ha), abs_lt] at this
          linarith [this.1]
      · cases hs
  · intro b hu
    unfold signOfInterval
    rw [if_pos hu]
    split <;> simp

example : (fun x : List ℚ => |(x.headD 0 + 5) - 11 / 2| < |(11 / 2 : ℚ)|) [1] ∧
    signOfInterval (⟨true, 11 / 2⟩ : IntervalResult ℚ) = .positive ∧ signOfInterval (⟨true, -3⟩ : IntervalResult ℚ) = .negative := by
  refine ⟨by norm_num [abs_lt], by decide +kernel, by decide +kernel⟩

/-! ### Scaled rules, boxes from corners -/

omit [LinearOrder K] [IsStrictOrderedRing K] in
/-- **C22** (scaling). Scaling the weights keeps the points and multiplies every integral by the ratio. -/
theorem C22_scale_weights (r : Rule K) (ratio : K) (F : List K → K) :
    (r.scaleWeights ratio).points = r.points ∧ (r.scaleWeights ratio).weights.length = r.weights.length ∧
      integral (r.scaleWeights ratio).points (r.scaleWeights ratio).weights F = ratio * integral r.points r.weights F := by
  refine ⟨rfl, by simp [Rule.scaleWeights], ?_⟩
  unfold integral Rule.scaleWeights
  dsimp only
  generalize r.points = ps
  generalize r.weights = ws
  induction ps generalizing ws with
  | nil => simp
  | cons p ps ih =>
    cases ws with
    | nil => simp
    | cons w ws =>
      simp only [List.map_cons, List.zipWith_cons_cons, List.sum_cons]
      rw [ih]
      ring

example : (Rule.scaleWeights (⟨[[0], [1]], [1, 2]⟩ : Rule ℚ) 3).weights = [3, 6] := by decide +kernel

omit [IsStrictOrderedRing K] in
/-- **C25** (corners). The box built from two corners has them as its corners, and is valid iff the first is not above the
second in any direction. -/
theorem C25_of_corners (mn mx : List K) (h : mn.length = mx.length) :
    (Box.ofCorners mn mx).map Prod.fst = mn ∧ (Box.ofCorners mn mx).map Prod.snd = mx ∧
      ((Box.ofCorners mn mx).Valid ↔ List.Forall₂ (· ≤ ·) mn mx) := by
  unfold Box.ofCorners Box.Valid
  refine ⟨List.map_fst_zip (by omega), List.map_snd_zip (by omega), ?_⟩
  rw [List.forall₂_iff_zip]
  constructor
  · intro hv; exact ⟨h, fun hab => hv _ hab⟩
  · rintro ⟨_, hv⟩ iv hiv; exact hv hiv

end Qugar
