import Verif.Lemmas.Grid
import Mathlib.Data.List.Sort
import Mathlib.Tactic.NormNum
/-
Property theorems C47 (tolerance comparisons) .
-/
namespace Qugar.Tol
variable {K : Type} [Field K] [LinearOrder K] [IsStrictOrderedRing K]

theorem equal_iff (tol a b : K) : equal tol a b = true ↔ a - b ≤ tol ∧ b - a ≤ tol := Grid.tol_equal_iff tol a b
theorem greaterThan_iff (tol a b : K) : greaterThan tol a b = true ↔ tol < a - b := by simp [greaterThan]
theorem smallerThan_iff (tol a b : K) : smallerThan tol a b = true ↔ tol < b - a := by simp [smallerThan, greaterThan]

/-- **C47** `equal` is reflexive and symmetric. -/
theorem C47_equal_reflexive_symmetric (tol : K) (h : 0 ≤ tol) :
    (∀ a, equal tol a a = true) ∧ ∀ a b, equal tol a b = equal tol b a := by
  refine ⟨fun a => by rw [equal_iff]; simp [h], fun a b => ?_⟩
  rw [Bool.eq_iff_iff, equal_iff, equal_iff]; exact And.comm

/-- **C47** Exactly one of smaller / equal / greater holds, for every pair and every non-negative tolerance. -/
theorem C47_trichotomy (tol : K) (h : 0 ≤ tol) (a b : K) :
    (smallerThan tol a b = true ∧ equal tol a b = false ∧ greaterThan tol a b = false) ∨
    (smallerThan tol a b = false ∧ equal tol a b = true ∧ greaterThan tol a b = false) ∨
    (smallerThan tol a b = false ∧ equal tol a b = false ∧ greaterThan tol a b = true) := by
  simp only [← Bool.not_eq_true, equal_iff, greaterThan_iff, smallerThan_iff]
  rcases lt_or_ge tol (a - b) with h1 | h1
  · exact Or.inr (Or.inr ⟨by intro h2; linarith, by intro h2; linarith [h2.1], h1⟩)
  · rcases lt_or_ge tol (b - a) with h2 | h2
    · exact Or.inl ⟨h2, by intro h3; linarith [h3.2], by intro h3; linarith⟩
    · exact Or.inr (Or.inl ⟨by intro h3; linarith, ⟨h1, h2⟩, by intro h3; linarith⟩)

/-- **C47** The strict comparisons are converse to each other, asymmetric and transitive; the weak ones are
`equal or strict`, i.e. `lhs ≥ rhs - tol`; and a negative, zero or positive value is exactly one of those. -/
theorem C47_order_laws (tol : K) (h : 0 ≤ tol) :
    (∀ a b, smallerThan tol a b = greaterThan tol b a) ∧
    (∀ a b, greaterThan tol a b = true → greaterThan tol b a = false) ∧
    (∀ a b c, greaterThan tol a b = true → greaterThan tol b c = true → greaterThan tol a c = true) ∧
    (∀ a b, greaterEqualThan tol a b = true ↔ b - tol ≤ a) ∧
    (∀ a b, smallerEqualThan tol a b = true ↔ a ≤ b + tol) ∧
    (∀ a b, smallerEqualThan tol a b = !greaterThan tol a b) ∧
    (∀ v, ((isNegative tol v).toNat + (isZero tol v).toNat + (isPositive tol v).toNat) = 1) := by
  refine ⟨fun _ _ => rfl, ?_, ?_, ?_, ?_, ?_, ?_⟩
  · intro a b; rw [← Bool.not_eq_true, greaterThan_iff, greaterThan_iff]; intro h1 h2; linarith
  · intro a b c; simp only [greaterThan_iff]; intro h1 h2; linarith
  · intro a b; rw [greaterEqualThan, Bool.or_eq_true, equal_iff, greaterThan_iff]
    constructor
    · rintro (⟨_, h2⟩ | h1) <;> linarith
    · intro h1
      rcases lt_or_ge tol (a - b) with h2 | h2
      · exact Or.inr h2
      · exact Or.inl ⟨h2, by linarith⟩
  · intro a b; rw [smallerEqualThan, greaterEqualThan, Bool.or_eq_true, equal_iff, greaterThan_iff]
    constructor
    · rintro (⟨_, h2⟩ | h1) <;> linarith
    · intro h1
      rcases lt_or_ge tol (b - a) with h2 | h2
      · exact Or.inr h2
      · exact Or.inl ⟨h2, by linarith⟩
  · intro a b
    rw [Bool.eq_iff_iff, smallerEqualThan, greaterEqualThan, Bool.or_eq_true, equal_iff, greaterThan_iff,
      Bool.not_eq_true', ← Bool.not_eq_true, greaterThan_iff]
    constructor
    · rintro (⟨_, h2⟩ | h1) h3 <;> linarith
    · intro h1
      rcases lt_or_ge tol (b - a) with h2 | h2
      · exact Or.inr h2
      · exact Or.inl ⟨h2, by linarith⟩
  · intro v
    unfold isNegative isZero isPositive
    rcases lt_or_ge v (-tol) with h1 | h1
    · have h2 : ¬ |v| ≤ tol := by rw [abs_le]; intro h; linarith [h.1]
      have h3 : ¬ tol < v := by intro h; linarith
      simp [h1, h2, h3]
    · rcases lt_or_ge tol v with h2 | h2
      · have h3 : ¬ |v| ≤ tol := by rw [abs_le]; intro h; linarith [h.2]
        simp [not_lt.2 h1, h2, h3]
      · have h3 : |v| ≤ tol := abs_le.2 ⟨h1, h2⟩
        simp [not_lt.2 h1, not_lt.2 h2, h3]

theorem uniqueLoop_spec (tol : K) (h : 0 ≤ tol) (last : K) (xs : List K) (hs : (last :: xs).Pairwise (· ≤ ·)) :
    (last :: uniqueLoop tol last xs).Pairwise (fun a b => a + tol < b) ∧
    (uniqueLoop tol last xs).Sublist xs ∧
    (∀ x ∈ xs, ∃ y ∈ last :: uniqueLoop tol last xs, y ≤ x ∧ x ≤ y + tol) := by
  induction xs generalizing last with
  | nil => simp [uniqueLoop]
  | cons x xs ih =>
    rw [List.pairwise_cons] at hs
    have hlx := hs.1 x (by simp)
    unfold uniqueLoop
    by_cases he : equal tol last x = true
    · simp only [he, if_true]
      have hs' : (last :: xs).Pairwise (· ≤ ·) := by
        rw [List.pairwise_cons]
        exact ⟨fun y hy => hs.1 y (by simp [hy]), (List.pairwise_cons.1 hs.2).2⟩
      obtain ⟨h1, h2, h3⟩ := ih last hs'
      refine ⟨h1, h2.cons _, ?_⟩
      intro z hz
      rcases List.mem_cons.1 hz with rfl | hz
      · rw [equal_iff] at he
        exact ⟨last, by simp, hlx, by linarith [he.2]⟩
      · exact h3 z hz
    · simp only [he, Bool.false_eq_true, if_false]
      obtain ⟨h1, h2, h3⟩ := ih x hs.2
      have hgap : last + tol < x := by
        by_contra hc
        exact he ((equal_iff _ _ _).2 ⟨by linarith, by linarith⟩)
      refine ⟨?_, h2.cons_cons _, ?_⟩
      · rw [List.pairwise_cons]
        refine ⟨fun y hy => ?_, h1⟩
        rcases List.mem_cons.1 hy with rfl | hy
        · exact hgap
        · have := (List.pairwise_cons.1 h1).1 y hy
          linarith
      · intro z hz
        rcases List.mem_cons.1 hz with rfl | hz
        · exact ⟨z, by simp, le_rfl, by linarith⟩
        · obtain ⟨y, hy, hyz⟩ := h3 z hz
          exact ⟨y, List.mem_cons_of_mem _ hy, hyz⟩

theorem uniqueLoop_id (tol : K) (h : 0 ≤ tol) (last : K) (xs : List K)
    (hs : (last :: xs).Pairwise (fun a b => a + tol < b)) : uniqueLoop tol last xs = xs := by
  induction xs generalizing last with
  | nil => rfl
  | cons x xs ih =>
    rw [List.pairwise_cons] at hs
    have := hs.1 x (by simp)
    have he : ¬ equal tol last x = true := by
      rw [equal_iff]; rintro ⟨_, h2⟩; linarith
    unfold uniqueLoop
    simp only [he, Bool.false_eq_true, if_false, ih x hs.2]

/-- **C47** `unique` returns some of the input values, in increasing order, any two of them more than the tolerance
apart; each input value is represented by an output value within one tolerance (below it); and applying `unique`
again changes nothing. -/
theorem C47_unique (tol : K) (h : 0 ≤ tol) (values : List K) :
    let out := unique tol values
    out.Pairwise (fun a b => a + tol < b) ∧ (∀ y ∈ out, y ∈ values) ∧
      (∀ x ∈ values, ∃ y ∈ out, y ≤ x ∧ x ≤ y + tol) ∧ unique tol out = out := by
  intro out
  have hsorted : (values.mergeSort (fun a b => decide (a ≤ b))).Pairwise (fun a b => a ≤ b) := by
    have := List.pairwise_mergeSort (le := fun a b : K => decide (a ≤ b)) (by
      intro a b c; simp only [decide_eq_true_eq]; exact le_trans) (by
      intro a b; simp only [Bool.or_eq_true, decide_eq_true_eq]; exact le_total a b) values
    exact this.imp (by intro a b h; simpa using h)
  have hmem : ∀ x, x ∈ values.mergeSort (fun a b => decide (a ≤ b)) ↔ x ∈ values := fun x => List.mem_mergeSort
  have hout : out = uniqueSorted tol (values.mergeSort (fun a b => decide (a ≤ b))) := rfl
  have core : out.Pairwise (fun a b => a + tol < b) ∧ (∀ y ∈ out, y ∈ values) ∧
      (∀ x ∈ values, ∃ y ∈ out, y ≤ x ∧ x ≤ y + tol) := by
    rw [hout]
    cases hm : values.mergeSort (fun a b => decide (a ≤ b)) with
    | nil =>
      refine ⟨by simp [uniqueSorted], by simp [uniqueSorted], fun x hx => ?_⟩
      have := (hmem x).2 hx
      rw [hm] at this; simp at this
    | cons a as =>
      rw [hm] at hsorted
      obtain ⟨h1, h2, h3⟩ := uniqueLoop_spec tol h a as hsorted
      refine ⟨h1, fun y hy => ?_, fun x hx => ?_⟩
      · rw [← hmem y, hm]
        rcases List.mem_cons.1 hy with rfl | hy
        · simp
        · exact List.mem_cons_of_mem _ (h2.subset hy)
      · rw [← hmem x, hm] at hx
        rcases List.mem_cons.1 hx with rfl | hx
        · exact ⟨x, by simp [uniqueSorted], le_rfl, by linarith⟩
        · exact h3 x hx
  refine ⟨core.1, core.2.1, core.2.2, ?_⟩
  have hle : out.Pairwise (fun a b => (decide (a ≤ b)) = true) := core.1.imp (by
    intro a b hab; simp only [decide_eq_true_eq]; linarith)
  rw [unique, List.mergeSort_of_pairwise hle]
  cases ho : out with
  | nil => rfl
  | cons a as =>
    have := core.1
    rw [ho] at this
    simp only [uniqueSorted, uniqueLoop_id tol h a as this]

/-- **C47** Two points are coincident iff all their coordinates agree up to tolerance. -/
theorem C47_coincident (tol : K) (p q : List K) (hl : p.length = q.length) :
    coincident tol p q = true ↔ List.Forall₂ (fun a b => |a - b| ≤ tol) p q := by
  induction p generalizing q with
  | nil => cases q <;> simp_all [coincident]
  | cons a as ih =>
    cases q with
    | nil => simp at hl
    | cons b bs =>
      unfold coincident
      rw [List.forall₂_cons, ← ih bs (by simpa using hl)]
      by_cases h : |a - b| ≤ tol <;> simp [equal, h]

/-- Tolerance equality is *not* transitive (so `unique`'s result depends on the sorted scan): witness. -/
theorem C47_equal_not_transitive :
    equal (1 : ℚ) 0 1 = true ∧ equal (1 : ℚ) 1 2 = true ∧ equal (1 : ℚ) 0 2 = false := by
  refine ⟨?_, ?_, ?_⟩ <;> norm_num [equal]

example : uniqueSorted (1/10 : ℚ) [0, 1/20, 1/2, 11/20, 2] = [0, 1/2, 2] := by decide +kernel

end Qugar.Tol
