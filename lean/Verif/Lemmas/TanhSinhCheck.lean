import Verif.Lemmas.Gauss
/-
Kernel evaluation of the check of the tanh-sinh table (every row).
-/
namespace Qugar

/-- Symmetry of the rows with respect to the midpoint: abscissae up to `E`, weights up to `F`. -/
def symOk (S E F : Nat) : List (Nat × Nat) → List (Nat × Nat) → Bool
  | (x, w) :: r, (y, v) :: s => decide (x + y ≤ S + E) && decide (S ≤ x + y + E) && decide (w ≤ v + F) && decide (v ≤ w + F) && symOk S E F r s
  | _, _ => true

/-- Length, order, positivity, sum of the weights, symmetry. -/
def normOk (S E F n : Nat) (r : List (Nat × Nat)) : Bool :=
  decide (r.length = n) && rowsOk S 0 r && decide (sumW r ≤ S + E) && decide (S ≤ sumW r + E) && symOk S E F r r.reverse

namespace TanhSinhTable
theorem check0 : blocksOk (normOk scale (10 ^ 33) (10 ^ 33)) 1 blocks0 = true := by decide +kernel
theorem check1 : blocksOk (normOk scale (10 ^ 33) (10 ^ 33)) 51 blocks1 = true := by decide +kernel
theorem check2 : blocksOk (normOk scale (10 ^ 33) (10 ^ 33)) 71 blocks2 = true := by decide +kernel
theorem check3 : blocksOk (normOk scale (10 ^ 33) (10 ^ 33)) 87 blocks3 = true := by decide +kernel
end TanhSinhTable
namespace GaussTable
theorem sym0 : blocksOk (normOk scale (10 ^ 7) 0) 1 blocks0 = true := by decide +kernel
theorem sym1 : blocksOk (normOk scale (10 ^ 7) 0) 51 blocks1 = true := by decide +kernel
theorem sym2 : blocksOk (normOk scale (10 ^ 7) 0) 71 blocks2 = true := by decide +kernel
theorem sym3 : blocksOk (normOk scale (10 ^ 7) 0) 87 blocks3 = true := by decide +kernel
end GaussTable

theorem symOk_spec (S E F : Nat) (r s : List (Nat × Nat)) (h : symOk S E F r s = true) (i : Nat) (hi : i < r.length)
    (hj : i < s.length) : r[i].1 + s[i].1 ≤ S + E ∧ S ≤ r[i].1 + s[i].1 + E ∧ r[i].2 ≤ s[i].2 + F ∧ s[i].2 ≤ r[i].2 + F := by
  induction r generalizing s i with
  | nil => simp at hi
  | cons a r ih =>
    cases s with
    | nil => simp at hj
    | cons b s =>
      obtain ⟨x, w⟩ := a
      obtain ⟨y, v⟩ := b
      simp only [symOk, Bool.and_eq_true, decide_eq_true_eq] at h
      cases i with
      | zero => exact ⟨h.1.1.1.1, h.1.1.1.2, h.1.1.2, h.1.2⟩
      | succ i =>
        have := ih s h.2 i (by simpa using hi) (by simpa using hj)
        simpa using this

theorem normOk_spec (S E F n : Nat) (hS : 0 < S) (r : List (Nat × Nat)) (h : normOk S E F n r = true) :
    r.length = n ∧ (r.map (·.1)).Pairwise (· < ·) ∧ (∀ p ∈ r, 0 < p.1 ∧ p.1 < S ∧ 0 < p.2) ∧
    |ratMoment (r.map (ratRow S)) 0 - 1| ≤ (E : ℚ) / S ∧
    ∀ i (hi : i < r.length),
      |(r[i].2 : ℚ) / S - ((r[r.length - 1 - i]).2 : ℚ) / S| ≤ (F : ℚ) / S ∧
      |((r[i].1 : ℚ) / S + ((r[r.length - 1 - i]).1 : ℚ) / S) - 1| ≤ (E : ℚ) / S := by
  simp only [normOk, Bool.and_eq_true, decide_eq_true_eq] at h
  obtain ⟨⟨⟨⟨h1, h2⟩, h3⟩, h4⟩, h5⟩ := h
  obtain ⟨_, q2, q3⟩ := rowsOk_spec S 0 r h2
  have hS' : (0 : ℚ) < S := by exact_mod_cast hS
  have hsum : ratMoment (r.map (ratRow S)) 0 = (sumW r : ℚ) / S := by
    clear h1 h2 h3 h4 h5 q2 q3
    induction r with
    | nil => simp [ratMoment, sumW]
    | cons a r ih =>
      obtain ⟨x, w⟩ := a
      simp only [ratMoment, List.map_cons, ratRow, List.sum_cons, sumW] at ih ⊢
      rw [ih]; push_cast; ring
  have hclose : ∀ m : Nat, m ≤ S + E → S ≤ m + E → |(m : ℚ) / S - 1| ≤ (E : ℚ) / S := by
    intro m a b
    have a' : (m : ℚ) ≤ S + E := by exact_mod_cast a
    have b' : (S : ℚ) ≤ m + E := by exact_mod_cast b
    rw [show (m : ℚ) / S - 1 = (m - S) / S by field_simp, abs_le, ← neg_div]
    constructor <;> apply div_le_div_of_nonneg_right _ hS'.le <;> linarith
  refine ⟨h1, (List.pairwise_cons.1 q2).2, q3, ?_, ?_⟩
  · rw [hsum]; exact hclose _ h3 h4
  · intro i hi
    have := symOk_spec S E F r r.reverse h5 i hi (by simpa using hi)
    simp only [List.getElem_reverse] at this
    constructor
    · rw [← sub_div, abs_div, abs_of_pos hS']
      apply div_le_div_of_nonneg_right _ hS'.le
      have a' : (r[i].2 : ℚ) ≤ r[r.length - 1 - i].2 + F := by exact_mod_cast this.2.2.1
      have b' : (r[r.length - 1 - i].2 : ℚ) ≤ r[i].2 + F := by exact_mod_cast this.2.2.2
      rw [abs_le]; constructor <;> linarith
    have h6 := hclose _ this.1 this.2.1
    push_cast at h6
    rw [← add_div]; exact h6

end Qugar
