import Verif.Model.Grid
import Verif.Spec.Grid
import Verif.Props.Tensor
import Mathlib.Tactic.Linarith
import Mathlib.Tactic.FieldSimp
import Mathlib.Algebra.BigOperators.Group.List.Basic

set_option linter.unusedSectionVars false
set_option linter.unusedSimpArgs false

namespace Qugar
open Spec
variable {K : Type} [Field K] [LinearOrder K]

namespace Grid

theorem upperBound_le (bs : List K) (v : K) : upperBound bs v ≤ bs.length := by
  unfold upperBound
  induction bs with
  | nil => simp
  | cons b bs ih =>
    rw [List.takeWhile_cons]
    split
    · simp only [List.length_cons]; omega
    · simp

theorem upperBound_below (bs : List K) (v : K) (i : Nat) (h : i < upperBound bs v) : bs.getD i 0 ≤ v := by
  induction bs generalizing i with
  | nil => simp [upperBound] at h
  | cons b bs ih =>
    unfold upperBound at h ih
    rw [List.takeWhile_cons] at h
    split at h
    · rename_i hb
      cases i with
      | zero => simpa using hb
      | succ i => rw [List.getD_cons_succ]; exact ih i (by simpa using h)
    · simp at h

theorem upperBound_above (bs : List K) (hs : bs.Pairwise (· < ·)) (v : K) (i : Nat)
    (h : upperBound bs v ≤ i) (hi : i < bs.length) : v < bs.getD i 0 := by
  induction bs generalizing i with
  | nil => simp at hi
  | cons b bs ih =>
    rw [List.pairwise_cons] at hs
    unfold upperBound at h ih
    rw [List.takeWhile_cons] at h
    by_cases hb : b ≤ v
    · simp only [hb, decide_true, if_true, List.length_cons] at h
      cases i with
      | zero => omega
      | succ i => rw [List.getD_cons_succ]; exact ih hs.2 i (by omega) (by simpa using hi)
    · have hb' := not_le.1 hb
      cases i with
      | zero => simpa using hb'
      | succ i =>
        rw [List.getD_cons_succ]
        have hi' : i < bs.length := by simpa using hi
        have : bs.getD i 0 ∈ bs := by
          rw [List.getD_eq_getElem?_getD, List.getElem?_eq_getElem hi']; simp
        exact lt_trans hb' (hs.1 _ this)

theorem getD_lt_of_lt (bs : List K) (hs : bs.Pairwise (· < ·)) {i j : Nat} (hij : i < j) (hj : j < bs.length) :
    bs.getD i 0 < bs.getD j 0 := by
  rw [List.pairwise_iff_getElem] at hs
  have := hs i j (by omega) hj hij
  simpa [List.getD_eq_getElem?_getD, List.getElem?_eq_getElem hj,
    List.getElem?_eq_getElem (by omega : i < bs.length)] using this

theorem getD_le_of_le (bs : List K) (hs : bs.Pairwise (· < ·)) {i j : Nat} (hij : i ≤ j) (hj : j < bs.length) :
    bs.getD i 0 ≤ bs.getD j 0 := by
  rcases Nat.lt_or_eq_of_le hij with h | h
  · exact le_of_lt (getD_lt_of_lt bs hs h hj)
  · rw [h]

theorem upperBound_unique (bs : List K) (hs : bs.Pairwise (· < ·)) (v : K) (k : Nat) (hk : k + 1 < bs.length)
    (h1 : bs.getD k 0 ≤ v) (h2 : v < bs.getD (k+1) 0) : upperBound bs v = k + 1 := by
  have h3 : ¬ upperBound bs v ≤ k := fun h => by
    have := upperBound_above bs hs v k h (by omega)
    exact absurd h1 (not_le.2 this)
  have h4 : ¬ k + 1 < upperBound bs v := fun h => by
    have := upperBound_below bs v (k+1) h
    exact absurd h2 (not_lt.2 this)
  omega

theorem upperBound_all (bs : List K) (hs : bs.Pairwise (· < ·)) (v : K) (hl : 0 < bs.length)
    (h : bs.getD (bs.length - 1) 0 ≤ v) : upperBound bs v = bs.length := by
  have h1 := upperBound_le bs v
  have h3 : ¬ upperBound bs v ≤ bs.length - 1 := fun h' => by
    have := upperBound_above bs hs v (bs.length - 1) h' (by omega)
    exact absurd h (not_le.2 this)
  omega

theorem upperBound_pos (bs : List K) (hs : bs.Pairwise (· < ·)) (v : K) (hl : 0 < bs.length)
    (h : bs.getD 0 0 ≤ v) : 0 < upperBound bs v := by
  by_contra h'
  have := upperBound_above bs hs v 0 (by omega) hl
  exact absurd h (not_le.2 this)

section
variable [IsStrictOrderedRing K]

theorem tol_equal_iff (tol a b : K) : Tol.equal tol a b = true ↔ a - b ≤ tol ∧ b - a ≤ tol := by
  unfold Tol.equal
  rw [decide_eq_true_eq, abs_le]
  constructor
  · rintro ⟨h1, h2⟩; exact ⟨h2, by linarith⟩
  · rintro ⟨h1, h2⟩; exact ⟨by linarith, h1⟩

/-- One direction: the located span contains the coordinate. -/
theorem cellIdDir_spec (tol : K) (ht : 0 ≤ tol) (bs : List K) (hl : 1 < bs.length) (hs : bs.Pairwise (· < ·))
    (x : K) (h0 : bs.getD 0 0 - tol ≤ x) (h1 : x ≤ bs.getD (bs.length - 1) 0 + tol) :
    ∃ k, cellIdDir tol bs x = some k ∧ k < bs.length - 1 ∧ bs.getD k 0 - tol ≤ x ∧
      x ≤ bs.getD (k + 1) 0 + tol := by
  have hp := upperBound_pos bs hs (x + tol) (by omega) (by linarith)
  have hle := upperBound_le bs (x + tol)
  unfold cellIdDir
  obtain ⟨d, hd⟩ : ∃ d, upperBound bs (x + tol) = d + 1 := ⟨_, (Nat.succ_pred_eq_of_pos hp).symm⟩
  rw [hd]
  have hb := upperBound_below bs (x + tol) d (by omega)
  by_cases hlast : d = bs.length - 1
  · have he : Tol.equal tol x (bs.getD d 0) = true := by
      rw [tol_equal_iff]; subst hlast; constructor <;> linarith
    have hbeq : (d == bs.length - 1) = true := by simp [hlast]
    simp only [he, hbeq, Bool.and_self, if_true]
    refine ⟨d - 1, by rw [if_pos (by omega)], by omega, ?_, ?_⟩
    · have := getD_le_of_le bs hs (i := d - 1) (j := d) (by omega) (by omega)
      linarith
    · have : d - 1 + 1 = bs.length - 1 := by omega
      rw [this]; exact h1
  · have hne : (d == bs.length - 1) = false := by simpa using hlast
    simp only [hne, Bool.and_false, Bool.false_eq_true, if_false]
    refine ⟨d, by rw [if_pos (by omega)], by omega, by linarith, ?_⟩
    have := upperBound_above bs hs (x + tol) (d + 1) (by omega) (by omega)
    linarith

theorem cellIdDir_unique (tol : K) (ht : 0 ≤ tol) (bs : List K) (hs : bs.Pairwise (· < ·))
    (x : K) (k : Nat) (hk : k < bs.length - 1) (h0 : bs.getD k 0 ≤ x) (h1 : x + tol < bs.getD (k + 1) 0) :
    cellIdDir tol bs x = some k := by
  unfold cellIdDir
  rw [upperBound_unique bs hs (x + tol) k (by omega) (by linarith) h1]
  have hne : (k == bs.length - 1) = false := by
    rw [beq_eq_false_iff_ne]; omega
  simp only [hne, Bool.and_false, Bool.false_eq_true, if_false]
  rw [if_pos hk]

theorem cellIdDir_last (tol : K) (ht : 0 ≤ tol) (bs : List K) (hl : 1 < bs.length) (hs : bs.Pairwise (· < ·)) :
    cellIdDir tol bs (bs.getD (bs.length - 1) 0) = some (bs.length - 2) := by
  unfold cellIdDir
  rw [upperBound_all bs hs _ (by omega) (by linarith)]
  obtain ⟨n, hn⟩ : ∃ n, bs.length = n + 2 := ⟨bs.length - 2, by omega⟩
  rw [hn]
  have he : Tol.equal tol (bs.getD (n + 1) 0) (bs.getD (n + 1) 0) = true := by
    rw [tol_equal_iff]; simp [ht]
  simp only [Nat.add_sub_cancel]
  have : n + 2 - 1 = n + 1 := by omega
  rw [this, he]; simp

end
end Grid
end Qugar
