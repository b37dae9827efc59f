import Verif.Model.Affine
import Verif.Spec.Calculus
import Mathlib.Tactic.Ring
import Mathlib.Tactic.Linarith
import Mathlib.Tactic.FieldSimp
import Mathlib.Tactic.LinearCombination
import Mathlib.Tactic.NormNum
import Mathlib.Algebra.Order.Field.Basic
/-
Property theorems C26 (affine transformations) and C28 (reference systems).
-/
namespace Qugar
open Spec
variable {K : Type} [Field K] [LinearOrder K]

theorem len2 {α : Type} {l : List α} (h : l.length = 2) : ∃ a b, l = [a, b] := by
  match l, h with
  | [a, b], _ => exact ⟨a, b, rfl⟩
theorem len3 {α : Type} {l : List α} (h : l.length = 3) : ∃ a b c, l = [a, b, c] := by
  match l, h with
  | [a, b, c], _ => exact ⟨a, b, c, rfl⟩
theorem len6 {α : Type} {l : List α} (h : l.length = 6) : ∃ a b c d e f, l = [a, b, c, d, e, f] := by
  match l, h with
  | [a, b, c, d, e, f], _ => exact ⟨a, b, c, d, e, f, rfl⟩
theorem len12 {α : Type} {l : List α} (h : l.length = 12) :
    ∃ a b c d e f g h i j k m, l = [a, b, c, d, e, f, g, h, i, j, k, m] := by
  match l, h with
  | [a, b, c, d, e, f, g, h, i, j, k, m], _ => exact ⟨a, b, c, d, e, f, g, h, i, j, k, m, rfl⟩

theorem congr3 {α : Type} {a b c a' b' c' : α} (h1 : a = a') (h2 : b = b') (h3 : c = c') :
    [a, b, c] = [a', b', c'] := by rw [h1, h2, h3]
theorem congr12 {α : Type} {a b c d e f g h i j k l a' b' c' d' e' f' g' h' i' j' k' l' : α} (h1 : a = a')
    (h2 : b = b') (h3 : c = c') (h4 : d = d') (h5 : e = e') (h6 : f = f') (h7 : g = g') (h8 : h = h') (h9 : i = i')
    (h10 : j = j') (h11 : k = k') (h12 : l = l') :
    [a, b, c, d, e, f, g, h, i, j, k, l] = [a', b', c', d', e', f', g', h', i', j', k', l'] := by
  rw [h1, h2, h3, h4, h5, h6, h7, h8, h9, h10, h11, h12]

namespace Affine

theorem mul2 (a b c d e f a' b' c' d' e' f' : K) :
    mul 2 [a, b, c, d, e, f] [a', b', c', d', e', f'] =
      [a * a' + b * c', a * b' + b * d', c * a' + d * c', c * b' + d * d', e + a * e' + b * f',
       f + c * e' + d * f'] := by
  simp [mul, sumTo, vat, List.range_succ]

theorem mul3 (a b c d e f g h i p q r a' b' c' d' e' f' g' h' i' p' q' r' : K) :
    mul 3 [a, b, c, d, e, f, g, h, i, p, q, r] [a', b', c', d', e', f', g', h', i', p', q', r'] =
      [a * a' + b * d' + c * g', a * b' + b * e' + c * h', a * c' + b * f' + c * i',
       d * a' + e * d' + f * g', d * b' + e * e' + f * h', d * c' + e * f' + f * i',
       g * a' + h * d' + i * g', g * b' + h * e' + i * h', g * c' + h * f' + i * i',
       p + a * p' + b * q' + c * r', q + d * p' + e * q' + f * r', r + g * p' + h * q' + i * r'] := by
  simp [mul, sumTo, vat, List.range_succ]

theorem inverse2 (a b c d e f : K) :
    inverseCoefs 2 [a, b, c, d, e, f] =
      [1 / (a * d - b * c) * d, -(1 / (a * d - b * c)) * b, -(1 / (a * d - b * c)) * c, 1 / (a * d - b * c) * a,
       0 - 1 / (a * d - b * c) * d * e - -(1 / (a * d - b * c)) * b * f,
       0 - -(1 / (a * d - b * c)) * c * e - 1 / (a * d - b * c) * a * f] := by
  simp [inverseCoefs, invertMatrix2, det2, vat, List.range_succ]

/-- The determinant of a 3D transformation. -/
theorem det3_eq (a b c d e f g h i p q r : K) :
    det 3 [a, b, c, d, e, f, g, h, i, p, q, r] =
      a * (e * i - h * f) - b * (d * i - f * g) + c * (d * h - e * g) := by
  simp [det, det3, vat]

theorem inverse3 (a b c d e f g h i p q r D : K)
    (hD : a * (e * i - h * f) - b * (d * i - f * g) + c * (d * h - e * g) = D) :
    inverseCoefs 3 [a, b, c, d, e, f, g, h, i, p, q, r] =
      [(e * i - h * f) * (1 / D), (c * h - b * i) * (1 / D), (b * f - c * e) * (1 / D),
       (f * g - d * i) * (1 / D), (a * i - c * g) * (1 / D), (d * c - a * f) * (1 / D),
       (d * h - g * e) * (1 / D), (g * b - a * h) * (1 / D), (a * e - d * b) * (1 / D),
       0 - (e * i - h * f) * (1 / D) * p - (c * h - b * i) * (1 / D) * q - (b * f - c * e) * (1 / D) * r,
       0 - (f * g - d * i) * (1 / D) * p - (a * i - c * g) * (1 / D) * q - (d * c - a * f) * (1 / D) * r,
       0 - (d * h - g * e) * (1 / D) * p - (g * b - a * h) * (1 / D) * q - (a * e - d * b) * (1 / D) * r] := by
  subst hD
  simp [inverseCoefs, invertMatrix3, det3, vat, List.range_succ]

/-- **C26**, composition: applying `l * r` is applying `r`, then `l`; the product is associative; the transformation
with zero origin and scale one is neutral. -/
theorem C26_composition (dim : Nat) (hd : dim = 2 ∨ dim = 3) (l r s p : List K) (hl : l.length = dim * (dim + 1))
    (hr : r.length = dim * (dim + 1)) (hs : s.length = dim * (dim + 1)) (hp : p.length = dim) :
    transformPoint dim (mul dim l r) p = transformPoint dim l (transformPoint dim r p) ∧
    mul dim (mul dim l r) s = mul dim l (mul dim r s) ∧
    mul dim (ofScale dim (List.replicate dim 0) 1) l = l ∧ mul dim l (ofScale dim (List.replicate dim 0) 1) = l ∧
    transformPoint dim (ofScale dim (List.replicate dim 0) 1) p = p := by
  rcases hd with rfl | rfl
  · obtain ⟨a, b, c, d, e, f, rfl⟩ := len6 hl
    obtain ⟨a', b', c', d', e', f', rfl⟩ := len6 hr
    obtain ⟨a'', b'', c'', d'', e'', f'', rfl⟩ := len6 hs
    obtain ⟨x, y, rfl⟩ := len2 hp
    have e1 : ofScale 2 (List.replicate 2 (0 : K)) 1 = [1, 0, 0, 1, 0, 0] := by simp [ofScale, vat]
    rw [e1]
    simp only [mul2]
    refine ⟨?_, ?_, ?_, ?_, ?_⟩ <;>
      simp only [transformPoint, vat, if_true, List.getD_cons_zero, List.getD_cons_succ, List.cons.injEq, and_true] <;>
      (repeat' apply And.intro) <;> ring
  · obtain ⟨a, b, c, d, e, f, g, h, i, j, k, m, rfl⟩ := len12 hl
    obtain ⟨a', b', c', d', e', f', g', h', i', j', k', m', rfl⟩ := len12 hr
    obtain ⟨a'', b'', c'', d'', e'', f'', g'', h'', i'', j'', k'', m'', rfl⟩ := len12 hs
    obtain ⟨x, y, z, rfl⟩ := len3 hp
    have e1 : ofScale 3 (List.replicate 3 (0 : K)) 1 = [1, 0, 0, 0, 1, 0, 0, 0, 1, 0, 0, 0] := by
      simp [ofScale, vat]
    rw [e1]
    simp only [mul3]
    refine ⟨?_, ?_, ?_, ?_, ?_⟩ <;>
      simp only [transformPoint, vat, show ¬ (3 = 2) by decide, if_false, List.getD_cons_zero, List.getD_cons_succ,
        List.cons.injEq, and_true] <;>
      (repeat' apply And.intro) <;> ring

set_option maxHeartbeats 2000000 in
/-- The algebra of the inverse. -/
theorem inverse_core (dim : Nat) (hd : dim = 2 ∨ dim = 3) (l p : List K)
    (hl : l.length = dim * (dim + 1)) (hp : p.length = dim) (h0 : det dim l ≠ 0) :
    (inverseCoefs dim l).length = l.length ∧
      transformPoint dim (inverseCoefs dim l) (transformPoint dim l p) = p ∧
      transformPoint dim l (transformPoint dim (inverseCoefs dim l) p) = p ∧
      mul dim (inverseCoefs dim l) l = ofScale dim (List.replicate dim 0) 1 ∧
      mul dim l (inverseCoefs dim l) = ofScale dim (List.replicate dim 0) 1 ∧
      det dim (inverseCoefs dim l) * det dim l = 1 := by
  rcases hd with rfl | rfl
  · obtain ⟨a, b, c, d, e, f, rfl⟩ := len6 hl
    obtain ⟨x, y, rfl⟩ := len2 hp
    have e1 : ofScale 2 (List.replicate 2 (0 : K)) 1 = [1, 0, 0, 1, 0, 0] := by simp [ofScale, vat]
    have hD : a * d - b * c ≠ 0 := by simpa [det, det2, vat] using h0
    have hinv : (a * d - b * c) * (1 / (a * d - b * c)) = 1 := by field_simp
    rw [e1, inverse2]
    generalize 1 / (a * d - b * c) = u at hinv
    simp only [mul2]
    simp only [det, det2, transformPoint, vat, if_true, List.getD_cons_zero, List.getD_cons_succ, List.cons.injEq,
      and_true]
    refine ⟨rfl, ⟨?_, ?_⟩, ⟨?_, ?_⟩, ⟨?_, ?_, ?_, ?_, ?_, ?_⟩, ⟨?_, ?_, ?_, ?_, ?_, ?_⟩, ?_⟩ <;> first
      | ring1
      | linear_combination hinv
      | linear_combination x * hinv
      | linear_combination y * hinv
      | linear_combination (x - e) * hinv
      | linear_combination (y - f) * hinv
      | linear_combination (-e) * hinv
      | linear_combination (-f) * hinv
      | linear_combination (u * (a * d - b * c) + 1) * hinv
  · obtain ⟨a, b, c, d, e, f, g, h, i, j, k, m, rfl⟩ := len12 hl
    obtain ⟨x, y, z, rfl⟩ := len3 hp
    have e1 : ofScale 3 (List.replicate 3 (0 : K)) 1 = [1, 0, 0, 0, 1, 0, 0, 0, 1, 0, 0, 0] := by
      simp [ofScale, vat]
    rw [det3_eq] at h0
    obtain ⟨D, hD⟩ : ∃ D, a * (e * i - h * f) - b * (d * i - f * g) + c * (d * h - e * g) = D := ⟨_, rfl⟩
    rw [hD] at h0
    have hinv : D * (1 / D) = 1 := by field_simp
    rw [det3_eq, hD, inverse3 a b c d e f g h i j k m D hD, e1, det3_eq]
    generalize 1 / D = u at hinv
    rw [mul3, mul3]
    subst hD
    refine ⟨rfl, ?_, ?_, congr12 ?_ ?_ ?_ ?_ ?_ ?_ ?_ ?_ ?_ ?_ ?_ ?_, congr12 ?_ ?_ ?_ ?_ ?_ ?_ ?_ ?_ ?_ ?_ ?_ ?_, ?_⟩ <;>
      (try (simp only [transformPoint, vat, show ¬ (3 = 2) by decide, if_false, List.getD_cons_zero,
        List.getD_cons_succ]; refine congr3 ?_ ?_ ?_)) <;> first
      | ring1
      | linear_combination hinv
      | linear_combination x * hinv
      | linear_combination y * hinv
      | linear_combination z * hinv
      | linear_combination (x - j) * hinv
      | linear_combination (y - k) * hinv
      | linear_combination (z - m) * hinv
      | linear_combination (-j) * hinv
      | linear_combination (-k) * hinv
      | linear_combination (-m) * hinv
      | linear_combination (u ^ 2 * (a * (e * i - h * f) - b * (d * i - f * g) + c * (d * h - e * g)) ^ 2 +
          u * (a * (e * i - h * f) - b * (d * i - f * g) + c * (d * h - e * g)) + 1) * hinv

/-- **C26**, inverse: when the linear part is invertible, release builds compute a two-sided inverse; it is undone by
transforming points, and inverting twice gives the transformation back. Debug builds compute the same whenever the
determinant exceeds the tolerance, and stop otherwise. -/
theorem C26_inverse (dim : Nat) (hd : dim = 2 ∨ dim = 3) (eps : K) (l p : List K)
    (hl : l.length = dim * (dim + 1)) (hp : p.length = dim) (h0 : det dim l ≠ 0) :
    ∃ m, inverse false eps dim l = some m ∧ m.length = l.length ∧
      inverse true eps dim l = (if |det dim l| ≤ eps then none else some m) ∧
      transformPoint dim m (transformPoint dim l p) = p ∧ transformPoint dim l (transformPoint dim m p) = p ∧
      mul dim m l = ofScale dim (List.replicate dim 0) 1 ∧ mul dim l m = ofScale dim (List.replicate dim 0) 1 ∧
      det dim m * det dim l = 1 ∧ inverse false eps dim m = some l := by
  obtain ⟨hlen, h1, h2, h3, h4, h5⟩ := inverse_core dim hd l p hl hp h0
  have hdm : det dim (inverseCoefs dim l) ≠ 0 := by
    intro h
    rw [h, zero_mul] at h5
    exact zero_ne_one h5
  obtain ⟨hlen', -, -, h3', -, -⟩ := inverse_core dim hd (inverseCoefs dim l) p (hlen.trans hl) hp hdm
  have hll : inverseCoefs dim (inverseCoefs dim l) = l := by
    generalize inverseCoefs dim (inverseCoefs dim l) = n at *
    have c := C26_composition dim hd n (inverseCoefs dim l) l p (hlen'.trans (hlen.trans hl)) (hlen.trans hl) hl hp
    have c' := C26_composition dim hd l l l p hl hl hl hp
    have c2 := c.2.1
    rw [h3, h3', c'.2.2.1, c.2.2.2.1] at c2
    exact c2.symm
  refine ⟨inverseCoefs dim l, by simp [inverse], hlen, ?_, h1, h2, h3, h4, h5, by simp [inverse, hll]⟩
  by_cases h : |det dim l| ≤ eps
  · simp [inverse, Tol.isZero, Tol.equal, h]
  · simp [inverse, Tol.isZero, Tol.equal, h]

/-- A sheared, shifted transformation: its inverse exists, and differs from the identity. -/
example : det 2 ([2, 1, 0, 3, 5, -1] : List ℚ) = 6 ∧
    inverseCoefs 2 ([2, 1, 0, 3, 5, -1] : List ℚ) = [1/2, -1/6, 0, 1/3, -8/3, 1/3] ∧
    det 3 ([1, 2, 0, 0, 1, 4, 1, 0, 1, 7, 8, 9] : List ℚ) = 9 := by decide +kernel

end Affine
end Qugar
