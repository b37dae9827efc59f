import Verif.Lemmas.Bernstein
import Verif.Lemmas.PolyTensor
/-
Derivatives of the Bernstein polynomials and the loops of `evaluate_Bernstein`.
-/
namespace Qugar.Poly
open Spec TS Finset

section
variable {K : Type} [Field K]

/-- The derivative of order `k` of the Bernstein polynomial `i` of degree `d`. -/
def bernD : (k d i : Nat) → K → K
  | 0, d, i, t => bernstein d i t
  | k + 1, d, i, t => (d : K) * ((if i = 0 then 0 else bernD k (d - 1) (i - 1) t) - bernD k (d - 1) i t)

theorem bernD_of_lt (k : Nat) : ∀ (d i : Nat) (t : K), d < i → bernD k d i t = 0 := by
  induction k with
  | zero => intro d i t h; exact bernstein_of_lt h t
  | succ k ih =>
    intro d i t h
    simp only [bernD]
    cases d with
    | zero => simp
    | succ d =>
      rw [if_neg (by omega), ih _ _ _ (by omega), ih _ _ _ (by omega)]; simp

theorem bernD_high (k : Nat) : ∀ (d i : Nat) (t : K), d < k → bernD k d i t = 0 := by
  induction k with
  | zero => intro d i t h; omega
  | succ k ih =>
    intro d i t h
    simp only [bernD]
    cases d with
    | zero => simp
    | succ d =>
      have e : ∀ j, bernD k (d + 1 - 1) j t = 0 := fun j => ih _ _ _ (by omega)
      rw [e, e]; simp

/-- The form used by de Casteljau. -/
theorem bernsteinD_eq (d i : Nat) (hi : i ≤ d) (t : K) : bernsteinD d i t = bernD 1 d i t := by
  simp only [bernD, bernsteinD]
  cases d with
  | zero =>
    have : i = 0 := by omega
    subst this
    simp [bernstein]
  | succ d =>
    rw [Nat.add_sub_cancel]
    by_cases h0 : i = 0
    · subst h0
      have := bernstein_elevate d 0 (by omega) t
      rw [if_pos rfl, if_pos rfl]
      push_cast at this ⊢
      linear_combination this
    · rw [if_neg h0, if_neg h0]
      obtain ⟨j, rfl⟩ : ∃ j, i = j + 1 := ⟨i - 1, by omega⟩
      rw [Nat.add_sub_cancel]
      have h1 := bernstein_elevate d j (by omega) t
      by_cases hj : j + 1 ≤ d
      · have h2 := bernstein_elevate d (j + 1) hj t
        have e1 : ((d + 1 - (j + 1) : Nat) : K) = (d : K) - j := by
          rw [Nat.cast_sub (by omega)]; push_cast; ring
        have e2 : ((d + 1 - j : Nat) : K) = (d : K) + 1 - j := by
          rw [Nat.cast_sub (by omega)]; push_cast; ring
        have e3 : ((d + 1 + 1 - (j + 1) : Nat) : K) = (d : K) + 1 - j := by
          rw [Nat.cast_sub (by omega)]; push_cast; ring
        rw [e1] at h2
        rw [e2] at h1
        rw [e3]
        push_cast at h1 h2 ⊢
        linear_combination h2 - h1
      · have hjd : j = d := by omega
        subst hjd
        rw [bernstein_of_lt (show j < j + 1 by omega), bernstein_of_lt (show j + 1 < j + 1 + 1 by omega)]
        rw [show j + 1 + 1 - (j + 1) = 1 by omega]
        rw [show j + 1 - j = 1 by omega] at h1
        push_cast at h1 ⊢
        linear_combination -h1

/-! ### `evaluate_Bernstein_value` -/

theorem bernsteinValue_loop1 (x : K) (order : Nat) (values : List K) (hl : order ≤ values.length) (m : Nat) (hm : m ≤ order) :
    let s := (List.range m).foldl (fun (s : List K × K) i =>
      (s.1.set i (s.2 * (((order - 1).choose i : Nat) : K)), s.2 * x)) (values, 1)
    s.2 = x ^ m ∧ s.1.length = values.length ∧ (∀ i, i < m → s.1.getD i 0 = x ^ i * (((order - 1).choose i : Nat) : K)) := by
  induction m with
  | zero => simp
  | succ m ih =>
    obtain ⟨h1, h2, h3⟩ := ih (by omega)
    dsimp only at h1 h2 h3 ⊢
    rw [List.range_succ, List.foldl_append, List.foldl_cons, List.foldl_nil]
    refine ⟨by rw [h1, pow_succ], by rw [List.length_set, h2], ?_⟩
    intro i hi
    simp only
    rw [List.getD_eq_getElem?_getD, List.getElem?_set]
    by_cases h : m = i
    · subst h
      rw [if_pos rfl, if_pos (by omega), h1]; rfl
    · rw [if_neg h, ← List.getD_eq_getElem?_getD, h3 i (by omega)]

theorem bernsteinValue_loop2 (y : K) (order : Nat) (v : List K) (hl : order ≤ v.length) (m : Nat) (hm : m ≤ order) :
    let s := (List.range m).foldl (fun (s : List K × K) i =>
      (s.1.modify (order - 1 - i) (· * s.2), s.2 * y)) (v, 1)
    s.2 = y ^ m ∧ s.1.length = v.length ∧ (∀ i, i < order → s.1.getD i 0 = v.getD i 0 *
      if order - 1 - i < m then y ^ (order - 1 - i) else 1) := by
  induction m with
  | zero => simp
  | succ m ih =>
    obtain ⟨h1, h2, h3⟩ := ih (by omega)
    dsimp only at h1 h2 h3 ⊢
    rw [List.range_succ, List.foldl_append, List.foldl_cons, List.foldl_nil]
    refine ⟨by rw [h1, pow_succ], by rw [List.length_modify, h2], ?_⟩
    intro i hi
    have h3i := h3 i hi
    simp only
    rw [List.getD_eq_getElem?_getD, List.getElem?_modify]
    by_cases h : order - 1 - m = i
    · have hlt : i < (List.foldl (fun (s : List K × K) i => (s.1.modify (order - 1 - i) (· * s.2), s.2 * y)) (v, 1)
          (List.range m)).1.length := by omega
      rw [List.getElem?_eq_getElem hlt]
      rw [List.getD_eq_getElem?_getD, List.getElem?_eq_getElem hlt, if_neg (by omega), mul_one] at h3i
      simp only [h, if_true, Option.map_some, Option.map_eq_map, Option.getD_some] at h3i ⊢
      rw [h3i, h1, if_pos (by omega), show order - 1 - i = m by omega]
    · simp only [if_neg h, Option.map_eq_map, Option.map_id_fun', id]
      rw [← List.getD_eq_getElem?_getD, h3i]
      by_cases h' : order - 1 - i < m
      · rw [if_pos h', if_pos (by omega)]
      · rw [if_neg h', if_neg (by omega)]

theorem bernsteinValue_spec (x : K) (order : Nat) (values : List K) (hl : order ≤ values.length) :
    (bernsteinValue x order values).length = values.length ∧
    ∀ i, i < order → (bernsteinValue x order values).getD i 0 = bernstein (order - 1) i x := by
  unfold bernsteinValue
  obtain ⟨a1, a2, a3⟩ := bernsteinValue_loop1 x order values hl order (le_refl _)
  dsimp only at a1 a2 a3 ⊢
  generalize List.foldl (fun (s : List K × K) i =>
      (s.1.set i (s.2 * (((order - 1).choose i : Nat) : K)), s.2 * x)) (values, 1) (List.range order) = s1 at a1 a2 a3
  obtain ⟨b1, b2, b3⟩ := bernsteinValue_loop2 (1 - x) order s1.1 (by omega) order (le_refl _)
  refine ⟨by rw [b2, a2], ?_⟩
  intro i hi
  rw [b3 i hi, a3 i hi, if_pos (by omega)]
  unfold bernstein
  ring

theorem backward_loop (deg : Nat) (v : List K) (hv : deg < v.length) (m : Nat) : ∀ s, 1 ≤ s → s + m ≤ deg →
    let r := (List.range' s m).foldr (fun i v => v.set i ((deg : K) * (v.getD (i - 1) 0 - v.getD i 0))) v
    r.length = v.length ∧ ∀ k, r.getD k 0 =
      if s ≤ k ∧ k < s + m then (deg : K) * (v.getD (k - 1) 0 - v.getD k 0) else v.getD k 0 := by
  induction m with
  | zero =>
    intro s _ _
    simp only [List.range'_zero, List.foldr_nil, true_and]
    intro k
    rw [if_neg (by omega)]
  | succ m ih =>
    intro s h1 h2
    obtain ⟨e1, e2⟩ := ih (s + 1) (by omega) (by omega)
    dsimp only at e1 e2 ⊢
    rw [List.range'_succ, List.foldr_cons]
    generalize List.foldr (fun i (v : List K) => v.set i ((deg : K) * (v.getD (i - 1) 0 - v.getD i 0))) v
      (List.range' (s + 1) m) = r at e1 e2
    refine ⟨by rw [List.length_set, e1], ?_⟩
    intro k
    rw [List.getD_eq_getElem?_getD, List.getElem?_set]
    by_cases h : s = k
    · subst h
      rw [if_pos rfl, if_pos (by omega), Option.getD_some, e2 s, e2 (s - 1), if_neg (by omega), if_neg (by omega),
        if_pos (by omega)]
    · rw [if_neg h, ← List.getD_eq_getElem?_getD, e2 k]
      by_cases h' : s + 1 ≤ k ∧ k < s + 1 + m
      · rw [if_pos h', if_pos (by omega)]
      · rw [if_neg h', if_neg (by omega)]

theorem bernsteinDer_spec (x : K) (der : Nat) : ∀ (order : Nat) (values : List K), 0 < order → order ≤ values.length →
    (order ≤ (bernsteinDer x order der values).length) ∧ (der < order → (bernsteinDer x order der values).length = values.length) ∧
    ∀ i, i < order → (bernsteinDer x order der values).getD i 0 = bernD der (order - 1) i x := by
  induction der with
  | zero =>
    intro order values _ hl
    obtain ⟨h1, h2⟩ := bernsteinValue_spec x order values hl
    have e : bernsteinDer x order 0 values = bernsteinValue x order values := by unfold bernsteinDer; rfl
    rw [e]
    exact ⟨by omega, fun _ => h1, h2⟩
  | succ der ih =>
    intro order values hpos hl
    unfold bernsteinDer
    by_cases h : order ≤ der + 1
    · rw [if_pos h]
      refine ⟨by simp, fun h' => by omega, ?_⟩
      intro i hi
      rw [bernD_high _ _ _ _ (by omega)]
      simp [hi]
    · rw [if_neg h]
      dsimp only
      obtain ⟨deg, rfl⟩ : ∃ deg, order = deg + 1 := ⟨order - 1, by omega⟩
      rw [Nat.add_sub_cancel]
      obtain ⟨_, h2, h3⟩ := ih deg values (by omega) (by omega)
      have h2' := h2 (by omega)
      generalize bernsteinDer x deg der values = v at h2' h3
      obtain ⟨v1, hv1⟩ : ∃ v1, v1 = v.set deg ((deg : K) * v.getD (deg - 1) 0) := ⟨_, rfl⟩
      rw [← hv1]
      have hv1l : v1.length = values.length := by rw [hv1, List.length_set, h2']
      have hv1d : ∀ k, v1.getD k 0 = if k = deg then (deg : K) * v.getD (deg - 1) 0 else v.getD k 0 := by
        intro k
        rw [hv1, List.getD_eq_getElem?_getD, List.getElem?_set]
        by_cases hk : deg = k
        · subst hk; rw [if_pos rfl, if_pos rfl, if_pos (by omega)]; rfl
        · rw [if_neg hk, if_neg (Ne.symm hk), List.getD_eq_getElem?_getD]
      rw [List.foldl_reverse]
      obtain ⟨b1, b2⟩ := backward_loop deg v1 (by omega) (deg - 1) 1 (by omega) (by omega)
      generalize List.foldr (fun i (v : List K) => v.set i ((deg : K) * (v.getD (i - 1) 0 - v.getD i 0))) v1
        (List.range' 1 (deg - 1)) = r at b1 b2
      have hrl : (r.modify 0 (· * -(deg : K))).length = values.length := by rw [List.length_modify, b1, hv1l]
      refine ⟨by omega, fun _ => hrl, ?_⟩
      intro i hi
      rw [List.getD_eq_getElem?_getD, List.getElem?_modify]
      simp only [bernD]
      by_cases h0 : i = 0
      · subst h0
        have hlt : 0 < r.length := by omega
        have hr0 := b2 0
        rw [List.getD_eq_getElem?_getD, List.getElem?_eq_getElem hlt, if_neg (by omega), hv1d 0, if_neg (by omega),
          h3 0 (by omega)] at hr0
        rw [List.getElem?_eq_getElem hlt]
        simp only [if_true, Option.map_eq_map, Option.map_some, Option.getD_some] at hr0 ⊢
        rw [hr0]; ring
      · rw [if_neg h0]
        simp only [if_neg (Ne.symm h0), Option.map_eq_map, Option.map_id_fun', id]
        rw [← List.getD_eq_getElem?_getD, b2 i]
        by_cases hid : i = deg
        · rw [if_neg (by omega), hv1d, if_pos hid, h3 (deg - 1) (by omega), hid,
            bernD_of_lt der (deg - 1) deg x (by omega)]
          ring
        · rw [if_pos (by omega), hv1d, hv1d, if_neg (by omega), if_neg hid, h3 _ (by omega), h3 _ (by omega)]

end

theorem hasDerivAt_bernstein (d i : Nat) (t : ℝ) : HasDerivAt (fun s => bernstein d i s) (bernD 1 d i t) t := by
  have h := (bernsteinPolynomial ℝ d i).hasDerivAt t
  have hf : (fun s => bernstein d i s) = fun s => (bernsteinPolynomial ℝ d i).eval s := by
    funext s; exact bernstein_eq_eval d i s
  rw [hf]
  refine h.congr_deriv ?_
  simp only [bernD]
  cases i with
  | zero =>
    rw [bernsteinPolynomial.derivative_zero]
    simp [bernstein_eq_eval]
  | succ i =>
    rw [bernsteinPolynomial.derivative_succ]
    simp [bernstein_eq_eval]

theorem hasDerivAt_bernD (k : Nat) : ∀ (d i : Nat) (t : ℝ), HasDerivAt (fun s => bernD k d i s) (bernD (k + 1) d i t) t := by
  induction k with
  | zero => intro d i t; exact hasDerivAt_bernstein d i t
  | succ k ih =>
    intro d i t
    have h2 := ih (d - 1) i t
    by_cases h0 : i = 0
    · subst h0
      have h3 := (h2.const_sub (0 : ℝ)).const_mul (d : ℝ)
      have e : (fun s : ℝ => bernD (k + 1) d 0 s) = fun s => (d : ℝ) * (0 - bernD k (d - 1) 0 s) := by
        funext s; simp [bernD]
      rw [e]
      refine h3.congr_deriv ?_
      conv_rhs => rw [bernD]
      simp
    · have h1 := ih (d - 1) (i - 1) t
      have h3 := (h1.sub h2).const_mul (d : ℝ)
      have e : (fun s : ℝ => bernD (k + 1) d i s) = fun s => (d : ℝ) * (bernD k (d - 1) (i - 1) s - bernD k (d - 1) i s) := by
        funext s; simp [bernD, h0]
      rw [e]
      refine h3.congr_deriv ?_
      conv_rhs => rw [bernD]
      rw [if_neg h0]

end Qugar.Poly
