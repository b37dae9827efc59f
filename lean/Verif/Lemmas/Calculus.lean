import Verif.Spec.Calculus
import Mathlib.Analysis.Calculus.Deriv.Add
import Mathlib.Analysis.Calculus.Deriv.Mul
import Mathlib.Analysis.SpecialFunctions.Trigonometric.Deriv
import Mathlib.Algebra.BigOperators.Group.Finset.Basic
import Mathlib.Tactic.Ring
/-
Gradients of expressions. An expression is differentiated symbolically; the symbolic derivative is the gradient.
-/
namespace Qugar
open Spec

/-- Expressions in the coordinates of a point. -/
inductive Ex where
  | var (i : Nat)
  | const (c : ℝ)
  | add (a b : Ex)
  | sub (a b : Ex)
  | mul (a b : Ex)
  | neg (a : Ex)
  | sin (a : Ex)
  | cos (a : Ex)

namespace Ex

noncomputable def eval : Ex → List ℝ → ℝ
  | var i, x => x.getD i 0
  | const c, _ => c
  | add a b, x => a.eval x + b.eval x
  | sub a b, x => a.eval x - b.eval x
  | mul a b, x => a.eval x * b.eval x
  | neg a, x => -a.eval x
  | sin a, x => Real.sin (a.eval x)
  | cos a, x => Real.cos (a.eval x)

/-- Symbolic partial derivative. -/
noncomputable def D (i : Nat) : Ex → Ex
  | var j => const (if i = j then 1 else 0)
  | const _ => const 0
  | add a b => add (D i a) (D i b)
  | sub a b => sub (D i a) (D i b)
  | mul a b => add (mul (D i a) b) (mul a (D i b))
  | neg a => neg (D i a)
  | sin a => mul (cos a) (D i a)
  | cos a => neg (mul (sin a) (D i a))

theorem dot_eq_sum' (u v : List ℝ) (h : u.length = v.length) :
    dot u v = ∑ i ∈ Finset.range v.length, u.getD i 0 * v.getD i 0 := by
  induction u generalizing v with
  | nil =>
    cases v with
    | nil => simp [dot]
    | cons b m => simp at h
  | cons a l ih =>
    cases v with
    | nil => simp at h
    | cons b m =>
      have := ih m (by simpa using h)
      simp only [dot, List.zipWith_cons_cons, List.sum_cons, List.length_cons] at this ⊢
      rw [this, Finset.sum_range_succ', add_comm]
      simp

theorem getD_map_range (n : Nat) (f : Nat → ℝ) (i : Nat) (hi : i < n) : ((List.range n).map f).getD i 0 = f i := by
  simp [List.getD_eq_getElem?_getD, hi]

theorem along_zero (x v : List ℝ) (h : v.length = x.length) : along x v 0 = x := by
  induction x generalizing v with
  | nil => simp [along]
  | cons a l ih =>
    cases v with
    | nil => simp at h
    | cons b m =>
      have := ih m (by simpa using h)
      simp only [along, List.zipWith_cons_cons, zero_mul, add_zero] at this ⊢
      rw [this]

theorem along_getD (x v : List ℝ) (h : v.length = x.length) (t : ℝ) (i : Nat) :
    (along x v t).getD i 0 = x.getD i 0 + t * v.getD i 0 := by
  by_cases hi : i < x.length
  · have hv : i < v.length := h ▸ hi
    simp [along, List.getD_eq_getElem?_getD, hi, hv]
  · have hv : ¬ i < v.length := h ▸ hi
    simp [along, List.getD_eq_getElem?_getD, hi, hv]

/-- Derivative along a direction. -/
theorem hasDerivAt (e : Ex) (x v : List ℝ) (h : v.length = x.length) :
    HasDerivAt (fun t => e.eval (along x v t)) (∑ i ∈ Finset.range x.length, (D i e).eval x * v.getD i 0) 0 := by
  induction e with
  | var j =>
    have hd : HasDerivAt (fun t : ℝ => x.getD j 0 + t * v.getD j 0) (v.getD j 0) 0 := by
      have := ((hasDerivAt_id (0 : ℝ)).mul_const (v.getD j 0)).const_add (x.getD j 0)
      simpa using this
    have hs : (∑ i ∈ Finset.range x.length, (D i (var j)).eval x * v.getD i 0) = v.getD j 0 := by
      simp only [D, eval, ite_mul, one_mul, zero_mul]
      rw [Finset.sum_ite_eq']
      split_ifs with hj
      · rfl
      · rw [Finset.mem_range, ← h] at hj
        simp [List.getD_eq_getElem?_getD, hj]
    rw [hs]
    simpa only [eval, along_getD x v h] using hd
  | const c =>
    have : HasDerivAt (fun _ : ℝ => c) 0 0 := hasDerivAt_const _ _
    simpa [eval, D] using this
  | add a b iha ihb =>
    have := iha.add ihb
    refine this.congr_deriv ?_
    simp only [eval, D, add_mul, Finset.sum_add_distrib]
  | sub a b iha ihb =>
    have := iha.sub ihb
    refine this.congr_deriv ?_
    simp only [eval, D, sub_mul, Finset.sum_sub_distrib]
  | neg a iha =>
    have := iha.neg
    refine this.congr_deriv ?_
    simp only [eval, D, neg_mul, Finset.sum_neg_distrib]
  | mul a b iha ihb =>
    have := iha.mul ihb
    simp only [along_zero x v h] at this
    refine this.congr_deriv ?_
    simp only [eval, D, add_mul, Finset.sum_add_distrib, Finset.sum_mul, Finset.mul_sum]
    congr 1
    · exact Finset.sum_congr rfl fun i _ => by ring
    · exact Finset.sum_congr rfl fun i _ => by ring
  | sin a iha =>
    have := iha.sin
    simp only [along_zero x v h] at this
    refine this.congr_deriv ?_
    simp only [eval, D, Finset.mul_sum]
    exact Finset.sum_congr rfl fun i _ => by ring
  | cos a iha =>
    have := iha.cos
    simp only [along_zero x v h] at this
    refine this.congr_deriv ?_
    simp only [eval, D, Finset.mul_sum]
    exact Finset.sum_congr rfl fun i _ => by ring

/-- The symbolic gradient is the gradient. -/
theorem isGradient (e : Ex) (x : List ℝ) :
    IsGradient e.eval x ((List.range x.length).map fun i => (D i e).eval x) := by
  refine ⟨by simp, fun v hv => ?_⟩
  rw [dot_eq_sum' _ _ (by simp [hv])]
  refine (hasDerivAt e x v hv).congr_deriv ?_
  rw [hv]
  exact Finset.sum_congr rfl fun i hi => by rw [getD_map_range _ _ _ (Finset.mem_range.1 hi)]

/-- A gradient is determined by the function. -/
theorem _root_.Qugar.Spec.IsGradient.unique {F : List ℝ → ℝ} {x g g' : List ℝ} (h : IsGradient F x g)
    (h' : IsGradient F x g') : g = g' := by
  have hlen := h.1.trans h'.1.symm
  refine List.ext_getElem hlen fun i hi hi' => ?_
  have hix : i < x.length := h.1 ▸ hi
  have hv : ((List.range x.length).map fun j => if j = i then (1 : ℝ) else 0).length = x.length := by simp
  have e := (h.2 _ hv).unique (h'.2 _ hv)
  have pick : ∀ u : List ℝ, u.length = x.length →
      dot u ((List.range x.length).map fun j => if j = i then (1 : ℝ) else 0) = u.getD i 0 := by
    intro u hu
    rw [dot_eq_sum' _ _ (by rw [hv, hu]), hv]
    have : ∀ k ∈ Finset.range x.length,
        u.getD k 0 * ((List.range x.length).map fun j => if j = i then (1 : ℝ) else 0).getD k 0 =
          if k = i then u.getD k 0 else 0 := by
      intro k hk
      rw [getD_map_range _ _ _ (Finset.mem_range.1 hk)]
      split_ifs <;> simp
    rw [Finset.sum_congr rfl this, Finset.sum_ite_eq', if_pos (Finset.mem_range.2 hix)]
  rw [pick _ h.1, pick _ h'.1] at e
  simpa [List.getD_eq_getElem?_getD, hi, hi'] using e

end Ex
end Qugar
