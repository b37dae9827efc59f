import Verif.Lemmas.BoxMeasure
import Mathlib.Analysis.SpecialFunctions.Integrals.Basic
/-
Integrals of monomials over boxes.
-/
namespace Qugar.BoxMeasure
open Spec MeasureTheory

theorem integral_pow_Icc {a b : ℝ} (h : a < b) (k : Nat) :
    ∫ t in Set.Icc a b, ((t - a) / (b - a)) ^ k = (b - a) * (1 / ((k : ℝ) + 1)) := by
  have hne : b - a ≠ 0 := by linarith
  rw [integral_Icc_eq_integral_Ioc, ← intervalIntegral.integral_of_le h.le]
  have e : (fun t : ℝ => ((t - a) / (b - a)) ^ k) = fun t => (fun y : ℝ => y ^ k) (t / (b - a) - a / (b - a)) := by
    funext t
    simp only [sub_div]
  rw [e, intervalIntegral.integral_comp_div_sub (fun y : ℝ => y ^ k) hne, integral_pow]
  rw [sub_self, ← sub_div, div_self hne]
  simp

/-- The integral over a box of a monomial in the coordinates of the unit cube. -/
theorem integral_monomial {d : Nat} {b : List (ℝ × ℝ)} (hb : b.length = d) (hlt : ∀ iv ∈ b, iv.1 < iv.2) (ks : Fin d → Nat) :
    ∫ x in region d b, ∏ i : Fin d, ((x i - (b[i.1]'(by omega)).1) / ((b[i.1]'(by omega)).2 - (b[i.1]'(by omega)).1)) ^ ks i =
      boxVolume b * ∏ i : Fin d, (1 / ((ks i : ℝ) + 1)) := by
  rw [region_eq_Icc hb, ← Set.pi_univ_Icc, volume_pi, Measure.restrict_pi_pi]
  rw [integral_fintype_prod_eq_prod (fun i : Fin d => fun t : ℝ =>
    ((t - (b[i.1]'(by omega)).1) / ((b[i.1]'(by omega)).2 - (b[i.1]'(by omega)).1)) ^ ks i), boxVolume_eq_finset hb,
    ← Finset.prod_mul_distrib]
  apply Finset.prod_congr rfl
  intro i _
  exact integral_pow_Icc (hlt _ (List.getElem_mem _)) _

theorem integrable_monomial {d : Nat} {b : List (ℝ × ℝ)} (hb : b.length = d) (ks : Fin d → Nat) :
    IntegrableOn (fun x : Fin d → ℝ =>
      ∏ i : Fin d, ((x i - (b[i.1]'(by omega)).1) / ((b[i.1]'(by omega)).2 - (b[i.1]'(by omega)).1)) ^ ks i) (region d b) := by
  rw [region_eq_Icc hb]
  apply Continuous.integrableOn_Icc
  fun_prop

end Qugar.BoxMeasure
