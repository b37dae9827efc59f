import Verif.Model.PyBoundary
import Mathlib.LinearAlgebra.CrossProduct
import Mathlib.LinearAlgebra.Matrix.ToLinearEquiv
import Mathlib.Tactic.Ring
import Mathlib.Tactic.Linarith
import Mathlib.Tactic.NormNum
import Mathlib.Tactic.FinCases
import Mathlib.Tactic.FieldSimp
/-
Property theorems C70 (normals and measure of unfitted boundaries: python/qugar/dolfinx/boundary.py).
-/
namespace Qugar.Py.Boundary

open Matrix

/-! ### Specification -/

/-- The geometry of the cell is regular at the point: no direction of the reference cell is collapsed. -/
def Regular {g t : Nat} (jac : Matrix (Fin g) (Fin t) ℝ) : Prop := ∀ v : Fin t → ℝ, jac *ᵥ v = 0 → v = 0

/-- The vector `n` of the physical space is normal to the image of the boundary, which has normal `normal` in the reference cell, and on
the same side: it is tangent to the image of the cell, and the components along it of the images of the directions of the reference cell
are their components along `normal`. -/
def IsNormal {g t : Nat} (jac : Matrix (Fin g) (Fin t) ℝ) (normal : Fin t → ℝ) (n : Fin g → ℝ) : Prop :=
  (∃ w, n = jac *ᵥ w) ∧ ∀ v, (jac *ᵥ v) ⬝ᵥ n = v ⬝ᵥ normal

/-- Area of the parallelogram of two vectors. -/
noncomputable def area {g : Nat} (u v : Fin g → ℝ) : ℝ := Real.sqrt ((u ⬝ᵥ u) * (v ⬝ᵥ v) - (u ⬝ᵥ v) ^ 2)

/-- The vector of the plane that `normal` is after a quarter turn. -/
def turned (normal : Fin 2 → ℝ) : Fin 2 → ℝ := ![-normal 1, normal 0]

/-! ### Lemmas -/

variable {g t : Nat}

theorem gram_inner (jac : Matrix (Fin g) (Fin t) ℝ) (u v : Fin t → ℝ) :
    (jac *ᵥ u) ⬝ᵥ (jac *ᵥ v) = u ⬝ᵥ ((jacᵀ * jac) *ᵥ v) := by
  rw [← Matrix.mulVec_mulVec, Matrix.dotProduct_mulVec u, Matrix.vecMul_transpose]

theorem dot_self_zero {n : Nat} (v : Fin n → ℝ) (h : v ⬝ᵥ v = 0) : v = 0 := by
  rw [dotProduct, Finset.sum_eq_zero_iff_of_nonneg fun i _ => mul_self_nonneg _] at h
  funext i
  exact mul_self_eq_zero.1 (h i (Finset.mem_univ i))

theorem dot_self_nonneg {n : Nat} (v : Fin n → ℝ) : 0 ≤ v ⬝ᵥ v :=
  Finset.sum_nonneg fun i _ => mul_self_nonneg _

theorem gram_unit {jac : Matrix (Fin g) (Fin t) ℝ} (h : Regular jac) : IsUnit (jacᵀ * jac).det := by
  rw [isUnit_iff_ne_zero]
  intro h0
  obtain ⟨v, hv, hv0⟩ := Matrix.exists_mulVec_eq_zero_iff.2 h0
  apply hv
  apply h
  apply dot_self_zero
  rw [gram_inner, hv0, dotProduct_zero]

theorem mapped_eq {jac : Matrix (Fin g) (Fin t) ℝ} (h : Regular jac) (normal : Fin t → ℝ) :
    mapped jac normal = jac *ᵥ ((jacᵀ * jac)⁻¹ *ᵥ normal) := by
  unfold mapped
  split
  · next hgt =>
    subst hgt
    have h1 := gram_unit h
    have h2 : IsUnit jac.det := by
      rw [Matrix.det_mul, Matrix.det_transpose] at h1
      exact isUnit_of_mul_isUnit_left h1
    have h3 : IsUnit jacᵀ.det := by rwa [Matrix.det_transpose]
    show (jac⁻¹)ᵀ *ᵥ normal = _
    rw [Matrix.mul_inv_rev, Matrix.mulVec_mulVec, ← Matrix.mul_assoc, Matrix.mul_nonsing_inv _ h2, Matrix.one_mul,
      Matrix.transpose_nonsing_inv]
  · rfl

/-! ### Theorems -/

/-- C70: the normal is normal to the image of the boundary, on the same side, … -/
theorem C70_normal {jac : Matrix (Fin g) (Fin t) ℝ} (h : Regular jac) (normal : Fin t → ℝ) :
    IsNormal jac normal (mappedNormal jac normal false) := by
  have h1 := gram_unit h
  simp only [mappedNormal, Bool.false_eq_true, if_false]
  rw [mapped_eq h]
  refine ⟨⟨_, rfl⟩, fun v => ?_⟩
  rw [gram_inner, Matrix.mulVec_mulVec, Matrix.mul_nonsing_inv _ h1, Matrix.one_mulVec]

/-- … and there is no other such vector. -/
theorem C70_normal_unique {jac : Matrix (Fin g) (Fin t) ℝ} (h : Regular jac) (normal : Fin t → ℝ) (n : Fin g → ℝ)
    (hn : IsNormal jac normal n) : n = mappedNormal jac normal false := by
  obtain ⟨⟨w, hw⟩, h1⟩ := hn
  obtain ⟨⟨w', hw'⟩, h2⟩ := C70_normal h normal
  have h3 := h1 (w - w')
  have h4 := h2 (w - w')
  generalize mappedNormal jac normal false = n' at *
  apply sub_eq_zero.1
  apply dot_self_zero
  have h5 : n - n' = jac *ᵥ (w - w') := by rw [Matrix.mulVec_sub, hw, hw']
  rw [dotProduct_sub, h5, h3, h4]
  ring

theorem mapped_ne_zero {jac : Matrix (Fin g) (Fin t) ℝ} (h : Regular jac) {normal : Fin t → ℝ} (hN : normal ≠ 0) :
    0 < norm (mapped jac normal) := by
  rw [norm, Real.sqrt_pos]
  rcases (dot_self_nonneg (mapped jac normal)).lt_or_eq with h1 | h1
  · exact h1
  · exfalso
    apply hN
    have h2 := (C70_normal h normal).2 normal
    simp only [mappedNormal, Bool.false_eq_true, if_false] at h2
    rw [dot_self_zero _ h1.symm, dotProduct_zero] at h2
    exact dot_self_zero _ h2.symm

/-- C70: the normalized normal is that vector divided by its norm, a vector of norm one. -/
theorem C70_normalized {jac : Matrix (Fin g) (Fin t) ℝ} (h : Regular jac) {normal : Fin t → ℝ} (hN : normal ≠ 0) :
    norm (mappedNormal jac normal true) = 1 ∧
    ∃ a : ℝ, 0 < a ∧ mappedNormal jac normal true = a • mappedNormal jac normal false := by
  have h1 := mapped_ne_zero h hN
  have h2 : mappedNormal jac normal true = (norm (mapped jac normal))⁻¹ • mapped jac normal := by
    funext i
    simp only [mappedNormal, if_true, Pi.smul_apply, smul_eq_mul]
    rw [div_eq_inv_mul]
  refine ⟨?_, (norm (mapped jac normal))⁻¹, inv_pos.2 h1, ?_⟩
  · rw [h2]
    generalize hc : norm (mapped jac normal) = c at *
    have h3 : mapped jac normal ⬝ᵥ mapped jac normal = c ^ 2 := by
      rw [← hc, norm, Real.sq_sqrt (dot_self_nonneg _)]
    rw [norm, smul_dotProduct, dotProduct_smul, h3, smul_eq_mul, smul_eq_mul]
    have : c⁻¹ * (c⁻¹ * c ^ 2) = 1 := by field_simp
    rw [this, Real.sqrt_one]
  · rw [h2]
    simp only [mappedNormal, Bool.false_eq_true, if_false]

theorem norm_scale {jac : Matrix (Fin g) (Fin t) ℝ} (h : Regular jac) (normal : Fin t → ℝ) :
    norm (mapped jac normal) * scale jac = Real.sqrt (normal ⬝ᵥ ((jacᵀ * jac).adjugate *ᵥ normal)) := by
  rw [norm, scale, ← Real.sqrt_mul (dot_self_nonneg _)]
  congr 1
  have h1 := gram_unit h
  generalize hM : jacᵀ * jac = M at *
  have h2 : mapped jac normal ⬝ᵥ mapped jac normal = (M⁻¹ *ᵥ normal) ⬝ᵥ normal := by
    rw [mapped_eq h, hM]
    rw [gram_inner, hM, Matrix.mulVec_mulVec, Matrix.mul_nonsing_inv _ h1, Matrix.one_mulVec]
  rw [h2, Matrix.inv_def, Matrix.smul_mulVec, smul_dotProduct, smul_eq_mul, dotProduct_comm]
  have h3 : Ring.inverse M.det * M.det = 1 := Ring.inverse_mul_cancel _ h1
  calc _ = (Ring.inverse M.det * M.det) * (normal ⬝ᵥ M.adjugate *ᵥ normal) := by ring
    _ = _ := by rw [h3, one_mul]

theorem gram_symm (jac : Matrix (Fin g) (Fin t) ℝ) (i j : Fin t) : (jacᵀ * jac) i j = (jacᵀ * jac) j i := by
  simp only [Matrix.mul_apply, Matrix.transpose_apply]
  exact Finset.sum_congr rfl fun _ _ => mul_comm _ _

theorem nanson_plane {jac : Matrix (Fin g) (Fin 2) ℝ} (h : Regular jac) (normal : Fin 2 → ℝ) :
    norm (mapped jac normal) * scale jac = norm (jac *ᵥ turned normal) := by
  rw [norm_scale h, norm, gram_inner]
  congr 1
  have h01 := gram_symm jac 0 1
  generalize jacᵀ * jac = M at *
  rw [Matrix.adjugate_fin_two]
  simp only [Matrix.mulVec, dotProduct, Fin.sum_univ_two, turned, Matrix.of_apply, Matrix.cons_val_zero, Matrix.cons_val_one,
    h01]
  ring

theorem nanson_space {jac : Matrix (Fin g) (Fin 3) ℝ} (h : Regular jac) (u v : Fin 3 → ℝ) :
    norm (mapped jac (crossProduct u v)) * scale jac = area (jac *ᵥ u) (jac *ᵥ v) := by
  rw [norm_scale h, area, gram_inner, gram_inner, gram_inner]
  congr 1
  have h01 := gram_symm jac 0 1
  have h02 := gram_symm jac 0 2
  have h12 := gram_symm jac 1 2
  generalize jacᵀ * jac = M at *
  rw [Matrix.adjugate_fin_three, cross_apply]
  simp only [Matrix.mulVec, dotProduct, Fin.sum_univ_three, Matrix.of_apply, Matrix.cons_val_zero, Matrix.cons_val_one,
    Matrix.cons_val, h01, h02, h12]
  ring

theorem measure_one (jac : Matrix (Fin g) (Fin t) ℝ) (normal : Fin t → ℝ) (d : Option Nat) (tag : Nat)
    (hd : ∀ x ∈ d, x = tag) (weight integrand : ℝ) : measure jac normal (.one d) tag weight integrand =
      integrand * weight * (norm (mapped jac normal) * scale jac) := by
  have : (d.all fun x => x == tag) = true := by
    cases d with
    | none => rfl
    | some x => simpa using hd x rfl
  simp only [measure, rmul, uflRmul, mappedNormal, Bool.false_eq_true, if_false, List.filter_cons, this, if_true, List.filter_nil,
    List.map_cons, List.map_nil, List.sum_cons, List.sum_nil, add_zero]
  ring

/-- C70: in the plane and in surfaces, a point of a curve with a weight counts with the length of the image of the unit tangent, … -/
theorem C70_measure_plane {jac : Matrix (Fin g) (Fin 2) ℝ} (h : Regular jac) (normal : Fin 2 → ℝ) (d : Option Nat) (tag : Nat)
    (hd : ∀ x ∈ d, x = tag) (weight integrand : ℝ) :
    measure jac normal (.one d) tag weight integrand = integrand * weight * norm (jac *ᵥ turned normal) := by
  rw [measure_one _ _ _ _ hd, nanson_plane h]

/-- … and in space a point of a surface with the area of the image of any parallelogram of its tangent plane whose normal is the given
one. -/
theorem C70_measure_space {jac : Matrix (Fin g) (Fin 3) ℝ} (h : Regular jac) (u v : Fin 3 → ℝ) (d : Option Nat) (tag : Nat)
    (hd : ∀ x ∈ d, x = tag) (weight integrand : ℝ) :
    measure jac (crossProduct u v) (.one d) tag weight integrand = integrand * weight * area (jac *ᵥ u) (jac *ᵥ v) := by
  rw [measure_one _ _ _ _ hd, nanson_space h]

/-- C70: points of other subdomains do not count. -/
theorem C70_other_subdomains (jac : Matrix (Fin g) (Fin t) ℝ) (normal : Fin t → ℝ) (d tag : Nat) (hd : d ≠ tag)
    (weight integrand : ℝ) : measure jac normal (.one (some d)) tag weight integrand = 0 := by
  simp [measure, rmul, uflRmul, hd]

theorem filter_tuple (ds : List Nat) (hnd : ds.Nodup) (tag : Nat) (htag : tag ∈ ds) (x : ℝ) :
    (((ds.flatMap fun d => [((x, some d) : Integral)]).filter fun i => i.2.all (· == tag)).map fun i => i.1).sum = x := by
  induction ds with
  | nil => simp at htag
  | cons d ds ih =>
    rw [List.nodup_cons] at hnd
    simp only [List.flatMap_cons, List.cons_append, List.nil_append, List.filter_cons, Option.all_some]
    by_cases hd : d = tag
    · subst hd
      have : ((ds.flatMap fun d => [((x, some d) : Integral)]).filter fun i => i.2.all (· == d)) = [] := by
        rw [List.filter_eq_nil_iff]
        intro i hi
        simp only [List.mem_flatMap, List.mem_singleton] at hi
        obtain ⟨d', hd', rfl⟩ := hi
        simp only [Option.all_some, beq_iff_eq]
        rintro rfl
        exact hnd.1 hd'
      simp [this]
    · have h1 : tag ∈ ds := by
        rcases List.mem_cons.1 htag with h | h
        · exact absurd h.symm hd
        · exact h
      simp only [beq_iff_eq, hd, if_false]
      exact ih hnd.2 h1

/-- C70, the full statement fails: with a tuple of subdomains the norm of the normal is applied twice, both by the product by the measure
and by the product by the measures of each of the subdomains. -/
theorem C70_tuples_fail (jac : Matrix (Fin g) (Fin t) ℝ) (normal : Fin t → ℝ) (ds : List Nat) (hnd : ds.Nodup) (tag : Nat)
    (htag : tag ∈ ds) (weight integrand : ℝ) :
    measure jac normal (.tuple ds) tag weight integrand =
      norm (mappedNormal jac normal false) * measure jac normal (.one (some tag)) tag weight integrand := by
  rw [measure_one _ _ _ _ (by simp)]
  simp only [measure, rmul, rmulOne, uflRmul]
  rw [filter_tuple ds hnd tag htag]
  simp only [mappedNormal, Bool.false_eq_true, if_false]
  ring

/-- The scale factor of the integrals over cells is the absolute value of the determinant, if the Jacobian is square. -/
theorem scale_square (jac : Matrix (Fin g) (Fin g) ℝ) : scale jac = |jac.det| := by
  rw [scale, Matrix.det_mul, Matrix.det_transpose, Real.sqrt_mul_self_eq_abs]

/-! ### Examples -/

/-- A cell of size 1/2 in the plane. -/
noncomputable def half : Matrix (Fin 2) (Fin 2) ℝ := !![1 / 2, 0; 0, 1 / 2]

theorem half_regular : Regular half := by
  intro v hv
  funext i
  have h := congrFun hv i
  fin_cases i <;> simp [half, Matrix.mulVec, dotProduct, Fin.sum_univ_two] at h ⊢ <;> exact h

/-- The tuple of subdomains gives twice the value in a cell of size 1/2. -/
theorem C70_tuples_example : measure half ![1, 0] (.one (some 3)) 3 1 1 = 1 / 2 ∧ measure half ![1, 0] (.tuple [3, 4]) 3 1 1 = 1 := by
  have hn : norm (mapped half ![1, 0]) = 2 := by
    have h1 := C70_normal_unique half_regular ![1, 0] ![2, 0] ⟨⟨![4, 0], by
      funext i; fin_cases i <;> simp [half, Matrix.mulVec, dotProduct, Fin.sum_univ_two]; norm_num⟩, fun v => by
      simp [half, Matrix.mulVec, dotProduct, Fin.sum_univ_two]; ring⟩
    have h2 : mappedNormal half ![1, 0] false = mapped half ![1, 0] := by simp [mappedNormal]
    rw [← h2, ← h1, norm, show ((![2, 0] : Fin 2 → ℝ) ⬝ᵥ ![2, 0]) = 2 ^ 2 by
      simp [dotProduct, Fin.sum_univ_two]; norm_num, Real.sqrt_sq (by norm_num)]
  have h1 : measure half ![1, 0] (.one (some 3)) 3 1 1 = 1 / 2 := by
    rw [C70_measure_plane half_regular _ _ _ (by simp), norm,
      show ((half *ᵥ turned ![1, 0]) ⬝ᵥ (half *ᵥ turned ![1, 0])) = (1 / 2) ^ 2 by
        simp [half, turned, Matrix.mulVec, dotProduct, Fin.sum_univ_two]; norm_num, Real.sqrt_sq (by norm_num)]
    norm_num
  refine ⟨h1, ?_⟩
  rw [C70_tuples_fail _ _ _ (by decide) _ (by decide), h1]
  simp only [mappedNormal, Bool.false_eq_true, if_false, hn]
  norm_num

example : ∃ (jac : Matrix (Fin 3) (Fin 2) ℝ), Regular jac := by
  refine ⟨!![1, 0; 0, 1; 1, 2], fun v hv => ?_⟩
  have h0 := congrFun hv 0
  have h1 := congrFun hv 1
  simp [Matrix.mulVec, dotProduct, Fin.sum_univ_two] at h0 h1
  funext i
  fin_cases i
  · exact h0
  · exact h1

end Qugar.Py.Boundary
