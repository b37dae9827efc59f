import Verif.Props.PyIntegralSurface
import Verif.Model.PyBoundary
/-
C96: the measure and the mapped normal of boundary.py in the cells of a grid are the areas and normals of the surface.
-/
namespace Qugar.Py.Integral

open Spec BoxMeasure Integrals Matrix

/-- The Jacobian of a cell of a grid. -/
noncomputable def boxJacobian {d : Nat} (b : Fin d → ℝ × ℝ) : Matrix (Fin d) (Fin d) ℝ := Matrix.diagonal fun i => (b i).2 - (b i).1

theorem mapped_box {d : Nat} (b : Fin d → ℝ × ℝ) (hlt : ∀ i, (b i).1 < (b i).2) (n : Fin d → ℝ) :
    Boundary.mapped (boxJacobian b) n = fun i => n i / ((b i).2 - (b i).1) := by
  unfold Boundary.mapped
  rw [dif_pos rfl]
  have hinv : (boxJacobian b)⁻¹ = Matrix.diagonal fun i => ((b i).2 - (b i).1)⁻¹ := by
    refine Matrix.inv_eq_right_inv ?_
    rw [boxJacobian, Matrix.diagonal_mul_diagonal, ← Matrix.diagonal_one]
    congr 1
    funext i
    exact mul_inv_cancel₀ (by have := hlt i; linarith)
  show ((boxJacobian b)⁻¹)ᵀ *ᵥ n = _
  rw [hinv, Matrix.diagonal_transpose]
  funext i
  rw [Matrix.mulVec_diagonal, div_eq_inv_mul]

theorem norm_euclid {d : Nat} (v : Fin d → ℝ) : Boundary.norm v = euclid (List.ofFn v) := by
  unfold Boundary.norm euclid dotProduct
  rw [List.map_ofFn, List.sum_ofFn]
  congr 1
  refine Finset.sum_congr rfl fun i _ => ?_
  show v i * v i = v i ^ 2
  ring

theorem boxNormal_ofFn {d : Nat} (b : Fin d → ℝ × ℝ) (n : Fin d → ℝ) :
    boxNormal (List.ofFn b) (List.ofFn n) = List.ofFn fun i => n i / ((b i).2 - (b i).1) := by
  unfold boxNormal
  apply List.ext_getElem
  · simp
  · intro k h1 h2
    simp

theorem scale_box {d : Nat} (b : Fin d → ℝ × ℝ) (hlt : ∀ i, (b i).1 < (b i).2) :
    Boundary.scale (boxJacobian b) = boxVolume (List.ofFn b) := by
  unfold Boundary.scale
  rw [boxJacobian, Matrix.diagonal_transpose, Matrix.diagonal_mul_diagonal, Matrix.det_diagonal, boxVolume_eq_prod, List.map_ofFn, List.prod_ofFn,
    Finset.prod_mul_distrib]
  have : 0 ≤ ∏ i, ((b i).2 - (b i).1) := Finset.prod_nonneg fun i _ => by have := hlt i; linarith
  rw [Real.sqrt_mul_self this]
  rfl

/-- **C96** (measure and normals): in the cells of a grid of any dimension, `f * ds_bdry_unf` at a point with a weight and a normal in the unit
cube is the weight times the area of the box, and `mapped_normal` is the normal of length 1. -/
theorem C96_nanson {d : Nat} (b : Fin d → ℝ × ℝ) (hlt : ∀ i, (b i).1 < (b i).2) (n : Fin d → ℝ) (tag : Nat) (w f : ℝ) :
    Boundary.measure (boxJacobian b) n (.one none) tag w f = w * stretch (List.ofFn b) (List.ofFn n) * f ∧
    List.ofFn (Boundary.mappedNormal (boxJacobian b) n true) = unitNormal (List.ofFn b) (List.ofFn n) := by
  have hm := mapped_box b hlt n
  refine ⟨?_, ?_⟩
  · unfold Boundary.measure Boundary.rmul Boundary.uflRmul
    rw [scale_box b hlt]
    simp only [Boundary.mappedNormal, Bool.false_eq_true, if_false, hm, norm_euclid]
    unfold stretch
    rw [boxNormal_ofFn]
    simp
    ring
  · unfold Boundary.mappedNormal unitNormal
    rw [if_pos rfl, hm, norm_euclid, boxNormal_ofFn, List.map_ofFn]
    rfl

/-- C96 non-vacuity: a cell of sizes 2 and 1, and a normal. -/
example : Boundary.measure (boxJacobian ![((2 : ℝ), 4), (0, 1)]) ![1, 0] (.one none) 0 (1 / 2) 6 = 3 ∧
    List.ofFn (Boundary.mappedNormal (boxJacobian ![((2 : ℝ), 4), (0, 1)]) ![1, 0] true) = [1, 0] := by
  obtain ⟨h1, h2⟩ := C96_nanson ![((2 : ℝ), 4), (0, 1)] (by intro i; fin_cases i <;> norm_num) ![1, 0] 0 (1 / 2) 6
  have e1 : boxNormal (List.ofFn ![((2 : ℝ), 4), (0, 1)]) (List.ofFn ![(1 : ℝ), 0]) = [1 / 2, 0] := by norm_num [boxNormal]
  have e2 : euclid [(1 / 2 : ℝ), 0] = 1 / 2 := by
    simp only [euclid, List.map_cons, List.map_nil, List.sum_cons, List.sum_nil, add_zero, ne_eq, OfNat.ofNat_ne_zero, not_false_eq_true, zero_pow]
    rw [Real.sqrt_sq (by norm_num)]
  refine ⟨?_, ?_⟩
  · rw [h1, stretch, e1, e2, boxVolume_eq_prod]
    norm_num
  · rw [h2, unitNormal, e1, e2]
    norm_num

end Qugar.Py.Integral
