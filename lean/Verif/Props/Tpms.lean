import Verif.Props.Funcs
import Verif.Model.Tpms
/-
Property theorems C46 (triply periodic surfaces).
-/
namespace Qugar.Tpms
open Spec Real

/-- The coordinates as expressions. -/
noncomputable def A (m : List ℝ) (i : Nat) (v : Ex) : Ex := .mul (.const (p2 m i)) v
noncomputable def B (m : List ℝ) (i : Nat) (v : Ex) : Ex := .mul (.const 2) (A m i v)

noncomputable def schoenEx (m : List ℝ) (x y z : Ex) : Ex :=
  .add (.add (.mul (.sin (A m 0 x)) (.cos (A m 1 y))) (.mul (.sin (A m 1 y)) (.cos (A m 2 z))))
    (.mul (.sin (A m 2 z)) (.cos (A m 0 x)))
noncomputable def iwpEx (m : List ℝ) (x y z : Ex) : Ex :=
  .sub (.sub (.sub (.mul (.const 2) (.add (.add (.mul (.cos (A m 0 x)) (.cos (A m 1 y))) (.mul (.cos (A m 1 y)) (.cos (A m 2 z))))
    (.mul (.cos (A m 2 z)) (.cos (A m 0 x))))) (.cos (B m 0 x))) (.cos (B m 1 y))) (.cos (B m 2 z))
noncomputable def frdEx (m : List ℝ) (x y z : Ex) : Ex :=
  .sub (.sub (.sub (.mul (.mul (.mul (.const 4) (.cos (A m 0 x))) (.cos (A m 1 y))) (.cos (A m 2 z)))
    (.mul (.cos (B m 0 x)) (.cos (B m 1 y)))) (.mul (.cos (B m 1 y)) (.cos (B m 2 z)))) (.mul (.cos (B m 2 z)) (.cos (B m 0 x)))
noncomputable def fksEx (m : List ℝ) (x y z : Ex) : Ex :=
  .add (.add (.mul (.mul (.cos (B m 0 x)) (.sin (A m 1 y))) (.cos (A m 2 z)))
    (.mul (.mul (.cos (A m 0 x)) (.cos (B m 1 y))) (.sin (A m 2 z)))) (.mul (.mul (.sin (A m 0 x)) (.cos (A m 1 y))) (.cos (B m 2 z)))
noncomputable def diamondEx (m : List ℝ) (x y z : Ex) : Ex :=
  .sub (.mul (.mul (.cos (A m 0 x)) (.cos (A m 1 y))) (.cos (A m 2 z))) (.mul (.mul (.sin (A m 0 x)) (.sin (A m 1 y))) (.sin (A m 2 z)))
noncomputable def primitiveEx (m : List ℝ) (x y z : Ex) : Ex :=
  .add (.add (.cos (A m 0 x)) (.cos (A m 1 y))) (.cos (A m 2 z))

theorem exact3 (m : List ℝ) (s : Surface) (ex : List ℝ → Ex → Ex → Ex → Ex)
    (he : ∀ a b c, s.eval m [a, b, c] = (ex m (.var 0) (.var 1) (.var 2)).eval [a, b, c])
    (hg : ∀ a b c, s.grad m [a, b, c] = [(Ex.D 0 (ex m (.var 0) (.var 1) (.var 2))).eval [a, b, c],
      (Ex.D 1 (ex m (.var 0) (.var 1) (.var 2))).eval [a, b, c], (Ex.D 2 (ex m (.var 0) (.var 1) (.var 2))).eval [a, b, c]])
    (hh : ∀ a b c, symMatrix 3 (s.hess m [a, b, c]) = [
      [(Ex.D 0 (Ex.D 0 (ex m (.var 0) (.var 1) (.var 2)))).eval [a, b, c],
        (Ex.D 1 (Ex.D 0 (ex m (.var 0) (.var 1) (.var 2)))).eval [a, b, c],
        (Ex.D 2 (Ex.D 0 (ex m (.var 0) (.var 1) (.var 2)))).eval [a, b, c]],
      [(Ex.D 0 (Ex.D 1 (ex m (.var 0) (.var 1) (.var 2)))).eval [a, b, c],
        (Ex.D 1 (Ex.D 1 (ex m (.var 0) (.var 1) (.var 2)))).eval [a, b, c],
        (Ex.D 2 (Ex.D 1 (ex m (.var 0) (.var 1) (.var 2)))).eval [a, b, c]],
      [(Ex.D 0 (Ex.D 2 (ex m (.var 0) (.var 1) (.var 2)))).eval [a, b, c],
        (Ex.D 1 (Ex.D 2 (ex m (.var 0) (.var 1) (.var 2)))).eval [a, b, c],
        (Ex.D 2 (Ex.D 2 (ex m (.var 0) (.var 1) (.var 2)))).eval [a, b, c]]])
    (hl : ∀ p, (s.hess m p).length = 6) :
    ExactDerivatives 3 (s.func3 m).eval (s.func3 m).grad (s.func3 m).hess := by
  apply exact_of_ex 3 (ex m (.var 0) (.var 1) (.var 2))
  · intro x hx
    obtain ⟨a, b, c, rfl⟩ := len3 hx
    exact he a b c
  · intro x hx
    obtain ⟨a, b, c, rfl⟩ := len3 hx
    exact hg a b c
  · intro x hx
    obtain ⟨a, b, c, rfl⟩ := len3 hx
    exact hh a b c
  · intro x _
    exact hl x

macro "tpms_unfold" : tactic => `(tactic| simp only [A, B, x4, x2, p4, Ex.D, Ex.eval, vat,
    List.getD_cons_zero, List.getD_cons_succ, symMatrix3])
macro "tpms3" : tactic => `(tactic| (refine congr3 ?_ ?_ ?_ <;> norm_num <;> ring))
macro "tpms33" : tactic => `(tactic| (refine congr3 (congr3 ?_ ?_ ?_) (congr3 ?_ ?_ ?_) (congr3 ?_ ?_ ?_) <;> norm_num <;> ring))

theorem exact2 (m : List ℝ) (z : ℝ) (s : Surface) (ex : List ℝ → Ex → Ex → Ex → Ex)
    (he : ∀ a b, (s.func2 m z).eval [a, b] = (ex [vat m 0, vat m 1, 1] (.var 0) (.var 1) (.const z)).eval [a, b])
    (hg : ∀ a b, (s.func2 m z).grad [a, b] = [(Ex.D 0 (ex [vat m 0, vat m 1, 1] (.var 0) (.var 1) (.const z))).eval [a, b],
      (Ex.D 1 (ex [vat m 0, vat m 1, 1] (.var 0) (.var 1) (.const z))).eval [a, b]])
    (hh : ∀ a b, symMatrix 2 ((s.func2 m z).hess [a, b]) = [
      [(Ex.D 0 (Ex.D 0 (ex [vat m 0, vat m 1, 1] (.var 0) (.var 1) (.const z)))).eval [a, b],
        (Ex.D 1 (Ex.D 0 (ex [vat m 0, vat m 1, 1] (.var 0) (.var 1) (.const z)))).eval [a, b]],
      [(Ex.D 0 (Ex.D 1 (ex [vat m 0, vat m 1, 1] (.var 0) (.var 1) (.const z)))).eval [a, b],
        (Ex.D 1 (Ex.D 1 (ex [vat m 0, vat m 1, 1] (.var 0) (.var 1) (.const z)))).eval [a, b]]]) :
    ExactDerivatives 2 (s.func2 m z).eval (s.func2 m z).grad (s.func2 m z).hess := by
  apply exact_of_ex 2 (ex [vat m 0, vat m 1, 1] (.var 0) (.var 1) (.const z))
  · intro x hx
    obtain ⟨a, b, rfl⟩ := len2 hx
    exact he a b
  · intro x hx
    obtain ⟨a, b, rfl⟩ := len2 hx
    exact hg a b
  · intro x hx
    obtain ⟨a, b, rfl⟩ := len2 hx
    exact hh a b
  · intro x _
    rfl

theorem congr2 {α : Type} {a b a' b' : α} (h1 : a = a') (h2 : b = b') : [a, b] = [a', b'] := by rw [h1, h2]

macro "tpms_unfold2" : tactic => `(tactic| simp only [Surface.func2, A, B, x4, x2, p4, Ex.D, Ex.eval, vat,
    List.getD_cons_zero, List.getD_cons_succ, symMatrix2])
macro "tpms2" : tactic => `(tactic| (refine congr2 ?_ ?_ <;> norm_num <;> ring))
macro "tpms22" : tactic => `(tactic| (refine congr2 (congr2 ?_ ?_) (congr2 ?_ ?_) <;> norm_num <;> ring))

theorem frd3 (m : List ℝ) :
    ExactDerivatives 3 (schoenFRD.func3 m).eval (schoenFRD.func3 m).grad (schoenFRD.func3 m).hess := by
  apply exact3 m schoenFRD frdEx
  · intro a b c
    simp only [schoenFRD, frdEx]; tpms_unfold
  · intro a b c
    simp only [schoenFRD, frdEx]; tpms_unfold; tpms3
  · intro a b c
    simp only [schoenFRD, frdEx]; tpms_unfold; tpms33
  · intro p
    simp [schoenFRD]

theorem fks3 (m : List ℝ) :
    ExactDerivatives 3 (fischerKochS.func3 m).eval (fischerKochS.func3 m).grad (fischerKochS.func3 m).hess := by
  apply exact3 m fischerKochS fksEx
  · intro a b c
    simp only [fischerKochS, fksEx]; tpms_unfold
  · intro a b c
    simp only [fischerKochS, fksEx]; tpms_unfold; tpms3
  · intro a b c
    simp only [fischerKochS, fksEx]; tpms_unfold; tpms33
  · intro p
    simp [fischerKochS]

theorem diamond3 (m : List ℝ) :
    ExactDerivatives 3 (schwarzDiamond.func3 m).eval (schwarzDiamond.func3 m).grad (schwarzDiamond.func3 m).hess := by
  apply exact3 m schwarzDiamond diamondEx
  · intro a b c
    simp only [schwarzDiamond, diamondEx]; tpms_unfold
  · intro a b c
    simp only [schwarzDiamond, diamondEx]; tpms_unfold; tpms3
  · intro a b c
    simp only [schwarzDiamond, diamondEx]; tpms_unfold; tpms33
  · intro p
    simp [schwarzDiamond]

theorem primitive3 (m : List ℝ) :
    ExactDerivatives 3 (schwarzPrimitive.func3 m).eval (schwarzPrimitive.func3 m).grad (schwarzPrimitive.func3 m).hess := by
  apply exact3 m schwarzPrimitive primitiveEx
  · intro a b c
    simp only [schwarzPrimitive, primitiveEx]; tpms_unfold
  · intro a b c
    simp only [schwarzPrimitive, primitiveEx]; tpms_unfold; tpms3
  · intro a b c
    simp only [schwarzPrimitive, primitiveEx]; tpms_unfold; tpms33
  · intro p
    simp [schwarzPrimitive]

theorem frd2 (m : List ℝ) (z : ℝ) :
    ExactDerivatives 2 (schoenFRD.func2 m z).eval (schoenFRD.func2 m z).grad (schoenFRD.func2 m z).hess := by
  apply exact2 m z schoenFRD frdEx
  · intro a b
    simp only [schoenFRD, frdEx]; tpms_unfold2
  · intro a b
    simp only [schoenFRD, frdEx]; tpms_unfold2; tpms2
  · intro a b
    simp only [schoenFRD, frdEx]; tpms_unfold2; tpms22

theorem fks2 (m : List ℝ) (z : ℝ) :
    ExactDerivatives 2 (fischerKochS.func2 m z).eval (fischerKochS.func2 m z).grad (fischerKochS.func2 m z).hess := by
  apply exact2 m z fischerKochS fksEx
  · intro a b
    simp only [fischerKochS, fksEx]; tpms_unfold2
  · intro a b
    simp only [fischerKochS, fksEx]; tpms_unfold2; tpms2
  · intro a b
    simp only [fischerKochS, fksEx]; tpms_unfold2; tpms22

theorem diamond2 (m : List ℝ) (z : ℝ) :
    ExactDerivatives 2 (schwarzDiamond.func2 m z).eval (schwarzDiamond.func2 m z).grad (schwarzDiamond.func2 m z).hess := by
  apply exact2 m z schwarzDiamond diamondEx
  · intro a b
    simp only [schwarzDiamond, diamondEx]; tpms_unfold2
  · intro a b
    simp only [schwarzDiamond, diamondEx]; tpms_unfold2; tpms2
  · intro a b
    simp only [schwarzDiamond, diamondEx]; tpms_unfold2; tpms22

theorem primitive2 (m : List ℝ) (z : ℝ) :
    ExactDerivatives 2 (schwarzPrimitive.func2 m z).eval (schwarzPrimitive.func2 m z).grad (schwarzPrimitive.func2 m z).hess := by
  apply exact2 m z schwarzPrimitive primitiveEx
  · intro a b
    simp only [schwarzPrimitive, primitiveEx]; tpms_unfold2
  · intro a b
    simp only [schwarzPrimitive, primitiveEx]; tpms_unfold2; tpms2
  · intro a b
    simp only [schwarzPrimitive, primitiveEx]; tpms_unfold2; tpms22

theorem schoen2 (m : List ℝ) (z : ℝ) :
    ExactDerivatives 2 (schoen.func2 m z).eval (schoen.func2 m z).grad (schoen.func2 m z).hess := by
  apply exact2 m z schoen schoenEx
  · intro a b
    simp only [schoen, schoenEx]; tpms_unfold2
  · intro a b
    simp only [schoen, schoenEx]; tpms_unfold2; tpms2
  · intro a b
    simp only [schoen, schoenEx]; tpms_unfold2; tpms22

/-- **C46**, derivatives: for the Schoen FRD, Fischer-Koch S, Schwarz diamond and Schwarz primitive surfaces gradient and
Hessian are exact in 2D and 3D, and for the gyroid in 2D. -/
theorem C46_exact_derivatives (m : List ℝ) (z : ℝ) :
    (∀ s ∈ [schoenFRD, fischerKochS, schwarzDiamond, schwarzPrimitive],
      ExactDerivatives 3 (s.func3 m).eval (s.func3 m).grad (s.func3 m).hess) ∧
    (∀ s ∈ [schoen, schoenFRD, fischerKochS, schwarzDiamond, schwarzPrimitive],
      ExactDerivatives 2 (s.func2 m z).eval (s.func2 m z).grad (s.func2 m z).hess) := by
  constructor
  · intro s hs
    simp only [List.mem_cons, List.not_mem_nil, or_false] at hs
    rcases hs with rfl | rfl | rfl | rfl
    · exact frd3 m
    · exact fks3 m
    · exact diamond3 m
    · exact primitive3 m
  · intro s hs
    simp only [List.mem_cons, List.not_mem_nil, or_false] at hs
    rcases hs with rfl | rfl | rfl | rfl | rfl
    · exact schoen2 m z
    · exact frd2 m z
    · exact fks2 m z
    · exact diamond2 m z
    · exact primitive2 m z

/-- The gyroid with its exact Hessian. -/
noncomputable def schoenFixed : Surface :=
  ⟨schoen.eval, schoen.grad, fun m p => [vat (schoen.hess m p) 0, vat (schoen.hess m p) 1,
    p2 m 0 * p2 m 2 * (-cos (x2 m p 2) * sin (x2 m p 0)), vat (schoen.hess m p) 3, vat (schoen.hess m p) 4,
    vat (schoen.hess m p) 5]⟩

theorem schoenFixed3 (m : List ℝ) :
    ExactDerivatives 3 (schoenFixed.func3 m).eval (schoenFixed.func3 m).grad (schoenFixed.func3 m).hess := by
  apply exact3 m schoenFixed schoenEx
  · intro a b c
    simp only [schoenFixed, schoen, schoenEx]; tpms_unfold
  · intro a b c
    simp only [schoenFixed, schoen, schoenEx]; tpms_unfold; tpms3
  · intro a b c
    simp only [schoenFixed, schoen, schoenEx]; tpms_unfold; tpms33
  · intro p
    simp [schoenFixed]

/-- **C46**, gyroid in 3D: the gradient is exact; the Hessian is exact only where its entry of the first and last
directions happens to be: where `cos (2 pi q z) = 0` or `sin (2 pi q z) = sin (2 pi m x)` (or a wave number is zero). -/
theorem C46_gyroid_hessian_fails (m x : List ℝ) (hx : x.length = 3) :
    IsGradient (schoen.func3 m).eval x ((schoen.func3 m).grad x) ∧
    (IsHessian (schoen.func3 m).grad x ((schoen.func3 m).hess x) ↔
      (m.getD 0 0 = 0 ∨ m.getD 2 0 = 0 ∨ cos (2 * π * m.getD 2 0 * x.getD 2 0) = 0 ∨
        sin (2 * π * m.getD 2 0 * x.getD 2 0) = sin (2 * π * m.getD 0 0 * x.getD 0 0))) := by
  have hfix := schoenFixed3 m x hx
  refine ⟨hfix.1, ?_⟩
  have key : (vat m 0 = 0 ∨ vat m 2 = 0 ∨ cos (x2 m x 2) = 0 ∨ sin (x2 m x 2) = sin (x2 m x 0)) ↔
      p2 m 0 * p2 m 2 * (-cos (x2 m x 2) * sin (x2 m x 2)) = p2 m 0 * p2 m 2 * (-cos (x2 m x 2) * sin (x2 m x 0)) := by
    have hpi := pi_pos
    constructor
    · rintro (h | h | h | h)
      · simp [p2, h]
      · simp [p2, h]
      · simp [h]
      · rw [h]
    · intro h
      have h' : (4 * π * π) * (vat m 0 * (vat m 2 * (cos (x2 m x 2) * (sin (x2 m x 2) - sin (x2 m x 0))))) = 0 := by
        simp only [p2] at h
        linear_combination -h
      rcases mul_eq_zero.1 h' with h1 | h1
      · exact absurd h1 (by positivity)
      rcases mul_eq_zero.1 h1 with h1 | h1
      · exact Or.inl h1
      rcases mul_eq_zero.1 h1 with h1 | h1
      · exact Or.inr (Or.inl h1)
      rcases mul_eq_zero.1 h1 with h1 | h1
      · exact Or.inr (Or.inr (Or.inl h1))
      · exact Or.inr (Or.inr (Or.inr (sub_eq_zero.1 h1)))
  change _ ↔ (vat m 0 = 0 ∨ vat m 2 = 0 ∨ cos (x2 m x 2) = 0 ∨ sin (x2 m x 2) = sin (x2 m x 0))
  rw [key]
  constructor
  · intro h
    have h0 := (h 0 (by omega)).unique (hfix.2.1 0 (by omega))
    rw [hx] at h0
    simp only [schoenFixed, schoen, Surface.func3, symMatrix3, vat, List.getD_cons_zero, List.getD_cons_succ,
      List.cons.injEq, and_true, true_and] at h0
    exact h0
  · intro h
    have : (schoen.func3 m).hess x = (schoenFixed.func3 m).hess x := by
      simp only [schoenFixed, schoen, Surface.func3, vat, List.getD_cons_zero, List.getD_cons_succ]
      rw [h]
    rw [this]
    exact hfix.2.1

/-- A point where it is wrong: `x = 1/4`, `z = 0`. -/
example : ¬ IsHessian (schoen.func3 [1, 1, 1]).grad [1/4, 0, 0] ((schoen.func3 [1, 1, 1]).hess [1/4, 0, 0]) := by
  rw [(C46_gyroid_hessian_fails [1, 1, 1] [1/4, 0, 0] rfl).2]
  have : sin (2 * π * 1 * (1 / 4)) = 1 := by
    rw [show 2 * π * 1 * (1 / 4) = π / 2 by ring, sin_pi_div_two]
  simp only [List.getD_cons_zero, List.getD_cons_succ, this, mul_zero, sin_zero, cos_zero]
  norm_num

/-- The IWP surface with its exact gradient. -/
noncomputable def iwpFixed : Surface :=
  ⟨schoenIWP.eval, fun m p => [vat (schoenIWP.grad m p) 0,
    (sin (x4 m p 1) - sin (x2 m p 1) * (cos (x2 m p 0) + cos (x2 m p 2))) * p4 m 1, vat (schoenIWP.grad m p) 2],
   schoenIWP.hess⟩

theorem iwpFixed3 (m : List ℝ) :
    ExactDerivatives 3 (iwpFixed.func3 m).eval (iwpFixed.func3 m).grad (iwpFixed.func3 m).hess := by
  apply exact3 m iwpFixed iwpEx
  · intro a b c
    simp only [iwpFixed, schoenIWP, iwpEx]; tpms_unfold
  · intro a b c
    simp only [iwpFixed, schoenIWP, iwpEx]; tpms_unfold; tpms3
  · intro a b c
    simp only [iwpFixed, schoenIWP, iwpEx]; tpms_unfold; tpms33
  · intro p
    simp [iwpFixed, schoenIWP]

theorem iwpFixed2 (m : List ℝ) (z : ℝ) :
    ExactDerivatives 2 (iwpFixed.func2 m z).eval (iwpFixed.func2 m z).grad (iwpFixed.func2 m z).hess := by
  apply exact2 m z iwpFixed iwpEx
  · intro a b
    simp only [iwpFixed, schoenIWP, iwpEx]; tpms_unfold2
  · intro a b
    simp only [iwpFixed, schoenIWP, iwpEx]; tpms_unfold2; tpms2
  · intro a b
    simp only [iwpFixed, schoenIWP, iwpEx]; tpms_unfold2; tpms22

theorem iwp_same (m p : List ℝ) (h : vat m 0 = vat m 1) : schoenIWP.grad m p = iwpFixed.grad m p := by
  simp only [iwpFixed, schoenIWP, vat, List.getD_cons_zero, List.getD_cons_succ, p4, p2]
  simp only [vat] at h
  rw [h]

/-- **C46**, IWP surface: with equal wave numbers in the first two directions gradient and Hessian are exact; the Hessian
is the one of the function for all wave numbers. -/
theorem C46_iwp_partial (m : List ℝ) (z : ℝ) :
    (m.getD 0 0 = m.getD 1 0 → ExactDerivatives 3 (schoenIWP.func3 m).eval (schoenIWP.func3 m).grad (schoenIWP.func3 m).hess ∧
      ExactDerivatives 2 (schoenIWP.func2 m z).eval (schoenIWP.func2 m z).grad (schoenIWP.func2 m z).hess) ∧
    (∃ G, ExactDerivatives 3 (schoenIWP.func3 m).eval G (schoenIWP.func3 m).hess) ∧
    (∃ G, ExactDerivatives 2 (schoenIWP.func2 m z).eval G (schoenIWP.func2 m z).hess) := by
  refine ⟨fun h => ⟨?_, ?_⟩, ⟨_, iwpFixed3 m⟩, ⟨_, iwpFixed2 m z⟩⟩
  · have : (schoenIWP.func3 m).grad = (iwpFixed.func3 m).grad := funext fun p => iwp_same m p h
    rw [this]
    exact iwpFixed3 m
  · have : (schoenIWP.func2 m z).grad = (iwpFixed.func2 m z).grad := by
      funext p
      simp only [Surface.func2]
      rw [iwp_same [vat m 0, vat m 1, 1] _ (by simpa [vat] using h)]
    rw [this]
    exact iwpFixed2 m z

/-- **C46**, negated for the IWP surface: the gradient is exact only if the wave numbers of the first two directions
agree, or where its second component vanishes anyway. -/
theorem C46_iwp_gradient_fails (m x : List ℝ) (hx : x.length = 3) :
    IsGradient (schoenIWP.func3 m).eval x ((schoenIWP.func3 m).grad x) ↔
      (m.getD 0 0 = m.getD 1 0 ∨ sin (2 * (2 * π * m.getD 1 0 * x.getD 1 0)) =
        sin (2 * π * m.getD 1 0 * x.getD 1 0) *
          (cos (2 * π * m.getD 0 0 * x.getD 0 0) + cos (2 * π * m.getD 2 0 * x.getD 2 0))) := by
  have hfix := (iwpFixed3 m x hx).1
  change _ ↔ (vat m 0 = vat m 1 ∨ sin (x4 m x 1) = sin (x2 m x 1) * (cos (x2 m x 0) + cos (x2 m x 2)))
  have key : (vat m 0 = vat m 1 ∨ sin (x4 m x 1) = sin (x2 m x 1) * (cos (x2 m x 0) + cos (x2 m x 2))) ↔
      (sin (x4 m x 1) - sin (x2 m x 1) * (cos (x2 m x 0) + cos (x2 m x 2))) * p4 m 0 =
      (sin (x4 m x 1) - sin (x2 m x 1) * (cos (x2 m x 0) + cos (x2 m x 2))) * p4 m 1 := by
    constructor
    · rintro (h | h)
      · simp only [p4, p2]
        rw [h]
      · rw [h]
        ring
    · intro h
      have h' : (4 * π) * ((vat m 0 - vat m 1) *
          (sin (x4 m x 1) - sin (x2 m x 1) * (cos (x2 m x 0) + cos (x2 m x 2)))) = 0 := by
        simp only [p4, p2] at h
        linear_combination h
      have hpi := pi_pos
      rcases mul_eq_zero.1 h' with h1 | h1
      · exact absurd h1 (by positivity)
      rcases mul_eq_zero.1 h1 with h1 | h1
      · exact Or.inl (sub_eq_zero.1 h1)
      · exact Or.inr (sub_eq_zero.1 h1)
  rw [key]
  constructor
  · intro h
    have h0 := h.unique hfix
    simp only [iwpFixed, schoenIWP, Surface.func3, vat, List.getD_cons_zero, List.getD_cons_succ,
      List.cons.injEq, and_true, true_and] at h0
    exact h0
  · intro h
    have : (schoenIWP.func3 m).grad x = (iwpFixed.func3 m).grad x := by
      simp only [iwpFixed, schoenIWP, Surface.func3, vat, List.getD_cons_zero, List.getD_cons_succ]
      rw [h]
    rw [this]
    exact hfix

/-- Wave numbers and a point where it is wrong. -/
example : ¬ IsGradient (schoenIWP.func3 [2, 1, 1]).eval [0, 1/4, 0] ((schoenIWP.func3 [2, 1, 1]).grad [0, 1/4, 0]) := by
  rw [C46_iwp_gradient_fails [2, 1, 1] [0, 1/4, 0] rfl]
  have h1 : sin (2 * π * 1 * (1 / 4)) = 1 := by
    rw [show 2 * π * 1 * (1 / 4) = π / 2 by ring, sin_pi_div_two]
  have h2 : sin (2 * (2 * π * 1 * (1 / 4))) = 0 := by
    rw [show 2 * (2 * π * 1 * (1 / 4)) = π by ring, sin_pi]
  simp only [List.getD_cons_zero, List.getD_cons_succ, h1, h2, mul_zero, cos_zero]
  norm_num

/-- The angles after shifting by periods. -/
theorem x2_shift (m0 x : ℝ) (k : ℤ) (h : m0 ≠ 0) : 2 * π * m0 * (x + k / m0) = 2 * π * m0 * x + k * (2 * π) := by
  field_simp

/-- **C46**, periodicity: every surface has, in every direction, the period one over the wave number of that
direction (the header calls the wave numbers periods). -/
theorem C46_periodic (s : Surface)
    (hs : s ∈ [schoen, schoenIWP, schoenFRD, fischerKochS, schwarzDiamond, schwarzPrimitive]) (m0 m1 m2 x y z : ℝ)
    (h0 : m0 ≠ 0) (h1 : m1 ≠ 0) (h2 : m2 ≠ 0) (i j k : ℤ) :
    (s.func3 [m0, m1, m2]).eval [x + i / m0, y + j / m1, z + k / m2] = (s.func3 [m0, m1, m2]).eval [x, y, z] ∧
    (s.func2 [m0, m1] z).eval [x + i / m0, y + j / m1] = (s.func2 [m0, m1] z).eval [x, y] := by
  have e2 : ∀ (a x : ℝ) (n : ℤ), 2 * (2 * π * a * x + n * (2 * π)) = 2 * (2 * π * a * x) + ((2 * n : ℤ) : ℝ) * (2 * π) := by
    intro a x n
    push_cast
    ring
  simp only [List.mem_cons, List.not_mem_nil, or_false] at hs
  rcases hs with rfl | rfl | rfl | rfl | rfl | rfl <;>
    (constructor <;>
      simp only [Surface.func3, Surface.func2, schoen, schoenIWP, schoenFRD, fischerKochS, schwarzDiamond,
        schwarzPrimitive, x4, x2, p2, vat, List.getD_cons_zero, List.getD_cons_succ, x2_shift m0 x i h0,
        x2_shift m1 y j h1, x2_shift m2 z k h2, e2, cos_add_int_mul_two_pi, sin_add_int_mul_two_pi])

end Qugar.Tpms
