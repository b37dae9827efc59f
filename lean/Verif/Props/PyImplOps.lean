import Verif.Props.PyImplFuncs
import Verif.Props.Funcs
/-
Property theorems C78: multilinear functions, boxes, arithmetic, affine transformations, periodic surfaces and evaluation.
-/
namespace Qugar.Py.Impl
open Spec Poly Prim

/-! ### Affine transformations -/

/-- The gradient of the function at the point is exact. -/
def Exact (f : CppFunc) (p : List ℝ) : Prop := IsGradient f.value p (f.gradient p)

/-- An affine transformation of dimension `n` that can be inverted: in debug builds, by more than the tolerance. -/
def Aff.Ok (E : Env) (n : Nat) (t : Aff) : Prop :=
  t.dim = n ∧ t.coefs.length = n * (n + 1) ∧ Affine.det n t.coefs ≠ 0 ∧ (E.debug = true → E.eps < |Affine.det n t.coefs|)

theorem transfOf_spec (E : Env) {n : Nat} (hn : n = 2 ∨ n = 3) (base : Func ℝ) {t : List ℝ} (h1 : t.length = n * (n + 1))
    (h2 : Affine.det n t ≠ 0) (h3 : E.debug = true → E.eps < |Affine.det n t|) :
    ∃ f, transfOf E n base t = .ok f ∧ f.dim = n ∧
      (∀ p, p.length = n → f.value (Affine.transformPoint n t p) = base.eval p) ∧
      (∀ x, x.length = n → ∃ y, y.length = n ∧ Affine.transformPoint n t y = x ∧
        (IsGradient base.eval y (base.grad y) → Exact f x)) := by
  have hinv : Affine.inverse E.debug E.eps n t = some (Affine.inverseCoefs n t) := by
    unfold Affine.inverse
    rw [if_neg]
    simp only [Bool.and_eq_true, Tol.isZero, decide_eq_true_eq, not_and, not_le]
    exact h3
  unfold transfOf Func.withTransf
  rw [hinv]
  refine ⟨_, rfl, rfl, fun p hp => ?_, fun x hx => ?_⟩
  · show base.eval _ = _
    rw [(Affine.inverse_core n hn t p h1 hp h2).2.1]
  · refine ⟨Affine.transformPoint n (Affine.inverseCoefs n t) x, Func.transformPoint_length n hn _ x,
      (Affine.inverse_core n hn t x h1 hx h2).2.2.1, fun hg => ?_⟩
    exact Func.gradient_comp n hn _ x _ _ hx hg

theorem identity_ok (E : Env) (hE : E.Ok) (n : Nat) (hn : n = 2 ∨ n = 3) : (identity n).length = n * (n + 1) ∧
    Affine.det n (identity n) = 1 ∧ ∀ p, p.length = n → Affine.transformPoint n (identity n) p = p := by
  refine ⟨?_, ?_, fun p hp => ?_⟩
  · rcases hn with rfl | rfl <;> simp [identity, Affine.ofScale]
  · rcases hn with rfl | rfl
    · simp [identity, Affine.ofScale, Affine.det, det2, vat]
    · simp [identity, Affine.ofScale, Affine.det, det3, vat]
  · have hl : (identity n).length = n * (n + 1) := by rcases hn with rfl | rfl <;> simp [identity, Affine.ofScale]
    exact (Affine.C26_composition n hn (identity n) (identity n) (identity n) p hl hl hl hp).2.2.2.2

/-- The functions without transformation: the ones of the base function. -/
theorem transfOf_identity (E : Env) (hE : E.Ok) {n : Nat} (hn : n = 2 ∨ n = 3) (base : Func ℝ) :
    ∃ f, transfOf E n base (identity n) = .ok f ∧ f.dim = n ∧ ∀ p, p.length = n → f.value p = base.eval p ∧
      (IsGradient base.eval p (base.grad p) → Exact f p) := by
  obtain ⟨i1, i2, i3⟩ := identity_ok E hE n hn
  obtain ⟨f, h1, h2, h3, h4⟩ := transfOf_spec E hn base i1 (by rw [i2]; exact one_ne_zero)
    (fun _ => by rw [i2, abs_one]; exact hE.eps1)
  refine ⟨f, h1, h2, fun p hp => ⟨?_, fun hg => ?_⟩⟩
  · have := h3 p hp
    rwa [i3 p hp] at this
  · obtain ⟨y, hy, hxy, h5⟩ := h4 p hp
    rw [i3 y hy] at hxy
    subst hxy
    exact h5 hg

/-- **C78**, `create_affinely_transformed_functions`: for every function of the module and every invertible transformation of the same
dimension, a function whose value at the transformed point `T p` is the value of the given function at `p`, with exact gradients where
the given function's are. Transformations of the other dimension raise a TypeError. -/
theorem C78_transformed (E : Env) (f : CppFunc) (hf : Built E f) (t : Aff) :
    (t.Ok E f.dim → ∃ g, createTransformed E f t = .ok g ∧ g.dim = f.dim ∧
      (∀ p, p.length = f.dim → g.value (Affine.transformPoint f.dim t.coefs p) = f.value p) ∧
      (∀ x, x.length = f.dim → ∃ y, y.length = f.dim ∧ Affine.transformPoint f.dim t.coefs y = x ∧ (Exact f y → Exact g x))) ∧
    (t.dim ≠ f.dim → createTransformed E f t = .error .type) := by
  have hg := built_good hf
  have hfun : f.func.eval = f.value ∧ f.func.grad = f.gradient := by
    unfold CppFunc.func
    constructor
    · funext p
      unfold CppFunc.value
      cases f.rep <;> rfl
    · funext p
      unfold CppFunc.gradient
      cases f.rep <;> rfl
  unfold createTransformed
  rw [call_transformed]
  refine ⟨fun ⟨h1, h2, h3, h4⟩ => ?_, fun h => ?_⟩
  · have main := transfOf_spec E hg.1 f.func h2 h3 h4
    rw [hfun.1, hfun.2] at main
    have hcall : (if f.dim = 2 ∧ t.dim = 2 then transfOf E 2 f.func t.coefs
        else if f.dim = 3 ∧ t.dim = 3 then transfOf E 3 f.func t.coefs else .error .type) = transfOf E f.dim f.func t.coefs := by
      rcases hg.1 with h | h
      · rw [if_pos ⟨h, h1.trans h⟩, h]
      · rw [if_neg (by omega), if_pos ⟨h, h1.trans h⟩, h]
    rw [hcall]
    exact main
  · rw [if_neg (by omega), if_neg (by omega)]

/-- **C78**, transformations that cannot be inverted (in debug builds: up to the tolerance) terminate the process in debug builds. -/
theorem C78_singular_transformation (E : Env) (f : CppFunc) (hf : Built E f) (t : Aff) (hd : t.dim = f.dim) (hdb : E.debug = true)
    (h : |Affine.det f.dim t.coefs| ≤ E.eps) : createTransformed E f t = .error .abort := by
  have hg := built_good hf
  have main : transfOf E f.dim f.func t.coefs = .error .abort := by
    unfold transfOf Func.withTransf Affine.inverse
    rw [if_pos (by simp [hdb, Tol.isZero, h])]
    rfl
  unfold createTransformed
  rw [call_transformed]
  rcases hg.1 with h | h
  · rw [if_pos ⟨h, hd.trans h⟩]
    rwa [h] at main
  · rw [if_neg (by omega), if_pos ⟨h, hd.trans h⟩]
    rwa [h] at main

/-! ### Multilinear functions -/

/-- The multilinear function with the given coefficients at the corners of the unit square or cube; the corner of the `k`-th
coefficient has, in direction `i`, the coordinate given by the `i`-th binary digit of `k`. -/
noncomputable def multilinear (n : Nat) (c p : List ℝ) : ℝ :=
  ((List.range (2 ^ n)).map fun k =>
    c.getD k 0 * ((List.range n).map fun i => if k / 2 ^ i % 2 = 1 then p.getD i 0 else 1 - p.getD i 0).prod).sum

theorem dimLinear_value (n : Nat) (hn : n = 2 ∨ n = 3) (c p : List ℝ) : (dimLinear n c).eval p = multilinear n c p := by
  rcases hn with rfl | rfl
  · simp [dimLinear, multilinear, Func.dimLinear2, List.range_succ, vat]
    ring
  · simp [dimLinear, multilinear, Func.dimLinear3, List.range_succ, vat]
    ring

theorem dimLinear_gradient (n : Nat) (hn : n = 2 ∨ n = 3) (c p : List ℝ) (hp : p.length = n) :
    IsGradient (dimLinear n c).eval p ((dimLinear n c).grad p) := by
  rcases hn with rfl | rfl
  · exact ((Func.C43_dim_linear_2D c).2 p hp).1
  · exact (Func.C43_dim_linear_3D_partial c).2 p hp

/-- **C78**, `create_dim_linear`: four (eight) coefficients give the bilinear (trilinear) function with those values at the corners of
the unit square (cube); with a transformation `T` of that dimension, its values at `p` are found at `T p`. The gradients are exact.
Other numbers of coefficients, and numbers that do not correspond to the transformation, raise an AssertionError. -/
theorem C78_dim_linear (E : Env) (hE : E.Ok) (coefs : NdArr) (n : Nat) (hn : n = 2 ∨ n = 3) :
    (IsVec (2 ^ n) coefs → ∃ f, createDimLinear E coefs none = .ok f ∧ Computes f n (multilinear n coefs.data)) ∧
    (IsVec (2 ^ n) coefs → ∀ t : Aff, t.Ok E n → ∃ f, createDimLinear E coefs (some t) = .ok f ∧ f.dim = n ∧
      (∀ p, p.length = n → f.value (Affine.transformPoint n t.coefs p) = multilinear n coefs.data p) ∧
      ∀ x, x.length = n → Exact f x) ∧
    (∀ transf, coefs.size ≠ 4 → coefs.size ≠ 8 → createDimLinear E coefs transf = .error .assertion) ∧
    (∀ t : Aff, t.dim = n → coefs.size ≠ 2 ^ n → createDimLinear E coefs (some t) = .error .assertion) := by
  refine ⟨fun hv => ?_, fun hv t ht => ?_, fun transf h4 h8 => check_neg (by omega), fun t ht hs => ?_⟩
  · have key : createDimLinear E coefs none = transfOf E n (dimLinear n coefs.data) (identity n) := by
      unfold createDimLinear
      rw [check_pos (by rw [hv.size]; rcases hn with rfl | rfl <;> simp)]
      simp only [call_dim_linear, hv.1]
      rcases hn with rfl | rfl <;> simp
    rw [key]
    obtain ⟨f, h1, h2, h3⟩ := transfOf_identity E hE hn (dimLinear n coefs.data)
    refine ⟨f, h1, h2, fun p hp => ⟨(h3 p hp).1.trans (dimLinear_value n hn _ p), ?_⟩⟩
    have hg : IsGradient f.value p (f.gradient p) := (h3 p hp).2 (dimLinear_gradient n hn _ p hp)
    exact isGradient_congr hg fun y hy => (h3 y (hy.trans hp)).1.trans (dimLinear_value n hn _ y)
  · obtain ⟨t1, t2, t3, t4⟩ := ht
    have key : createDimLinear E coefs (some t) = transfOf E n (dimLinear n coefs.data) t.coefs := by
      unfold createDimLinear
      rw [check_pos (by rw [hv.size]; rcases hn with rfl | rfl <;> simp)]
      simp only [call_dim_linear_transf, hv.1, t1]
      rw [check_pos (by rw [hv.size]; rcases hn with rfl | rfl <;> simp)]
      rcases hn with rfl | rfl <;> simp
    rw [key]
    obtain ⟨f, h1, h2, h3, h4⟩ := transfOf_spec E hn (dimLinear n coefs.data) t2 t3 t4
    refine ⟨f, h1, h2, fun p hp => (h3 p hp).trans (dimLinear_value n hn _ p), fun x hx => ?_⟩
    obtain ⟨y, hy, -, h5⟩ := h4 x hx
    exact h5 (dimLinear_gradient n hn _ y hy)
  · unfold createDimLinear
    by_cases h : coefs.size = 4 ∨ coefs.size = 8
    · rw [check_pos h]
      refine check_neg ?_
      rw [ht]
      rcases hn with rfl | rfl <;> simpa using hs
    · exact check_neg h

/-! ### Boxes -/

/-- **C78**, `create_box` without transformation: in two dimensions (the default) or three, a function that is negative exactly inside
`[-1, 1]^dim`, whose value is the greatest of the `|p_i| - 1`. Other dimensions raise an AssertionError. -/
theorem C78_box (E : Env) (hE : E.Ok) (dim : Option Nat) :
    (dim.getD 2 = 2 ∨ dim.getD 2 = 3 → ∃ f, createBox E none dim = .ok f ∧ f.dim = dim.getD 2 ∧
      ∀ p, p.length = f.dim → (∃ i, i < f.dim ∧ f.value p = |p.getD i 0| - 1) ∧ (∀ i, i < f.dim → |p.getD i 0| - 1 ≤ f.value p) ∧
        (f.value p < 0 ↔ ∀ i, i < f.dim → |p.getD i 0| < 1)) ∧
    (¬ (dim.getD 2 = 2 ∨ dim.getD 2 = 3) → createBox E none dim = .error .assertion) := by
  refine ⟨fun hd => ?_, fun h => check_neg h⟩
  have key : createBox E none dim = transfOf E (dim.getD 2) (Func.square (dim.getD 2)) (identity (dim.getD 2)) := by
    unfold createBox
    simp only
    rw [check_pos hd]
    rcases hd with h | h
    · rw [h, if_pos rfl]
      exact call_square2 E
    · rw [h, if_neg (by decide)]
      exact call_square3 E
  rw [key]
  obtain ⟨f, h1, h2, h3⟩ := transfOf_identity E hE hd (Func.square (dim.getD 2))
  refine ⟨f, h1, h2, fun p hp => ?_⟩
  rw [h2] at hp ⊢
  rw [(h3 p hp).1]
  obtain ⟨a, b, c, -⟩ := Func.C43_square_value (dim.getD 2) (by omega) p
  exact ⟨a, b, c⟩

/-- **C78** fails: no transformed box can be created. Without the dimension (2 by default, according to the documentation)
`create_box` raises an AssertionError; with it, a TypeError, because the C++ functions it calls take no arguments. -/
theorem C78_transformed_box_fails (E : Env) (t : Aff) (dim : Option Nat) :
    createBox E (some t) none = .error .assertion ∧
    createBox E (some t) dim = (if dim = some (if t.dim = 2 then 2 else 3) then .error .type else .error .assertion) := by
  have h : ∀ dim, createBox E (some t) dim =
      if dim = some (if t.dim = 2 then 2 else 3) then .error .type else .error .assertion := by
    intro dim
    unfold createBox
    simp only [call_square2_arg, call_square3_arg, ite_self]
    by_cases hc : dim = some (if t.dim = 2 then 2 else 3)
    · rw [check_pos hc, if_pos hc]
    · rw [check_neg hc, if_neg hc]
  refine ⟨?_, h dim⟩
  rw [h none]
  simp

/-! ### Arithmetic -/

/-- **C78**, `create_negative`: the negative of every function of the module, with exact gradients where the given ones are. -/
theorem C78_negative (E : Env) (f : CppFunc) (hf : Built E f) :
    ∃ g, createNegative E f = .ok g ∧ g.dim = f.dim ∧ ∀ p, p.length = f.dim →
      g.value p = -f.value p ∧ (Exact f p → Exact g p) := by
  have hg := built_good hf
  unfold createNegative
  rw [call_negative, if_pos hg.1]
  obtain ⟨dim, rep⟩ := f
  cases rep with
  | bez q =>
    obtain ⟨hw, hl⟩ := hg.2 q rfl
    have hval : ∀ p : List ℝ, p.length = dim → Bez.eval (negate ℝ q) p = -Bez.eval q p := fun p hp =>
      (C34_negate (K := ℝ) q hw p (hp.trans hl.symm)).2
    have hn : Good ⟨dim, .bez (negate ℝ q)⟩ := good_negative hg rfl
    refine ⟨⟨dim, .bez (negate ℝ q)⟩, rfl, rfl, fun p hp => ⟨hval p hp, fun _ => ?_⟩⟩
    obtain ⟨hw', hl'⟩ := hn.2 _ rfl
    exact bez_gradient _ hw' p (hp.trans hl'.symm)
  | gen g =>
    refine ⟨⟨dim, .gen g.neg⟩, rfl, rfl, fun p hp => ⟨rfl, fun h => ?_⟩⟩
    have h' : IsGradient g.eval p (g.grad p) := h
    refine ⟨by simpa [CppFunc.gradient, Func.neg] using h'.1, fun v hv => ?_⟩
    exact ((h'.2 v hv).neg).congr_deriv (Func.dot_map_neg _ _).symm

theorem func_eval (f : CppFunc) (p : List ℝ) : f.func.eval p = f.value p ∧ f.func.grad p = f.gradient p := by
  unfold CppFunc.func CppFunc.value CppFunc.gradient
  cases f.rep <;> exact ⟨rfl, rfl⟩

/-- **C78**, `create_functions_addition` and `create_functions_subtraction`: for every two functions of the module of the same
dimension, the sum and the difference, with exact gradients where the given ones are; functions of different dimensions raise a
TypeError. -/
theorem C78_sum_difference (E : Env) (f g : CppFunc) (hf : Built E f) (hg : Built E g) :
    (f.dim = g.dim →
      (∃ h, createAddition E f g = .ok h ∧ h.dim = f.dim ∧ ∀ p, p.length = f.dim →
        h.value p = f.value p + g.value p ∧ (Exact f p → Exact g p → Exact h p)) ∧
      (∃ h, createSubtraction E f g = .ok h ∧ h.dim = f.dim ∧ ∀ p, p.length = f.dim →
        h.value p = f.value p - g.value p ∧ (Exact f p → Exact g p → Exact h p))) ∧
    (f.dim ≠ g.dim → createAddition E f g = .error .type ∧ createSubtraction E f g = .error .type) := by
  have hgf := built_good hf
  have hgg := built_good hg
  unfold createAddition createSubtraction
  rw [call_addition, call_subtraction]
  refine ⟨fun hd => ?_, fun hd => ⟨if_neg (by omega), if_neg (by omega)⟩⟩
  have hc : (f.dim = 2 ∧ g.dim = 2) ∨ (f.dim = 3 ∧ g.dim = 3) := by
    rcases hgf.1 with h | h <;> omega
  rw [if_pos hc, if_pos hc]
  by_cases hb : ∃ p q, f.rep = .bez p ∧ g.rep = .bez q
  · obtain ⟨p, q, hp, hq⟩ := hb
    obtain ⟨p1, p2⟩ := hgf.2 p hp
    obtain ⟨q1, q2⟩ := hgg.2 q hq
    have e1 : ∀ x, f.value x = Bez.eval p x := fun x => by simp only [CppFunc.value, hp]
    have e2 : ∀ x, g.value x = Bez.eval q x := fun x => by simp only [CppFunc.value, hq]
    constructor
    · obtain ⟨s, hs, -, sw, sv⟩ := C34_sum (K := ℝ) p q p1 q1 (by omega) (by rcases hgf.1 with h | h <;> omega)
      have ha : additionOf f g = .ok ⟨f.dim, .bez s⟩ := by
        unfold additionOf
        rw [hp, hq]
        simp only [hs]
      refine ⟨_, ha, rfl, fun x hx => ⟨?_, fun _ _ => ?_⟩⟩
      · rw [e1, e2]
        exact sv x (by omega)
      · obtain ⟨w1, w2⟩ := (good_addition hgf hgg hd.symm ha).2 s rfl
        exact bez_gradient s w1 x (hx.trans w2.symm)
    · obtain ⟨s, hs, -, sw, sv⟩ := C34_difference (K := ℝ) p q p1 q1 (by omega) (by rcases hgf.1 with h | h <;> omega)
      have ha : subtractionOf f g = .ok ⟨f.dim, .bez s⟩ := by
        unfold subtractionOf
        rw [hp, hq]
        simp only [hs]
      refine ⟨_, ha, rfl, fun x hx => ⟨?_, fun _ _ => ?_⟩⟩
      · rw [e1, e2]
        exact sv x (by omega)
      · obtain ⟨w1, w2⟩ := (good_subtraction hgf hgg hd.symm ha).2 s rfl
        exact bez_gradient s w1 x (hx.trans w2.symm)
  · have ha : additionOf f g = .ok ⟨f.dim, .gen (f.func.add g.func)⟩ := by
      unfold additionOf
      split
      · rename_i p q hp hq
        exact absurd ⟨p, q, hp, hq⟩ hb
      · rfl
    have hs : subtractionOf f g = .ok ⟨f.dim, .gen (f.func.sub g.func)⟩ := by
      unfold subtractionOf
      split
      · rename_i p q hp hq
        exact absurd ⟨p, q, hp, hq⟩ hb
      · rfl
    have hfe : ∀ h : CppFunc, h.func.eval = h.value := fun h => funext fun x => (func_eval h x).1
    refine ⟨⟨_, ha, rfl, fun x hx => ⟨?_, fun h1 h2 => ?_⟩⟩, ⟨_, hs, rfl, fun x hx => ⟨?_, fun h1 h2 => ?_⟩⟩⟩
    · show f.func.eval x + g.func.eval x = _
      rw [(func_eval f x).1, (func_eval g x).1]
    · refine ⟨?_, fun v hv => ?_⟩
      · show (List.zipWith _ (f.func.grad x) (g.func.grad x)).length = _
        rw [(func_eval f x).2, (func_eval g x).2, List.length_zipWith, h1.1, h2.1, min_self]
      · simp only [CppFunc.gradient, CppFunc.value, Func.add, (func_eval f x).2, (func_eval g x).2, hfe]
        exact ((h1.2 v hv).add (h2.2 v hv)).congr_deriv (Func.dot_zip_add _ _ _ (h1.1.trans h2.1.symm)).symm
    · show f.func.eval x - g.func.eval x = _
      rw [(func_eval f x).1, (func_eval g x).1]
    · refine ⟨?_, fun v hv => ?_⟩
      · show (List.zipWith _ (f.func.grad x) (g.func.grad x)).length = _
        rw [(func_eval f x).2, (func_eval g x).2, List.length_zipWith, h1.1, h2.1, min_self]
      · simp only [CppFunc.gradient, CppFunc.value, Func.sub, (func_eval f x).2, (func_eval g x).2, hfe]
        exact ((h1.2 v hv).sub (h2.2 v hv)).congr_deriv (Func.dot_zip_sub _ _ _ (h1.1.trans h2.1.symm)).symm

/-! ### Triply periodic surfaces -/

/-- The factories of the six surfaces and their functions, for the angles `a`, `b`, `c` in the three directions. -/
noncomputable def surfaceFormulas :
    List ((Env → NdArr → Option ℝ → Except Err CppFunc) × (ℝ → ℝ → ℝ → ℝ)) :=
  open Real in
  [(createSchoen, fun a b c => sin a * cos b + sin b * cos c + sin c * cos a),
   (createSchoenIWP, fun a b c => 2 * (cos a * cos b + cos b * cos c + cos c * cos a) - cos (2 * a) - cos (2 * b) - cos (2 * c)),
   (createSchoenFRD, fun a b c =>
      4 * cos a * cos b * cos c - cos (2 * a) * cos (2 * b) - cos (2 * b) * cos (2 * c) - cos (2 * c) * cos (2 * a)),
   (createFischerKochS, fun a b c =>
      cos (2 * a) * sin b * cos c + cos a * cos (2 * b) * sin c + sin a * cos b * cos (2 * c)),
   (createSchwarzPrimitive, fun a b c => cos a + cos b + cos c),
   (createSchwarzDiamond, fun a b c => cos a * cos b * cos c - sin a * sin b * sin c)]

/-- **C78**, the six surfaces: with three parameters `m` the function of the surface at the angles `2 pi m_i p_i`; with two, the same with
the constant angle `2 pi z` in the third direction, `z = 0` by default. The gradients are exact except for the IWP surface with different
parameters in the first two directions. Three parameters together with `z`, and other numbers of parameters, raise an AssertionError. -/
theorem C78_surfaces_partial (E : Env) (mk : Env → NdArr → Option ℝ → Except Err CppFunc) (F : ℝ → ℝ → ℝ → ℝ)
    (hmk : (mk, F) ∈ surfaceFormulas) (m : NdArr) (z : Option ℝ) :
    (IsVec 3 m → z = none → ∃ f, mk E m z = .ok f ∧ f.dim = 3 ∧
      (∀ p, p.length = 3 → f.value p = F (2 * Real.pi * m.data.getD 0 0 * p.getD 0 0) (2 * Real.pi * m.data.getD 1 0 * p.getD 1 0)
        (2 * Real.pi * m.data.getD 2 0 * p.getD 2 0)) ∧
      (mk ≠ createSchoenIWP ∨ m.data.getD 0 0 = m.data.getD 1 0 → ∀ p, p.length = 3 → Exact f p)) ∧
    (IsVec 2 m → ∃ f, mk E m z = .ok f ∧ f.dim = 2 ∧
      (∀ p, p.length = 2 → f.value p = F (2 * Real.pi * m.data.getD 0 0 * p.getD 0 0) (2 * Real.pi * m.data.getD 1 0 * p.getD 1 0)
        (2 * Real.pi * z.getD 0)) ∧
      (mk ≠ createSchoenIWP ∨ m.data.getD 0 0 = m.data.getD 1 0 → ∀ p, p.length = 2 → Exact f p)) ∧
    (m.size ≠ 2 → m.size ≠ 3 → mk E m z = .error .assertion) ∧
    (m.size = 3 → z ≠ none → mk E m z = .error .assertion) := by
  have key : ∃ name s, mk = (fun E => createTpms E name) ∧ (name, s) ∈ surfaces ∧
      (∀ (m p : List ℝ), s.eval m p = F (2 * Real.pi * m.getD 0 0 * p.getD 0 0) (2 * Real.pi * m.getD 1 0 * p.getD 1 0)
        (2 * Real.pi * m.getD 2 0 * p.getD 2 0)) ∧
      (∀ m : List ℝ, mk ≠ createSchoenIWP ∨ m.getD 0 0 = m.getD 1 0 →
        (∀ p, p.length = 3 → IsGradient (s.func3 m).eval p ((s.func3 m).grad p)) ∧
        ∀ z p, p.length = 2 → IsGradient (s.func2 m z).eval p ((s.func2 m z).grad p)) := by
    simp only [surfaceFormulas, List.mem_cons, Prod.mk.injEq, List.not_mem_nil, or_false] at hmk
    rcases hmk with ⟨rfl, rfl⟩ | ⟨rfl, rfl⟩ | ⟨rfl, rfl⟩ | ⟨rfl, rfl⟩ | ⟨rfl, rfl⟩ | ⟨rfl, rfl⟩
    · refine ⟨"create_Schoen", Tpms.schoen, rfl, by simp [surfaces], fun m p => rfl, fun m _ => ⟨fun p hp => ?_, fun z p hp => ?_⟩⟩
      · exact (Tpms.C46_gyroid_hessian_fails m p hp).1
      · exact ((Tpms.C46_exact_derivatives m z).2 _ (by simp) p hp).1
    · refine ⟨"create_SchoenIWP", Tpms.schoenIWP, rfl, by simp [surfaces], fun m p => rfl, fun m h => ?_⟩
      have h' := h.resolve_left fun h => h rfl
      refine ⟨fun p hp => ?_, fun z p hp => ?_⟩
      · exact (((Tpms.C46_iwp_partial m 0).1 h').1 p hp).1
      · exact (((Tpms.C46_iwp_partial m z).1 h').2 p hp).1
    · refine ⟨"create_SchoenFRD", Tpms.schoenFRD, rfl, by simp [surfaces], fun m p => rfl, fun m _ => ⟨fun p hp => ?_, fun z p hp => ?_⟩⟩
      · exact ((Tpms.C46_exact_derivatives m 0).1 _ (by simp) p hp).1
      · exact ((Tpms.C46_exact_derivatives m z).2 _ (by simp) p hp).1
    · refine ⟨"create_FischerKochS", Tpms.fischerKochS, rfl, by simp [surfaces], fun m p => rfl,
        fun m _ => ⟨fun p hp => ?_, fun z p hp => ?_⟩⟩
      · exact ((Tpms.C46_exact_derivatives m 0).1 _ (by simp) p hp).1
      · exact ((Tpms.C46_exact_derivatives m z).2 _ (by simp) p hp).1
    · refine ⟨"create_SchwarzPrimitive", Tpms.schwarzPrimitive, rfl, by simp [surfaces], fun m p => rfl,
        fun m _ => ⟨fun p hp => ?_, fun z p hp => ?_⟩⟩
      · exact ((Tpms.C46_exact_derivatives m 0).1 _ (by simp) p hp).1
      · exact ((Tpms.C46_exact_derivatives m z).2 _ (by simp) p hp).1
    · refine ⟨"create_SchwarzDiamond", Tpms.schwarzDiamond, rfl, by simp [surfaces], fun m p => rfl,
        fun m _ => ⟨fun p hp => ?_, fun z p hp => ?_⟩⟩
      · exact ((Tpms.C46_exact_derivatives m 0).1 _ (by simp) p hp).1
      · exact ((Tpms.C46_exact_derivatives m z).2 _ (by simp) p hp).1
  obtain ⟨name, s, hname, hs, hval, hgrad⟩ := key
  have hmk' : mk E m z = createTpms E name m z := by rw [hname]
  refine ⟨fun hv hz => ?_, fun hv => ?_, fun h2 h3 => ?_, fun h3 hz => ?_⟩
  · subst hz
    have hcall : createTpms E name m none = .ok ⟨3, .gen (s.func3 m.data)⟩ := by
      unfold createTpms
      rw [check_pos (Or.inr hv.size), check_pos (Or.inr rfl)]
      simp only [call_tpms E name s hs, hv.1]
      rfl
    refine ⟨_, hmk'.trans hcall, rfl, fun p _ => hval m.data p, fun h p hp => (hgrad m.data h).1 p hp⟩
  · have hcall : createTpms E name m z = .ok ⟨2, .gen (s.func2 m.data (z.getD 0))⟩ := by
      unfold createTpms
      rw [check_pos (Or.inl hv.size), check_pos (Or.inl hv.size)]
      cases z with
      | none => simp only [call_tpms E name s hs, hv.1, if_true]; rfl
      | some z => simp only [call_tpms_z E name s hs, hv.1, if_true]; rfl
    refine ⟨_, hmk'.trans hcall, rfl, fun p _ => ?_, fun h p hp => (hgrad m.data h).2 _ p hp⟩
    refine (hval [vat m.data 0, vat m.data 1, 1] [vat p 0, vat p 1, z.getD 0]).trans ?_
    simp [vat]
  · rw [hmk']
    exact check_neg (by omega)
  · rw [hmk']
    unfold createTpms
    rw [check_pos (Or.inr h3)]
    exact check_neg fun h => h.elim (by omega) hz

/-- **C78** fails: the arguments called periods are not the periods of the surfaces, but the numbers of periods per unit of length. With
`periods = [1/2, 1/2, 1/2]` the Schwarz primitive function does not have the period 1/2; it has the period 2. -/
theorem C78_periods_fail (E : Env) (m : NdArr) (hm : IsVec 3 m) (h : m.data = [1 / 2, 1 / 2, 1 / 2]) :
    ∃ f, createSchwarzPrimitive E m none = .ok f ∧ f.value [1 / 2, 0, 0] ≠ f.value [0, 0, 0] ∧
      ∀ x y z, f.value [x + 2, y, z] = f.value [x, y, z] := by
  obtain ⟨f, h1, -, h2, -⟩ := (C78_surfaces_partial E createSchwarzPrimitive
    (fun a b c => Real.cos a + Real.cos b + Real.cos c) (by simp [surfaceFormulas]) m none).1 hm rfl
  refine ⟨f, h1, ?_, fun x y z => ?_⟩
  · rw [h2 _ rfl, h2 _ rfl, h]
    have e : Real.cos (2 * Real.pi * (1 / 2) * (1 / 2)) = 0 := by
      rw [show 2 * Real.pi * (1 / 2) * (1 / 2) = Real.pi / 2 by ring]
      exact Real.cos_pi_div_two
    simp only [List.getD_cons_zero, List.getD_cons_succ, mul_zero, Real.cos_zero, e]
    norm_num
  · rw [h2 _ rfl, h2 _ rfl, h]
    simp only [List.getD_cons_zero, List.getD_cons_succ]
    rw [show 2 * Real.pi * (1 / 2) * (x + 2) = 2 * Real.pi * (1 / 2) * x + 2 * Real.pi by ring, Real.cos_add_two_pi]

/-! ### Evaluation -/

/-- What NumPy stores in an array of the type of the points. -/
noncomputable def stored (E : Env) (a : NdArr) (x : ℝ) : ℝ := if a.single then E.round32 x else x

theorem row_eq (a : NdArr) (n N i : Nat) (hl : a.data.length = N * n) (hi : i < N) :
    a.row n i = (a.data.drop (i * n)).take n := by
  have hb : i * n + n ≤ N * n := by
    rw [show i * n + n = (i + 1) * n by ring]
    exact Nat.mul_le_mul_right n hi
  refine List.ext_getElem ?_ fun k h1 h2 => ?_
  · simp [NdArr.row, hl]
    omega
  · have hk : k < n := by simpa [NdArr.row] using h1
    have h3 : i * n + k < a.data.length := by omega
    simp [NdArr.row, List.getD_eq_getElem?_getD, List.getElem?_eq_getElem h3]

/-- **C78**, `eval` and `grad`: for an array of `N` points (one per row) of the dimension of the function, the array of the `N` values
and the array of `N` rows with the gradients, of the type of the points, in order. -/
theorem C78_evaluation (E : Env) (f : CppFunc) (pts : NdArr) (N : Nat) (hs : pts.shape = [N, f.dim])
    (hl : pts.data.length = N * f.dim) :
    (∃ r, eval E f pts = .ok r ∧ r.shape = [N] ∧ r.single = pts.single ∧ r.data.length = N ∧
      ∀ i, i < N → r.data.getD i 0 = stored E pts (f.value ((pts.data.drop (i * f.dim)).take f.dim))) ∧
    (∃ r, grad E f pts = .ok r ∧ r.shape = [N, f.dim] ∧ r.single = pts.single ∧ r.data.length = N * f.dim ∧
      ∀ i, i < N → ∀ d, d < f.dim → r.data.getD (i * f.dim + d) 0 =
        stored E pts ((f.gradient ((pts.data.drop (i * f.dim)).take f.dim)).getD d 0)) := by
  constructor
  · unfold eval withPoints
    rw [hs]
    simp only [if_true]
    refine ⟨_, rfl, rfl, rfl, ?_, fun i hi => ?_⟩
    · unfold result
      simp only
      split_ifs <;> simp
    · unfold result stored
      simp only
      rw [← row_eq pts f.dim N i hl hi]
      split_ifs <;> simp [List.getD_eq_getElem?_getD, hi]
  · unfold grad withPoints
    rw [hs]
    simp only [if_true]
    have hlen : ((List.range N).flatMap fun i => (List.range f.dim).map fun d => (f.gradient (pts.row f.dim i)).getD d 0).length
        = N * f.dim := by
      simp [List.length_flatMap]
    refine ⟨_, rfl, rfl, rfl, ?_, fun i hi d hd => ?_⟩
    · unfold result
      simp only
      split_ifs <;> simp [List.length_flatMap]
    · have hget : ((List.range N).flatMap fun i =>
          (List.range f.dim).map fun d => (f.gradient (pts.row f.dim i)).getD d 0)[i * f.dim + d]? =
          some ((f.gradient (pts.row f.dim i)).getD d 0) := by
        clear hlen hs hl
        induction N with
        | zero => omega
        | succ N ih =>
          rw [List.range_succ, List.flatMap_append]
          have hlen : ((List.range N).flatMap fun i =>
              (List.range f.dim).map fun d => (f.gradient (pts.row f.dim i)).getD d 0).length = N * f.dim := by
            simp [List.length_flatMap]
          by_cases hiN : i < N
          · have hb : i * f.dim + f.dim ≤ N * f.dim := by
              rw [show i * f.dim + f.dim = (i + 1) * f.dim by ring]
              exact Nat.mul_le_mul_right _ hiN
            rw [List.getElem?_append_left (by omega)]
            exact ih hiN
          · obtain rfl : i = N := by omega
            rw [List.getElem?_append_right (by omega), hlen]
            simp [hd]
      unfold result stored
      simp only
      rw [← row_eq pts f.dim N i hl hi]
      split_ifs
      · rw [List.getD_eq_getElem?_getD, List.getElem?_map, hget]
        rfl
      · rw [List.getD_eq_getElem?_getD, hget]
        rfl

/-- **C78**, points of other shapes are refused: an IndexError for arrays with less than two axes, an AssertionError for points of
another dimension, a TypeError for arrays with more axes. -/
theorem C78_evaluation_refused (E : Env) (f : CppFunc) (pts : NdArr) :
    (pts.shape.length < 2 → eval E f pts = .error .index ∧ grad E f pts = .error .index) ∧
    (∀ n d rest, pts.shape = n :: d :: rest → d ≠ f.dim → eval E f pts = .error .assertion ∧ grad E f pts = .error .assertion) ∧
    (∀ n rest, pts.shape = n :: f.dim :: rest → rest ≠ [] → eval E f pts = .error .type ∧ grad E f pts = .error .type) := by
  unfold eval grad withPoints
  refine ⟨fun h => ?_, fun n d rest h hd => ?_, fun n rest h hr => ?_⟩
  · match hsh : pts.shape, h with
    | [], _ => exact ⟨rfl, rfl⟩
    | [_], _ => exact ⟨rfl, rfl⟩
  · simp only [h, if_neg hd, and_self]
  · simp only [h, if_true, if_neg hr, and_self]

/-! ### Concrete cases -/

/-- An environment: the Euclidean norm of lists of real numbers, release build. -/
noncomputable def exampleEnv : Env := ⟨false, 1 / 10 ^ 12, 1 / 10 ^ 6, fun v => Real.sqrt (dot v v), id⟩

theorem dot_self_nonneg (v : List ℝ) : 0 ≤ dot v v := by
  unfold dot
  rw [List.zipWith_self]
  refine List.sum_nonneg fun x hx => ?_
  obtain ⟨a, -, rfl⟩ := List.mem_map.1 hx
  exact mul_self_nonneg a

theorem exampleEnv_ok : exampleEnv.Ok := by
  refine ⟨fun v => ⟨Real.sqrt_nonneg _, Real.mul_self_sqrt (dot_self_nonneg v)⟩, ?_, ?_, ?_, ?_⟩ <;>
    (simp only [exampleEnv]; norm_num)

/-- A disk of radius one around (1, 2) minus the disk of radius two at the origin, evaluated from Python at (1, 2) and (3, 2). -/
example : ∃ f g h r, createDisk exampleEnv 1 (some ⟨[2], [1, 2], false⟩) true = .ok f ∧ createDisk exampleEnv 2 none false = .ok g ∧
    createSubtraction exampleEnv f g = .ok h ∧ eval exampleEnv h ⟨[2, 2], [1, 2, 3, 2], false⟩ = .ok r ∧ r.data = [-2, -6] := by
  obtain ⟨f, f1, f2, f3⟩ := (C78_balls exampleEnv 1 (some ⟨[2], [1, 2], false⟩) true createDisk 2 (Or.inl ⟨rfl, rfl⟩)).2.1 one_pos
    (by rintro c ⟨⟩; exact ⟨rfl, rfl⟩)
  obtain ⟨g, g1, g2, g3⟩ := (C78_balls exampleEnv 2 none false createDisk 2 (Or.inl ⟨rfl, rfl⟩)).2.1 two_pos (by simp)
  have bf : Built exampleEnv f := by
    refine .call "create_disk" [.real 1, .arr ⟨[2], [1, 2], false⟩, .bool true] f (by simp) ?_
    have := (check_ok.1 (check_ok.1 f1).2).2
    exact this
  have bg : Built exampleEnv g := by
    refine .call "create_disk" [.real 2, .bool false] g (by simp) ?_
    exact (check_ok.1 g1).2
  obtain ⟨h, h1, h2, h3⟩ := ((C78_sum_difference exampleEnv f g bf bg).1 (f2.trans g2.symm)).2
  have hd : h.dim = 2 := h2.trans f2
  obtain ⟨r, r1, -, -, r2, r3⟩ := (C78_evaluation exampleEnv h ⟨[2, 2], [1, 2, 3, 2], false⟩ 2 (by rw [hd]) (by simp [hd])).1
  refine ⟨f, g, h, r, f1, g1, h1, r1, ?_⟩
  have e0 := r3 0 (by omega)
  have e1 := r3 1 (by omega)
  rw [hd] at e0 e1
  simp only [stored, Bool.false_eq_true, if_false, zero_mul, one_mul, List.drop_zero, List.take_succ_cons, List.take_zero,
    List.drop_succ_cons] at e0 e1
  rw [(h3 _ (by simp [f2])).1, (f3 _ rfl).1, (g3 _ rfl).1] at e0 e1
  obtain ⟨a, b, hab⟩ := len2 r2
  rw [hab] at e0 e1 ⊢
  simp [dist2, dot, List.replicate] at e0 e1
  rw [e0, e1]
  norm_num

end Qugar.Py.Impl
