import Verif.Props.Funcs
import Verif.Props.RefSystem
import Verif.Model.Primitives
/-
Property theorems C44 (primitive functions).
-/
namespace Qugar.Prim
open Spec

theorem dotp_eq {K : Type} [Field K] [LinearOrder K] (u v : List K) : dotp u v = dot u v := by
  unfold dotp dot
  rw [List.sum_eq_foldl]

macro "pd_unfold" : tactic => `(tactic| simp only [dotp, vsub, vat, List.zipWith_cons_cons, List.zipWith_nil_left,
    List.zipWith_nil_right, List.foldl_cons, List.foldl_nil, List.map_cons, List.map_nil,
    Ex.D, Ex.eval, List.range_succ, List.range_zero, List.nil_append, List.cons_append, List.getD_cons_zero,
    List.getD_cons_succ])
macro "pd3" : tactic => `(tactic| (refine congr3 ?_ ?_ ?_ <;> norm_num <;> ring))
macro "pd33" : tactic => `(tactic| (refine congr3 (congr3 ?_ ?_ ?_) (congr3 ?_ ?_ ?_) (congr3 ?_ ?_ ?_) <;> norm_num <;> ring))

theorem congr2 {α : Type} {a b a' b' : α} (h1 : a = a') (h2 : b = b') : [a, b] = [a', b'] := by rw [h1, h2]
macro "pd2" : tactic => `(tactic| (refine congr2 ?_ ?_ <;> norm_num <;> ring))
macro "pd22" : tactic => `(tactic| (refine congr2 (congr2 ?_ ?_) (congr2 ?_ ?_) <;> norm_num <;> ring))

/-- `x_i - c` -/
noncomputable def dEx (i : Nat) (c : ℝ) : Ex := .sub (.var i) (.const c)
noncomputable def sqEx (e : Ex) : Ex := .mul e e
noncomputable def d2Ex2 (a b : ℝ) : Ex := .add (sqEx (dEx 0 a)) (sqEx (dEx 1 b))
noncomputable def d2Ex3 (a b c : ℝ) : Ex := .add (d2Ex2 a b) (sqEx (dEx 2 c))
noncomputable def linEx3 (u v w a b c : ℝ) : Ex :=
  .add (.add (.mul (.const u) (dEx 0 a)) (.mul (.const v) (dEx 1 b))) (.mul (.const w) (dEx 2 c))
noncomputable def linEx2 (u v a b : ℝ) : Ex := .add (.mul (.const u) (dEx 0 a)) (.mul (.const v) (dEx 1 b))

/-- **C44**, spheres: exact derivatives in 2D and 3D. -/
theorem C44_sphere (dim : Nat) (hd : dim = 2 ∨ dim = 3) (r : ℝ) (c : List ℝ) (hc : c.length = dim) :
    ExactDerivatives dim (sphere dim r c).eval (sphere dim r c).grad (sphere dim r c).hess := by
  rcases hd with rfl | rfl
  · obtain ⟨a, b, rfl⟩ := len2 hc
    apply exact_of_ex 2 (.sub (d2Ex2 a b) (.const (r * r)))
    · intro x hx
      obtain ⟨x0, x1, rfl⟩ := len2 hx
      simp only [sphere, d2Ex2, sqEx, dEx]; pd_unfold; ring
    · intro x hx
      obtain ⟨x0, x1, rfl⟩ := len2 hx
      simp only [sphere, d2Ex2, sqEx, dEx]; pd_unfold; pd2
    · intro x hx
      obtain ⟨x0, x1, rfl⟩ := len2 hx
      simp only [sphere, d2Ex2, sqEx, dEx, if_true, symMatrix2]; pd_unfold; pd22
    · intro x _
      rfl
  · obtain ⟨a, b, c, rfl⟩ := len3 hc
    apply exact_of_ex 3 (.sub (d2Ex3 a b c) (.const (r * r)))
    · intro x hx
      obtain ⟨x0, x1, x2, rfl⟩ := len3 hx
      simp only [sphere, d2Ex3, d2Ex2, sqEx, dEx]; pd_unfold; ring
    · intro x hx
      obtain ⟨x0, x1, x2, rfl⟩ := len3 hx
      simp only [sphere, d2Ex3, d2Ex2, sqEx, dEx]; pd_unfold; pd3
    · intro x hx
      obtain ⟨x0, x1, x2, rfl⟩ := len3 hx
      simp only [sphere, d2Ex3, d2Ex2, sqEx, dEx, show ¬ (3 = 2) by decide, if_false, symMatrix3]; pd_unfold; pd33
    · intro x _
      rfl

/-- The cylinder with the Hessian of its function. -/
noncomputable def cylinderFixed (r : ℝ) (o ax : List ℝ) : Func ℝ :=
  ⟨(cylinder r o ax).eval, (cylinder r o ax).grad, fun _ => [2 - 2 * vat ax 0 * vat ax 0, -2 * vat ax 0 * vat ax 1,
    -2 * vat ax 0 * vat ax 2, 2 - 2 * vat ax 1 * vat ax 1, -2 * vat ax 1 * vat ax 2, 2 - 2 * vat ax 2 * vat ax 2]⟩

theorem cylinderFixed_exact (r : ℝ) (o ax : List ℝ) (ho : o.length = 3) (ha : ax.length = 3) :
    ExactDerivatives 3 (cylinderFixed r o ax).eval (cylinderFixed r o ax).grad (cylinderFixed r o ax).hess := by
  obtain ⟨a, b, c, rfl⟩ := len3 ho
  obtain ⟨u, v, w, rfl⟩ := len3 ha
  apply exact_of_ex 3 (.sub (.sub (d2Ex3 a b c) (sqEx (linEx3 u v w a b c))) (.const (r * r)))
  · intro x hx
    obtain ⟨x0, x1, x2, rfl⟩ := len3 hx
    simp only [cylinderFixed, cylinder, d2Ex3, d2Ex2, sqEx, dEx, linEx3]; pd_unfold; ring
  · intro x hx
    obtain ⟨x0, x1, x2, rfl⟩ := len3 hx
    simp only [cylinderFixed, cylinder, d2Ex3, d2Ex2, sqEx, dEx, linEx3]; pd_unfold; pd3
  · intro x hx
    obtain ⟨x0, x1, x2, rfl⟩ := len3 hx
    simp only [cylinderFixed, cylinder, d2Ex3, d2Ex2, sqEx, dEx, linEx3, symMatrix3]; pd_unfold; pd33
  · intro x _
    rfl

/-- **C44**, cylinders: the gradient is exact. The Hessian never is, for any axis other than zero. -/
theorem C44_cylinder (r : ℝ) (o ax : List ℝ) (ho : o.length = 3) (ha : ax.length = 3) (x : List ℝ) (hx : x.length = 3) :
    IsGradient (cylinder r o ax).eval x ((cylinder r o ax).grad x) ∧
    (IsHessian (cylinder r o ax).grad x ((cylinder r o ax).hess x) ↔ ∀ a ∈ ax, a = 0) := by
  have h := cylinderFixed_exact r o ax ho ha x hx
  refine ⟨h.1, ?_⟩
  obtain ⟨u, v, w, rfl⟩ := len3 ha
  constructor
  · intro h'
    have h0 := (h' 0 (by omega)).unique (h.2.1 0 (by omega))
    have h1 := (h' 1 (by omega)).unique (h.2.1 1 (by omega))
    have h2 := (h' 2 (by omega)).unique (h.2.1 2 (by omega))
    rw [hx] at h0 h1 h2
    simp only [cylinder, cylinderFixed, symMatrix3, vat, List.getD_cons_zero, List.getD_cons_succ,
      List.cons.injEq, and_true] at h0 h1 h2
    have hz : ∀ t : ℝ, (2 : ℝ) = 2 - 2 * t * t → t = 0 := by
      intro t ht
      have : t * t = 0 := by linarith
      exact mul_self_eq_zero.1 this
    intro a ha
    simp only [List.mem_cons, List.not_mem_nil, or_false] at ha
    rcases ha with rfl | rfl | rfl
    · exact hz _ h0.1
    · exact hz _ h1.2.1
    · exact hz _ h2.2.2
  · intro h'
    simp only [List.mem_cons, List.not_mem_nil, or_false, forall_eq_or_imp, forall_eq] at h'
    obtain ⟨rfl, rfl, rfl⟩ := h'
    have := h.2.1
    simpa [cylinderFixed, cylinder, vat] using this

/-- The default axis: the Hessian is wrong everywhere. -/
example (r : ℝ) (x : List ℝ) (hx : x.length = 3) :
    ¬ IsHessian (cylinder r [0, 0, 0] [0, 0, 1]).grad x ((cylinder r [0, 0, 0] [0, 0, 1]).hess x) := by
  rw [(C44_cylinder r [0, 0, 0] [0, 0, 1] rfl rfl x hx).2]
  simp

/-- **C44**, ellipses and ellipsoids: exact derivatives, for every origin, basis and semi-axes. -/
theorem C44_ellipsoid (dim : Nat) (hd : dim = 2 ∨ dim = 3) (semi o : List ℝ) (basis : List (List ℝ))
    (hs : semi.length = dim) (ho : o.length = dim) (hb : basis.length = dim) (hv : ∀ v ∈ basis, v.length = dim) :
    ExactDerivatives dim (ellipsoid dim semi o basis).eval (ellipsoid dim semi o basis).grad
      (ellipsoid dim semi o basis).hess := by
  rcases hd with rfl | rfl
  · obtain ⟨a, b, rfl⟩ := len2 ho
    obtain ⟨s0, s1, rfl⟩ := len2 hs
    obtain ⟨v0, v1, rfl⟩ := len2 hb
    obtain ⟨e00, e01, rfl⟩ := len2 (hv v0 (by simp))
    obtain ⟨e10, e11, rfl⟩ := len2 (hv v1 (by simp))
    apply exact_of_ex 2 (.add (.add (.const (-1)) (.mul (.const (1 / (s0 * s0))) (sqEx (linEx2 e00 e01 a b))))
      (.mul (.const (1 / (s1 * s1))) (sqEx (linEx2 e10 e11 a b))))
    · intro x hx
      obtain ⟨x0, x1, rfl⟩ := len2 hx
      simp only [ellipsoid, linEx2, sqEx, dEx]; pd_unfold; ring
    · intro x hx
      obtain ⟨x0, x1, rfl⟩ := len2 hx
      simp only [ellipsoid, linEx2, sqEx, dEx, List.replicate]; pd_unfold; pd2
    · intro x hx
      obtain ⟨x0, x1, rfl⟩ := len2 hx
      simp only [ellipsoid, linEx2, sqEx, dEx, if_true, List.replicate, Nat.reduceAdd, Nat.reduceMul, Nat.reduceDiv]
      pd_unfold
      rw [symMatrix2]
      pd22
    · intro x _
      simp [ellipsoid, List.range_succ]
  · obtain ⟨a, b, c, rfl⟩ := len3 ho
    obtain ⟨s0, s1, s2, rfl⟩ := len3 hs
    obtain ⟨v0, v1, v2, rfl⟩ := len3 hb
    obtain ⟨e00, e01, e02, rfl⟩ := len3 (hv v0 (by simp))
    obtain ⟨e10, e11, e12, rfl⟩ := len3 (hv v1 (by simp))
    obtain ⟨e20, e21, e22, rfl⟩ := len3 (hv v2 (by simp))
    apply exact_of_ex 3 (.add (.add (.add (.const (-1)) (.mul (.const (1 / (s0 * s0))) (sqEx (linEx3 e00 e01 e02 a b c))))
      (.mul (.const (1 / (s1 * s1))) (sqEx (linEx3 e10 e11 e12 a b c))))
      (.mul (.const (1 / (s2 * s2))) (sqEx (linEx3 e20 e21 e22 a b c))))
    · intro x hx
      obtain ⟨x0, x1, x2, rfl⟩ := len3 hx
      simp only [ellipsoid, linEx3, sqEx, dEx]; pd_unfold; ring
    · intro x hx
      obtain ⟨x0, x1, x2, rfl⟩ := len3 hx
      simp only [ellipsoid, linEx3, sqEx, dEx, List.replicate]; pd_unfold; pd3
    · intro x hx
      obtain ⟨x0, x1, x2, rfl⟩ := len3 hx
      simp only [ellipsoid, linEx3, sqEx, dEx, show ¬ (3 = 2) by decide, if_false, List.replicate, Nat.reduceAdd,
        Nat.reduceMul, Nat.reduceDiv]
      pd_unfold
      rw [symMatrix3]
      pd33
    · intro x _
      simp [ellipsoid, List.range_succ]

/-- The annulus with the gradient and Hessian of its function. -/
noncomputable def annulusFixed (ri ro : ℝ) (c : List ℝ) : Func ℝ :=
  ⟨(annulus ri ro c).eval,
   fun p => (vsub p c).map ((4 * dotp (vsub p c) (vsub p c) - 2 * (ri * ri) - 2 * (ro * ro)) * ·),
   fun p => [4 * dotp (vsub p c) (vsub p c) - 2 * (ri * ri) - 2 * (ro * ro) + 8 * vat (vsub p c) 0 * vat (vsub p c) 0,
     8 * vat (vsub p c) 0 * vat (vsub p c) 1,
     4 * dotp (vsub p c) (vsub p c) - 2 * (ri * ri) - 2 * (ro * ro) + 8 * vat (vsub p c) 1 * vat (vsub p c) 1]⟩

theorem annulusFixed_exact (ri ro : ℝ) (c : List ℝ) (hc : c.length = 2) :
    ExactDerivatives 2 (annulusFixed ri ro c).eval (annulusFixed ri ro c).grad (annulusFixed ri ro c).hess := by
  obtain ⟨a, b, rfl⟩ := len2 hc
  apply exact_of_ex 2 (.add (.mul (.sub (.sub (d2Ex2 a b) (.const (ri * ri))) (.const (ro * ro))) (d2Ex2 a b))
    (.const ((ri * ri) * (ro * ro))))
  · intro x hx
    obtain ⟨x0, x1, rfl⟩ := len2 hx
    simp only [annulusFixed, annulus, d2Ex2, sqEx, dEx]; pd_unfold; ring
  · intro x hx
    obtain ⟨x0, x1, rfl⟩ := len2 hx
    simp only [annulusFixed, annulus, d2Ex2, sqEx, dEx]; pd_unfold; pd2
  · intro x hx
    obtain ⟨x0, x1, rfl⟩ := len2 hx
    simp only [annulusFixed, annulus, d2Ex2, sqEx, dEx, symMatrix2]; pd_unfold; pd22
  · intro x _
    rfl

/-- **C44**, negated for annuli: the gradient is exact at the centre only. -/
theorem C44_annulus_gradient_fails (ri ro : ℝ) (h0 : 0 < ri) (h1 : ri < ro) (c x : List ℝ) (hc : c.length = 2)
    (hx : x.length = 2) : IsGradient (annulus ri ro c).eval x ((annulus ri ro c).grad x) ↔ x = c := by
  have h := (annulusFixed_exact ri ro c hc x hx).1
  obtain ⟨a, b, rfl⟩ := len2 hc
  obtain ⟨x0, x1, rfl⟩ := len2 hx
  have hpos : 0 < ri * ri + ro * ro := by nlinarith
  constructor
  · intro h'
    have e := h'.unique h
    simp only [annulus, annulusFixed] at e
    simp only [dotp, vsub, List.zipWith_cons_cons, List.zipWith_nil_left, List.foldl_cons, List.foldl_nil,
      List.map_cons, List.map_nil, List.cons.injEq, and_true] at e
    have e0 : (ri * ri + ro * ro) * (x0 - a) = 0 := by linear_combination e.1
    have e1 : (ri * ri + ro * ro) * (x1 - b) = 0 := by linear_combination e.2
    rcases mul_eq_zero.1 e0 with h2 | h2
    · exact absurd h2 hpos.ne'
    rcases mul_eq_zero.1 e1 with h3 | h3
    · exact absurd h3 hpos.ne'
    rw [sub_eq_zero.1 h2, sub_eq_zero.1 h3]
  · intro hxc
    simp only [List.cons.injEq, and_true] at hxc
    obtain ⟨rfl, rfl⟩ := hxc
    have : (annulus ri ro [x0, x1]).grad [x0, x1] = (annulusFixed ri ro [x0, x1]).grad [x0, x1] := by
      simp [annulus, annulusFixed, vsub, dotp]
    rw [this]
    exact h

/-- **C44**, negated for annuli: the Hessian is not the one of the function anywhere: whatever exact gradient one
differentiates, the matrix of second derivatives differs from the returned one. -/
theorem C44_annulus_hessian_fails (ri ro : ℝ) (h0 : 0 < ri) (h1 : ri < ro) (c x : List ℝ) (hc : c.length = 2)
    (hx : x.length = 2) (G : List ℝ → List ℝ) (hG : ∀ y, y.length = 2 → IsGradient (annulus ri ro c).eval y (G y)) :
    ¬ IsHessian G x ((annulus ri ro c).hess x) := by
  intro h'
  have h := annulusFixed_exact ri ro c hc
  have hsame : ∀ y, y.length = 2 → G y = (annulusFixed ri ro c).grad y := fun y hy => (hG y hy).unique (h y hy).1
  have hpos : 0 < ri * ri + ro * ro := by nlinarith
  have h2 := (h' 0 (by omega)).2
  have h3 : IsGradient (fun y => ((annulusFixed ri ro c).grad y).getD 0 0) x
      ((symMatrix x.length ((annulus ri ro c).hess x)).getD 0 []) := by
    refine ⟨(h' 0 (by omega)).1, fun v hv => (h2 v hv).congr_of_eventuallyEq (Filter.Eventually.of_forall fun t => ?_)⟩
    simp only
    rw [hsame _ (by simp [along, hv, hx])]
  have e := h3.unique ((h x hx).2.1 0 (by omega))
  rw [hx] at e
  simp only [annulus, annulusFixed, symMatrix2, List.getD_cons_zero, List.cons.injEq, and_true] at e
  linarith [e]

/-- **C44**, tori: exact derivatives for every axis. -/
theorem C44_torus (R r : ℝ) (c ax : List ℝ) (hc : c.length = 3) (ha : ax.length = 3) :
    ExactDerivatives 3 (torus R r c ax).eval (torus R r c ax).grad (torus R r c ax).hess := by
  obtain ⟨a, b, c, rfl⟩ := len3 hc
  obtain ⟨u, v, w, rfl⟩ := len3 ha
  apply exact_of_ex 3 (.add (.add (.sub (sqEx (d2Ex3 a b c)) (.mul (.const (2 * (R * R + r * r))) (d2Ex3 a b c)))
    (.mul (.const (4 * (R * R))) (sqEx (linEx3 u v w a b c)))) (.const ((R * R - r * r) * (R * R - r * r))))
  · intro x hx
    obtain ⟨x0, x1, x2, rfl⟩ := len3 hx
    simp only [torus, d2Ex3, d2Ex2, sqEx, dEx, linEx3]; pd_unfold; ring
  · intro x hx
    obtain ⟨x0, x1, x2, rfl⟩ := len3 hx
    simp only [torus, d2Ex3, d2Ex2, sqEx, dEx, linEx3]; pd_unfold; pd3
  · intro x hx
    obtain ⟨x0, x1, x2, rfl⟩ := len3 hx
    simp only [torus, d2Ex3, d2Ex2, sqEx, dEx, linEx3]
    have hflat : ∀ f : Nat → Nat → ℝ, ((List.range 3).flatMap fun i => (List.range' i (3 - i)).map fun j => f i j) =
        [f 0 0, f 0 1, f 0 2, f 1 1, f 1 2, f 2 2] := by
      intro f
      simp [List.range_succ, List.range']
    rw [hflat, symMatrix3]
    pd_unfold
    pd33
  · intro x _
    simp [torus, List.range_succ, List.range']

/-- **C44**, constants and planes: exact derivatives. -/
theorem C44_constant_plane (dim : Nat) (hd : dim = 2 ∨ dim = 3) (value : ℝ) (o n : List ℝ) (ho : o.length = dim)
    (hn : n.length = dim) :
    ExactDerivatives dim (constant dim value).eval (constant dim value).grad (constant dim value).hess ∧
    ExactDerivatives dim (plane dim o n).eval (plane dim o n).grad (plane dim o n).hess := by
  rcases hd with rfl | rfl
  · obtain ⟨a, b, rfl⟩ := len2 ho
    obtain ⟨u, v, rfl⟩ := len2 hn
    constructor
    · apply exact_of_ex 2 (.const value)
      · intro x hx
        rfl
      · intro x hx
        simp [constant, Ex.D, Ex.eval, List.range_succ, List.replicate]
      · intro x hx
        simp [constant, Ex.D, Ex.eval, List.range_succ, symMatrix, List.replicate]
      · intro x _
        rfl
    · apply exact_of_ex 2 (linEx2 u v a b)
      · intro x hx
        obtain ⟨x0, x1, rfl⟩ := len2 hx
        simp only [plane, linEx2, dEx]; pd_unfold; ring
      · intro x hx
        simp only [plane, linEx2, dEx]; pd_unfold; pd2
      · intro x hx
        simp only [plane, linEx2, dEx, List.replicate, Nat.reduceAdd, Nat.reduceMul, Nat.reduceDiv]
        rw [symMatrix2]
        pd_unfold
        pd22
      · intro x _
        rfl
  · obtain ⟨a, b, c, rfl⟩ := len3 ho
    obtain ⟨u, v, w, rfl⟩ := len3 hn
    constructor
    · apply exact_of_ex 3 (.const value)
      · intro x hx
        rfl
      · intro x hx
        simp [constant, Ex.D, Ex.eval, List.range_succ, List.replicate]
      · intro x hx
        simp [constant, Ex.D, Ex.eval, List.range_succ, symMatrix, List.replicate]
      · intro x _
        rfl
    · apply exact_of_ex 3 (linEx3 u v w a b c)
      · intro x hx
        obtain ⟨x0, x1, x2, rfl⟩ := len3 hx
        simp only [plane, linEx3, dEx]; pd_unfold; ring
      · intro x hx
        simp only [plane, linEx3, dEx]; pd_unfold; pd3
      · intro x hx
        simp only [plane, linEx3, dEx, List.replicate, Nat.reduceAdd, Nat.reduceMul, Nat.reduceDiv]
        rw [symMatrix3]
        pd_unfold
        pd33
      · intro x _
        rfl

end Qugar.Prim
