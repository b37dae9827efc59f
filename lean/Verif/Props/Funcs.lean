import Verif.Props.Affine
import Verif.Lemmas.Calculus
import Verif.Model.Funcs
/-
Property theorems C27 (chain rule of transformed functions) and C43 (function combinators).
-/
namespace Qugar
open Spec

theorem symMatrix2 {K : Type} [Zero K] (a b c : K) : symMatrix 2 [a, b, c] = [[a, b], [b, c]] := by
  simp [symMatrix, List.range_succ]
theorem symMatrix3 {K : Type} [Zero K] (a b c d e f : K) :
    symMatrix 3 [a, b, c, d, e, f] = [[a, b, c], [b, d, e], [c, e, f]] := by
  simp [symMatrix, List.range_succ]

theorem exact_of_ex (dim : Nat) (e : Ex) (F : Func ℝ) (he : ∀ x, x.length = dim → F.eval x = e.eval x)
    (hg : ∀ x, x.length = dim → F.grad x = (List.range dim).map fun i => (Ex.D i e).eval x)
    (hh : ∀ x, x.length = dim → symMatrix dim (F.hess x) =
      (List.range dim).map fun i => (List.range dim).map fun j => (Ex.D j (Ex.D i e)).eval x)
    (hl : ∀ x, x.length = dim → (F.hess x).length = dim * (dim + 1) / 2) :
    ExactDerivatives dim F.eval F.grad F.hess := by
  intro x hx
  have hal : ∀ v t, v.length = x.length → (along x v t).length = dim := by
    intro v t hv
    simp [along, hv, hx]
  refine ⟨?_, ?_, hl x hx⟩
  · have h := Ex.isGradient e x
    rw [hx, ← hg x hx] at h
    refine ⟨h.1, fun v hv => ?_⟩
    have := h.2 v hv
    refine this.congr_of_eventuallyEq (Filter.Eventually.of_forall fun t => ?_)
    exact he _ (hal v t hv)
  · intro i hi
    rw [hx, hh x hx]
    have hi' : i < dim := hx ▸ hi
    have : ((List.range dim).map fun i => (List.range dim).map fun j => (Ex.D j (Ex.D i e)).eval x).getD i [] =
        (List.range dim).map fun j => (Ex.D j (Ex.D i e)).eval x := by
      simp [List.getD_eq_getElem?_getD, hi']
    rw [this]
    have h := Ex.isGradient (Ex.D i e) x
    rw [hx] at h
    refine ⟨h.1, fun v hv => ?_⟩
    refine (h.2 v hv).congr_of_eventuallyEq (Filter.Eventually.of_forall fun t => ?_)
    simp only
    rw [hg _ (hal v t hv), Ex.getD_map_range _ _ _ hi']

namespace Func

/-- The linear part of a transformation applied to a direction. -/
noncomputable def linPart (dim : Nat) (c v : List ℝ) : List ℝ :=
  if dim = 2 then [vat c 0 * vat v 0 + vat c 1 * vat v 1, vat c 2 * vat v 0 + vat c 3 * vat v 1]
  else [vat c 0 * vat v 0 + vat c 1 * vat v 1 + vat c 2 * vat v 2,
    vat c 3 * vat v 0 + vat c 4 * vat v 1 + vat c 5 * vat v 2,
    vat c 6 * vat v 0 + vat c 7 * vat v 1 + vat c 8 * vat v 2]

theorem transform_along (dim : Nat) (hd : dim = 2 ∨ dim = 3) (c x v : List ℝ) (hx : x.length = dim)
    (hv : v.length = dim) (t : ℝ) : Affine.transformPoint dim c (along x v t) =
      along (Affine.transformPoint dim c x) (linPart dim c v) t := by
  rcases hd with rfl | rfl
  · obtain ⟨a, b, rfl⟩ := len2 hx
    obtain ⟨p, q, rfl⟩ := len2 hv
    simp only [Affine.transformPoint, linPart, along, vat, if_true, List.getD_cons_zero, List.getD_cons_succ,
      List.zipWith_cons_cons, List.zipWith_nil_left, List.cons.injEq, and_true]
    constructor <;> ring
  · obtain ⟨a, b, d, rfl⟩ := len3 hx
    obtain ⟨p, q, r, rfl⟩ := len3 hv
    simp only [Affine.transformPoint, linPart, along, vat, show ¬ (3 = 2) by decide, if_false, List.getD_cons_zero,
      List.getD_cons_succ, List.zipWith_cons_cons, List.zipWith_nil_left, List.cons.injEq, and_true]
    refine ⟨?_, ?_, ?_⟩ <;> ring

theorem linPart_length (dim : Nat) (hd : dim = 2 ∨ dim = 3) (c v : List ℝ) : (linPart dim c v).length = dim := by
  rcases hd with rfl | rfl <;> simp [linPart]

theorem transformPoint_length (dim : Nat) (hd : dim = 2 ∨ dim = 3) (c v : List ℝ) :
    (Affine.transformPoint dim c v).length = dim := by
  rcases hd with rfl | rfl <;> simp [Affine.transformPoint]

theorem transformVector_length (dim : Nat) (hd : dim = 2 ∨ dim = 3) (c v : List ℝ) :
    (Affine.transformVector dim c v).length = dim := by
  rcases hd with rfl | rfl <;> simp [Affine.transformVector]

theorem dot_transform (dim : Nat) (hd : dim = 2 ∨ dim = 3) (c g v : List ℝ) (hg : g.length = dim)
    (hv : v.length = dim) : dot (Affine.transformVector dim c g) v = dot g (linPart dim c v) := by
  rcases hd with rfl | rfl
  · obtain ⟨a, b, rfl⟩ := len2 hg
    obtain ⟨p, q, rfl⟩ := len2 hv
    simp only [Affine.transformVector, linPart, dot, vat, if_true, List.getD_cons_zero, List.getD_cons_succ,
      List.zipWith_cons_cons, List.zipWith_nil_left, List.sum_cons, List.sum_nil]
    ring
  · obtain ⟨a, b, d, rfl⟩ := len3 hg
    obtain ⟨p, q, r, rfl⟩ := len3 hv
    simp only [Affine.transformVector, linPart, dot, vat, show ¬ (3 = 2) by decide, if_false, List.getD_cons_zero,
      List.getD_cons_succ, List.zipWith_cons_cons, List.zipWith_nil_left, List.sum_cons, List.sum_nil]
    ring

/-- Gradients of the composition with an affine map. -/
theorem gradient_comp (dim : Nat) (hd : dim = 2 ∨ dim = 3) (c x g : List ℝ) (F : List ℝ → ℝ) (hx : x.length = dim)
    (h : IsGradient F (Affine.transformPoint dim c x) g) :
    IsGradient (fun y => F (Affine.transformPoint dim c y)) x (Affine.transformVector dim c g) := by
  have hg : g.length = dim := h.1.trans (transformPoint_length dim hd c x)
  refine ⟨(transformVector_length dim hd c g).trans hx.symm, fun v hv => ?_⟩
  rw [dot_transform dim hd c g v hg (hv.trans hx)]
  have h2 := h.2 (linPart dim c v) ((linPart_length dim hd c v).trans (transformPoint_length dim hd c x).symm)
  refine h2.congr_of_eventuallyEq (Filter.Eventually.of_forall fun t => ?_)
  simp only
  rw [transform_along dim hd c x v hx (hv.trans hx)]

/-- **C27**: a function composed with an affine transformation has as value at a transformed point the value of the
base function at the original point; its gradient and Hessian are the ones of the composed function whenever the base
function's are exact. -/
theorem C27_chain_rule (debug : Bool) (eps : ℝ) (dim : Nat) (hd : dim = 2 ∨ dim = 3) (transf : List ℝ)
    (ht : transf.length = dim * (dim + 1)) (base F : Func ℝ) (hF : transformed debug eps dim base transf = some F)
    (hdet : Affine.det dim transf ≠ 0) :
    (∀ p, p.length = dim → F.eval (Affine.transformPoint dim transf p) = base.eval p) ∧
    (ExactDerivatives dim base.eval base.grad base.hess → ExactDerivatives dim F.eval F.grad F.hess) := by
  unfold transformed withTransf at hF
  obtain ⟨c, hc, rfl⟩ : ∃ c, Affine.inverse debug eps dim transf = some c ∧ _ := Option.map_eq_some_iff.1 hF
  have hcc : c = Affine.inverseCoefs dim transf := by
    unfold Affine.inverse at hc
    split_ifs at hc
    exact (Option.some.inj hc).symm
  constructor
  · intro p hp
    simp only
    rw [hcc, (Affine.inverse_core dim hd transf p ht hp hdet).2.1]
  · intro hex x hx
    have hTx := transformPoint_length dim hd c x
    obtain ⟨h1, h2, h3⟩ := hex _ hTx
    refine ⟨gradient_comp dim hd c x _ _ hx h1, ?_, ?_⟩
    · intro i hi
      rw [hx] at hi
      unfold IsHessian at h2
      rw [hTx] at h2
      rcases hd with rfl | rfl
      · obtain ⟨a, b, d, hH⟩ := len3 h3
        simp only [hH, symMatrix2] at h2 ⊢
        have g0 := gradient_comp 2 (Or.inl rfl) c x _ _ hx (h2 0 (by decide))
        have g1 := gradient_comp 2 (Or.inl rfl) c x _ _ hx (h2 1 (by decide))
        rw [hx]
        have key : ∀ k, k < 2 → IsGradient (fun y => vat c k * (base.grad (Affine.transformPoint 2 c y)).getD 0 0 +
            vat c (k + 2) * (base.grad (Affine.transformPoint 2 c y)).getD 1 0) x
            ((symMatrix 2 (Affine.transformTensor 2 c [a, b, d])).getD k []) := by
          intro k hk
          have hlen : ((symMatrix 2 (Affine.transformTensor 2 c [a, b, d])).getD k []).length = x.length := by
            rw [hx]
            match k, hk with
            | 0, _ => simp [symMatrix, List.range_succ]
            | 1, _ => simp [symMatrix, List.range_succ]
          refine ⟨hlen, fun v hv => ?_⟩
          have hs := ((g0.2 v hv).const_mul (vat c k)).add ((g1.2 v hv).const_mul (vat c (k + 2)))
          refine hs.congr_deriv ?_
          obtain ⟨p, q, rfl⟩ := len2 (hv.trans hx)
          match k, hk with
          | 0, _ =>
            simp only [Affine.transformTensor, Affine.transformVector, symMatrix2, dot, vat, if_true,
              List.getD_cons_zero, List.getD_cons_succ, List.zipWith_cons_cons, List.zipWith_nil_left, List.sum_cons,
              List.sum_nil]
            ring
          | 1, _ =>
            simp only [Affine.transformTensor, Affine.transformVector, symMatrix2, dot, vat, if_true,
              List.getD_cons_zero, List.getD_cons_succ, List.zipWith_cons_cons, List.zipWith_nil_left, List.sum_cons,
              List.sum_nil]
            ring
        match i, hi with
        | 0, _ => simpa only [Affine.transformVector, if_true, List.getD_cons_zero, vat] using key 0 (by decide)
        | 1, _ =>
          simpa only [Affine.transformVector, if_true, List.getD_cons_zero, List.getD_cons_succ, vat] using
            key 1 (by decide)
      · obtain ⟨a, b, d, e, f, g, hH⟩ := len6 h3
        simp only [hH, symMatrix3] at h2 ⊢
        have g0 := gradient_comp 3 (Or.inr rfl) c x _ _ hx (h2 0 (by decide))
        have g1 := gradient_comp 3 (Or.inr rfl) c x _ _ hx (h2 1 (by decide))
        have g2 := gradient_comp 3 (Or.inr rfl) c x _ _ hx (h2 2 (by decide))
        rw [hx]
        have key : ∀ k, k < 3 → IsGradient (fun y => vat c k * (base.grad (Affine.transformPoint 3 c y)).getD 0 0 +
            vat c (k + 3) * (base.grad (Affine.transformPoint 3 c y)).getD 1 0 +
            vat c (k + 6) * (base.grad (Affine.transformPoint 3 c y)).getD 2 0) x
            ((symMatrix 3 (Affine.transformTensor 3 c [a, b, d, e, f, g])).getD k []) := by
          intro k hk
          have hlen : ((symMatrix 3 (Affine.transformTensor 3 c [a, b, d, e, f, g])).getD k []).length = x.length := by
            rw [hx]
            match k, hk with
            | 0, _ => simp [symMatrix, List.range_succ]
            | 1, _ => simp [symMatrix, List.range_succ]
            | 2, _ => simp [symMatrix, List.range_succ]
          refine ⟨hlen, fun v hv => ?_⟩
          have hs := (((g0.2 v hv).const_mul (vat c k)).add ((g1.2 v hv).const_mul (vat c (k + 3)))).add
            ((g2.2 v hv).const_mul (vat c (k + 6)))
          refine hs.congr_deriv ?_
          obtain ⟨p, q, r, rfl⟩ := len3 (hv.trans hx)
          match k, hk with
          | 0, _ =>
            simp only [Affine.transformTensor, Affine.transformVector, symMatrix3, dot, vat,
              show ¬ (3 = 2) by decide, if_false,
              List.getD_cons_zero, List.getD_cons_succ, List.zipWith_cons_cons, List.zipWith_nil_left, List.sum_cons,
              List.sum_nil]
            ring
          | 1, _ =>
            simp only [Affine.transformTensor, Affine.transformVector, symMatrix3, dot, vat,
              show ¬ (3 = 2) by decide, if_false,
              List.getD_cons_zero, List.getD_cons_succ, List.zipWith_cons_cons, List.zipWith_nil_left, List.sum_cons,
              List.sum_nil]
            ring
          | 2, _ =>
            simp only [Affine.transformTensor, Affine.transformVector, symMatrix3, dot, vat,
              show ¬ (3 = 2) by decide, if_false,
              List.getD_cons_zero, List.getD_cons_succ, List.zipWith_cons_cons, List.zipWith_nil_left, List.sum_cons,
              List.sum_nil]
            ring
        match i, hi with
        | 0, _ =>
          simpa only [Affine.transformVector, show ¬ (3 = 2) by decide, if_false, List.getD_cons_zero,
            List.getD_cons_succ, vat] using key 0 (by decide)
        | 1, _ =>
          simpa only [Affine.transformVector, show ¬ (3 = 2) by decide, if_false, List.getD_cons_zero,
            List.getD_cons_succ, vat] using key 1 (by decide)
        | 2, _ =>
          simpa only [Affine.transformVector, show ¬ (3 = 2) by decide, if_false, List.getD_cons_zero,
            List.getD_cons_succ, vat] using key 2 (by decide)
    · rcases hd with rfl | rfl <;> simp [Affine.transformTensor]

end Func
end Qugar
