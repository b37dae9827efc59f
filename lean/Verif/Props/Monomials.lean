import Verif.Lemmas.PolyTensor
import Mathlib.Data.Nat.Factorial.BigOperators
/-
C29: tensor-product monomials (monomials_tp.cpp).
-/
namespace Qugar.Poly
open Spec TS Finset

section
variable {K V : Type} [Field K] [AddCommGroup V] [Module K V]

/-- The monomials `t^i` and their derivatives. -/
def monD (der : Nat) (_n : Nat) (t : K) (i : Nat) : K := ((i.descFactorial der : Nat) : K) * t ^ (i - der)

theorem mon_fam (size : List Nat) (x : List K) (h : x.length = size.length) :
    fam (fun _ t i => t ^ i) size x = monomialBasis x := by
  unfold fam monomialBasis
  induction x generalizing size with
  | nil => simp
  | cons a x ih =>
    cases size with
    | nil => simp at h
    | cons n ns => simp only [List.zipWith_cons_cons, List.map_cons]; rw [ih ns (by simpa using h)]

theorem monD_zero (n : Nat) : monD (K := K) 0 n = fun (t : K) (i : Nat) => t ^ i := by
  funext t i; simp [monD]

theorem monD_one (n : Nat) : monD (K := K) 1 n = fun (t : K) (i : Nat) => (i : K) * t ^ (i - 1) := by
  funext t i; simp [monD]

/-- **C29** (value): evaluation returns the sum over the tensor indices of the coefficient times the product of powers. -/
theorem C29_value (p : P V) (hw : WellFormed p.order p.coefs) (x : List K) (hx : x.length = p.order.length) :
    Mon.eval p x = tensorSum (monomialBasis x) p.order p.coefs := by
  unfold Mon.eval
  rw [horner_eq, evalRec_eq _ (fun _ t i => t ^ i) (fun n x beta _ hb => by rw [hornerLoop_eq, hb]) _ (by
    intro d hd
    rw [List.mem_reverse] at hd
    exact hw.2.1 _ (List.of_mem_zip hd).1)]
  obtain ⟨h1, h2⟩ := zip_reverse_map hx
  rw [h1, h2, mon_fam _ _ hx, tensorSum_eq]

theorem C29_value' (p : P V) (hw : WellFormed p.order p.coefs) (x : List K) (hx : x.length = p.order.length) :
    Mon.eval p x = ts p.order (famD monD p.order x (fun _ => 0)) (fun k => p.coefs.getD k 0) := by
  rw [C29_value p hw x hx, tensorSum_eq, ← mon_fam p.order x hx]
  congr 1
  have := fam_eq_famD (monD (K := K)) p.order x hx
  rw [← this]
  congr 1
  funext n
  rw [monD_zero]

theorem mon_grad_eq (p : P V) (h2 : (∀ n ∈ p.order, 2 ≤ n)) (x : List K) (hx : x.length = p.order.length) :
    Mon.grad p x = (List.range p.order.length).map fun e =>
      ts p.order (famD monD p.order x (unit e)) (fun k => p.coefs.getD k 0) := by
  unfold Mon.grad
  rw [hornerDer_eq, derRec_eq _ (fun _ t i => t ^ i) (fun _ t i => (i : K) * t ^ (i - 1)) (fun n => 2 ≤ n)
    (fun n x m beta hn hb hm => hornerDerLoop_eq n x m beta hn hb hm) _ (by
    intro d hd
    rw [List.mem_reverse] at hd
    exact h2 _ (List.of_mem_zip hd).1)]
  obtain ⟨e1, e2⟩ := zip_reverse_map hx
  rw [e1, e2]
  simp only [valDers, List.tail_cons]
  apply List.map_congr_left
  intro d _
  have h1 : (fun (_ : Nat) (t : K) (i : Nat) => t ^ i) = monD 0 := by funext n; rw [monD_zero]
  have h2 : (fun (_ : Nat) (t : K) (i : Nat) => (i : K) * t ^ (i - 1)) = monD 1 := by funext n; rw [monD_one]
  rw [h1, h2, famSet_eq_famD monD _ _ hx]

/-- Values of the 1D derivatives used by the Hessian. -/
theorem fallingLoop_eq (i der : Nat) (v : K) : fallingLoop i der v = v * ((i.descFactorial der : Nat) : K) := by
  unfold fallingLoop
  induction der with
  | zero => simp
  | succ d ih =>
    rw [List.range_succ, List.foldl_append, ih, List.foldl_cons, List.foldl_nil, Nat.descFactorial_succ]
    push_cast; ring

theorem monomialValues_loop (x : K) (order der m : Nat) (hm : der + m ≤ order) :
    let s := (List.range' der m).foldl (fun (s : List K × K) i =>
      (s.1.set i (fallingLoop i der s.2), s.2 * x)) (List.replicate order 0, 1)
    s.2 = x ^ m ∧ s.1.length = order ∧ ∀ i, i < order → s.1.getD i 0 = if der ≤ i ∧ i < der + m then monD der order x i else 0 := by
  induction m with
  | zero =>
    simp only [List.range'_zero, List.foldl_nil, pow_zero, List.length_replicate, true_and]
    intro i hi
    rw [if_neg (by omega)]; simp [hi]
  | succ m ih =>
    obtain ⟨h1, h2, h3⟩ := ih (by omega)
    dsimp only at h1 h2 h3 ⊢
    rw [List.range'_1_concat, List.foldl_append, List.foldl_cons, List.foldl_nil]
    refine ⟨by rw [h1, pow_succ], by rw [List.length_set, h2], ?_⟩
    intro i hi
    simp only
    rw [List.getD_eq_getElem?_getD, List.getElem?_set]
    by_cases h : der + m = i
    · subst h
      rw [if_pos rfl, if_pos (by omega), if_pos (by omega), fallingLoop_eq, h1]
      simp [monD, mul_comm]
    · rw [if_neg h, ← List.getD_eq_getElem?_getD, h3 i hi]
      by_cases h' : der ≤ i ∧ i < der + m
      · rw [if_pos h', if_pos (by omega)]
      · rw [if_neg h', if_neg (by omega)]

theorem monomialValues_eq (x : K) (order der i : Nat) (hi : i < order) :
    (monomialValues x order der).getD i 0 = monD der order x i := by
  unfold monomialValues
  by_cases h : der ≤ order
  · obtain ⟨_, _, h3⟩ := monomialValues_loop x order der (order - der) (by omega)
    rw [h3 i hi]
    by_cases hd : der ≤ i
    · rw [if_pos (by omega)]
    · rw [if_neg (by omega)]
      simp [monD, Nat.descFactorial_eq_zero_iff_lt.2 (show i < der by omega)]
  · rw [show order - der = 0 by omega]
    simp [hi, monD, Nat.descFactorial_eq_zero_iff_lt.2 (show i < der by omega)]

end

section
variable {V : Type} [NormedAddCommGroup V] [NormedSpace ℝ V]

theorem derFam_monD : DerFam monD (fun _ => True) := by
  intro der n t i _ _
  unfold monD
  have h := (hasDerivAt_pow (i - der) t).const_mul ((i.descFactorial der : Nat) : ℝ)
  refine h.congr_deriv ?_
  rw [Nat.descFactorial_succ, show i - (der + 1) = i - der - 1 by omega]
  push_cast; ring

theorem congr_isGradientV {F G : List ℝ → V} {x : List ℝ} {g : List V} (h : IsGradientV G x g)
    (hFG : ∀ y, y.length = x.length → F y = G y) : IsGradientV F x g := by
  refine ⟨h.1, fun v hv => (h.2 v hv).congr_of_eventuallyEq (Filter.Eventually.of_forall fun t => ?_)⟩
  exact hFG _ (by unfold along; simp; omega)

theorem mon_isGradient (p : P V) (hw : WellFormed p.order p.coefs) (x : List ℝ) (hx : x.length = p.order.length) :
    IsGradientV (Mon.eval p) x ((List.range p.order.length).map fun e =>
      ts p.order (famD monD p.order x (unit e)) (fun k => p.coefs.getD k 0)) := by
  have h := isGradientV_ts monD (fun _ => True) derFam_monD p.order (fun _ _ => trivial) x hx (fun _ => 0)
    (fun k => p.coefs.getD k 0)
  simp only [Nat.zero_add] at h
  exact congr_isGradientV h fun y hy => C29_value' p hw y (by omega)

/-- **C29** (gradient), restricted to polynomials of degree at least one in every direction, or one-dimensional: the
gradient consists of the partial derivatives. Missing: polynomials of several variables that are constant in some
direction, for which the claim is false (`C29_gradient_fails`). -/
theorem C29_gradient_partial (p : P V) (hw : WellFormed p.order p.coefs)
    (h2 : (∀ n ∈ p.order, 2 ≤ n) ∨ p.order.length = 1) (x : List ℝ) (hx : x.length = p.order.length) :
    IsGradientV (Mon.eval p) x (Mon.grad p x) := by
  by_cases hall : ∀ n ∈ p.order, 2 ≤ n
  · rw [mon_grad_eq p hall x hx]
    exact mon_isGradient p hw x hx
  · have h1 : p.order.length = 1 := by tauto
    obtain ⟨n, hn⟩ := List.length_eq_one_iff.1 h1
    have hn1 : n = 1 := by
      have := hw.2.1 n (by simp [hn])
      by_contra h
      apply hall
      intro m hm
      rw [hn] at hm
      simp at hm
      omega
    obtain ⟨t, rfl⟩ := List.length_eq_one_iff.1 (hx.trans h1)
    have e := mon_isGradient p hw [t] hx
    convert e using 1
    rw [h1, hn, hn1]
    obtain ⟨c, hc⟩ : ∃ c, p.coefs = [c] := by
      have := hw.2.2
      rw [hn, hn1] at this
      exact List.length_eq_one_iff.1 (by simpa [listProd] using this)
    simp only [Mon.grad, hn, hn1, hc]
    simp [hornerDer, hornerDerLoop, readBlocks, axpy, famD, unit, monD, ts, indices, basisProd, flatIndex]

/-- The claim fails for polynomials constant in a direction: for `p(x, y) = x`, stored with orders (2, 1), the gradient
returned at (0, 1) is (2, 0). -/
theorem C29_gradient_fails : ∃ p : P ℝ, WellFormed p.order p.coefs ∧ (∀ x y : ℝ, Mon.eval p [x, y] = x) ∧
    ¬ IsGradientV (Mon.eval p) [0, 1] (Mon.grad p [(0 : ℝ), 1]) := by
  have hw : WellFormed [2, 1] [(0 : ℝ), 1] := ⟨by simp, by simp, by simp [listProd]⟩
  have hval : ∀ x y : ℝ, Mon.eval (⟨[2, 1], [(0 : ℝ), 1]⟩ : P ℝ) [x, y] = x := by
    intro x y
    simp [Mon.eval, horner, readBlocks, hornerLoop]
  refine ⟨⟨[2, 1], [0, 1]⟩, hw, hval, ?_⟩
  rintro ⟨_, h⟩
  have h1 := h [1, 0] rfl
  have hg : Mon.grad (⟨[2, 1], [(0 : ℝ), 1]⟩ : P ℝ) [(0 : ℝ), 1] = [2, 0] := by
    simp [Mon.grad, hornerDer, hornerDerLoop, readBlocks, axpy]; norm_num
  rw [hg] at h1
  simp only [along, List.zipWith_cons_cons, List.zipWith_nil_right, hval] at h1
  have h2 : HasDerivAt (fun t : ℝ => 0 + t * 1) 1 0 := by
    have h3 := hasDerivAt_id' (0 : ℝ)
    simp only [mul_one, zero_add]
    exact h3
  have := h1.unique h2
  norm_num at this

/-- **C29** (Hessian): the Hessian consists of the second partial derivatives, for every degree. -/
theorem C29_hessian (p : P V) (hw : WellFormed p.order p.coefs) (x : List ℝ) (hx : x.length = p.order.length) :
    ∃ G : List ℝ → List V, (∀ y, y.length = p.order.length → IsGradientV (Mon.eval p) y (G y)) ∧
      IsHessianV G x (Mon.hessian p x) := by
  refine ⟨fun y => (List.range p.order.length).map fun e =>
    ts p.order (famD monD p.order y (unit e)) (fun k => p.coefs.getD k 0), fun y hy => mon_isGradient p hw y hy, ?_⟩
  have h := isHessianV_ts monD (fun _ => True) derFam_monD p.order (fun _ _ => trivial) x hx
    (fun k => p.coefs.getD k 0) (fun y => (List.range p.order.length).map fun e =>
      ts p.order (famD monD p.order y (unit e)) (fun k => p.coefs.getD k 0)) (fun _ _ => rfl)
  unfold Mon.hessian
  rw [hessianLoop_eq monomialValues p hw x]
  suffices e : ∀ i j, ts p.order (famD (fun der n t k => (monomialValues t n der).getD k 0) p.order x
      (fun d => unit i d + unit j d)) (fun k => p.coefs.getD k 0) =
      ts p.order (famD monD p.order x (fun d => unit i d + unit j d)) (fun k => p.coefs.getD k 0) by
    simp only [e]; exact h
  intro i j
  apply ts_congr
  intro idx hidx
  have hl : idx.length = p.order.length := (mem_indices.1 hidx).length_eq
  unfold famD
  rw [basisProd_range _ _ _ hl, basisProd_range _ _ _ hl]
  congr 1
  apply prod_congr rfl
  intro d hd
  rw [mem_range] at hd
  apply monomialValues_eq
  have := (List.forall₂_iff_get.1 (mem_indices.1 hidx)).2 d (by omega) hd
  simpa [hd, show d < idx.length by omega] using this

theorem C29_hessian_length (p : P V) (x : List ℝ) :
    (Mon.hessian p x).length = ∑ i ∈ range p.order.length, (p.order.length - i) := by
  unfold Mon.hessian hessianLoop
  rw [List.length_flatMap, ← list_sum_range]
  simp

theorem derivative_eq {K : Type} [Field K] [Module K V] (p : P V) (hw : WellFormed p.order p.coefs) (dir : Nat)
    (hd : dir < p.order.length) (h2 : 2 ≤ p.order.getD dir 0) :
    Mon.derivative K p dir = some ⟨p.order.modify dir (· - 1), (indices (p.order.modify dir (· - 1))).map fun i =>
      (((i.modify dir (· + 1)).getD dir 0 : Nat) : K) • p.coefs.getD (flatIndex (i.modify dir (· + 1)) p.order) 0⟩ ∧
    WellFormed (p.order.modify dir (· - 1)) ((indices (p.order.modify dir (· - 1))).map fun i =>
      (((i.modify dir (· + 1)).getD dir 0 : Nat) : K) • p.coefs.getD (flatIndex (i.modify dir (· + 1)) p.order) 0) := by
  have hne : p.order.modify dir (· - 1) ≠ [] := by
    intro h
    have := congrArg List.length h
    simp at this
    exact hw.1 this
  have hpos : ∀ n ∈ p.order.modify dir (· - 1), 0 < n := by
    intro n hn
    obtain ⟨k, hk, rfl⟩ := List.getElem_of_mem hn
    rw [List.getElem_modify]
    have hk' : k < p.order.length := by simpa using hk
    split_ifs with h
    · subst h
      simp [hd] at h2
      omega
    · exact hw.2.1 _ (List.getElem_mem _)
  refine ⟨?_, hne, hpos, by rw [List.length_map, length_indices]⟩
  unfold Mon.derivative
  rw [if_pos hd, if_neg (by omega)]
  dsimp only
  rw [visitAll_ofUpper hne hpos, tsize_eq]
  congr 2
  rw [← foldl_set_indices _ (fun i => (((i.modify dir (· + 1)).getD dir 0 : Nat) : K) •
    p.coefs.getD (flatIndex (i.modify dir (· + 1)) p.order) 0) (List.replicate (listProd (p.order.modify dir (· - 1))) 0)
    (by simp)]
  apply List.foldl_ext
  intro c i hi
  rw [flat_eq (forall2_lt_iff_inSize.1 (mem_indices.1 hi)), coefAt_eq _ _ (mem_shift_indices dir _ i hi)]

/-- **C29** (derivative object): for positive degree in the direction `dir` the polynomial returned by
`create_derivative(dir)` is the partial derivative. -/
theorem C29_derivative_partial (p : P V) (hw : WellFormed p.order p.coefs) (dir : Nat) (hd : dir < p.order.length)
    (h2 : 2 ≤ p.order.getD dir 0) : ∃ q, Mon.derivative ℝ p dir = some q ∧ WellFormed q.order q.coefs ∧
    ∀ x : List ℝ, x.length = p.order.length →
      HasDerivAt (fun t => Mon.eval p (x.set dir t)) (Mon.eval q x) (x.getD dir 0) := by
  obtain ⟨h1, h3⟩ := derivative_eq (K := ℝ) p hw dir hd h2
  refine ⟨_, h1, h3, ?_⟩
  intro x hx
  have hg := (mon_isGradient p hw x hx).2 ((List.replicate x.length 0).set dir 1) (by simp)
  have hval : (List.zipWith (fun (a : ℝ) (b : V) => a • b) ((List.replicate x.length 0).set dir 1)
      ((List.range p.order.length).map fun e => ts p.order (famD monD p.order x (unit e)) (fun k => p.coefs.getD k 0))).sum =
      Mon.eval ⟨p.order.modify dir (· - 1), (indices (p.order.modify dir (· - 1))).map fun i =>
      (((i.modify dir (· + 1)).getD dir 0 : Nat) : ℝ) • p.coefs.getD (flatIndex (i.modify dir (· + 1)) p.order) 0⟩ x := by
    rw [zipWith_sum _ p.order.length (by simp [hx]), sum_eq_single dir]
    · rw [C29_value _ h3 _ (by simpa using hx), tensorSum_eq]
      simp only
      have e1 : ((List.replicate x.length (0 : ℝ)).set dir 1).getD dir 0 = 1 := by simp [hx, hd]
      rw [e1, one_smul]
      have e2 := famSet_eq_famD (monD (K := ℝ)) p.order x hx dir
      rw [← e2]
      unfold famSet
      have e3 : fam (monD (K := ℝ) 0) p.order x = monomialBasis x := by
        rw [← mon_fam _ _ hx]
        congr 1
        funext n
        rw [monD_zero]
      rw [e3, ts_shift dir p.order (monomialBasis x) _ _ (by simp [monomialBasis, hx]) hd (by simp [monD]) (by
        intro k
        simp [monD, monomialBasis, show dir < x.length by omega])]
      unfold ts
      congr 1
      apply List.map_congr_left
      intro i hi
      dsimp only
      rw [getD_indices_map _ _ _ _ hi]
    · intro b _ hb
      have : ((List.replicate x.length (0 : ℝ)).set dir 1).getD b 0 = 0 := by
        rw [List.getD_eq_getElem?_getD, List.getElem?_set_ne (Ne.symm hb)]
        by_cases hbx : b < x.length
        · simp [hbx]
        · simp [hbx]
      rw [this, zero_smul]
    · intro h
      exact absurd (mem_range.2 hd) h
  rw [hval] at hg
  have hal : ∀ t, along x ((List.replicate x.length 0).set dir 1) t = x.set dir (x.getD dir 0 + t) := by
    intro t
    unfold along
    apply List.ext_getElem
    · simp
    · intro k h1 h2
      have hk : k < x.length := by simpa using h2
      rw [List.getElem_zipWith, List.getElem_set, List.getElem_set]
      by_cases h : dir = k
      · subst h; simp [hk]
      · simp [h]
  simp only [hal] at hg
  have h4 : HasDerivAt (fun s : ℝ => s - x.getD dir 0) 1 (x.getD dir 0) := (hasDerivAt_id _).sub_const _
  have hg' : HasDerivAt (fun t => Mon.eval p (x.set dir (x.getD dir 0 + t))) (Mon.eval
      ⟨p.order.modify dir (· - 1), (indices (p.order.modify dir (· - 1))).map fun i =>
      (((i.modify dir (· + 1)).getD dir 0 : Nat) : ℝ) • p.coefs.getD (flatIndex (i.modify dir (· + 1)) p.order) 0⟩ x)
      (x.getD dir 0 - x.getD dir 0) := by rw [sub_self]; exact hg
  have h5 := HasDerivAt.scomp (h := fun s => s - x.getD dir 0) (x.getD dir 0) hg' h4
  rw [one_smul] at h5
  refine h5.congr_of_eventuallyEq (Filter.Eventually.of_forall fun t => ?_)
  simp only [Function.comp]
  rw [add_sub_cancel]

/-- For degree zero in the direction the polynomial itself is returned instead of zero: the derivative of the constant 1
is 1. -/
theorem C29_derivative_of_constants_fails : ∃ p q : P ℝ, WellFormed p.order p.coefs ∧ Mon.derivative ℝ p 0 = some q ∧
    (∀ t : ℝ, Mon.eval p [t] = 1) ∧ ∀ t : ℝ, Mon.eval q [t] = 1 := by
  have hv : ∀ t : ℝ, Mon.eval ⟨[1], [(1 : ℝ)]⟩ [t] = 1 := by
    intro t; simp [Mon.eval, horner, readBlocks, hornerLoop]
  exact ⟨⟨[1], [1]⟩, ⟨[1], [1]⟩, ⟨by simp, by simp, by simp [listProd]⟩, rfl, hv, hv⟩

end

section
variable {K V : Type} [Field K] [AddCommGroup V] [Module K V]

theorem wellFormed_layer (p : P V) (hw : WellFormed p.order p.coefs) (hdim : 2 ≤ p.order.length) (dir m : Nat)
    (hd : dir < p.order.length) : WellFormed (layer p dir m).order (layer p dir m).coefs := by
  refine ⟨?_, ?_, ?_⟩
  · intro h
    have := congrArg List.length h
    simp only [layer, List.length_eraseIdx, hd, if_true, List.length_nil] at this
    omega
  · intro n hn
    exact hw.2.1 n (List.mem_of_mem_eraseIdx hn)
  · simp [layer, length_indices]

theorem eraseIdx_insertIdx' {α : Type} (x : List α) (dir : Nat) (s : α) (h : dir ≤ x.length) :
    (x.insertIdx dir s).eraseIdx dir = x := by
  rw [List.eraseIdx_insertIdx_self]

/-- **C29** (facets): the restriction to a lower facet is the polynomial with the coordinate set to 0. -/
theorem C29_facet_partial (p : P V) (hw : WellFormed p.order p.coefs) (hdim : 2 ≤ p.order.length) (dir : Nat)
    (hd : dir < p.order.length) : ∃ q, extractFacet p (2 * dir) = some q ∧ q.order = p.order.eraseIdx dir ∧
      ∀ x : List K, x.length + 1 = p.order.length → Mon.eval q x = Mon.eval p (x.insertIdx dir 0) := by
  refine ⟨layer p dir 0, ?_, rfl, ?_⟩
  · rw [extractFacet_eq p hw.2.1 _ (by omega), show 2 * dir / 2 = dir by omega, if_pos (by omega)]
  · intro x hx
    have hlen : (x.insertIdx dir (0 : K)).length = p.order.length := by
      rw [List.length_insertIdx]; split_ifs <;> omega
    have hmem : p.order.getD dir 0 ∈ p.order := by simp [hd]
    rw [C29_value _ (wellFormed_layer p hw hdim dir 0 hd) x (by simp [layer, List.length_eraseIdx, hd]; omega),
      C29_value p hw _ hlen, tensorSum_eq, tensorSum_eq]
    rw [← ts_layer p dir 0 hd (hw.2.1 _ hmem) (monomialBasis (x.insertIdx dir 0)) (by simpa [monomialBasis] using hlen) (by
      intro k _
      unfold monomialBasis
      rw [getD_map_comp' _ _ _ 0 _ (by omega), getD_insertIdx_self _ _ _ _ (by omega)]
      by_cases h : k = 0
      · simp [h]
      · simp [h])]
    congr 1
    unfold monomialBasis
    rw [List.eraseIdx_map, eraseIdx_insertIdx' _ _ _ (by omega)]
where
  getD_map_comp' {α β : Type} (l : List α) (f : α → β) (i : Nat) (d : α) (e : β) (h : i < l.length) :
      (l.map f).getD i e = f (l.getD i d) := by
    simp [h]
  getD_insertIdx_self {α : Type} (l : List α) (i : Nat) (a d : α) (h : i ≤ l.length) :
      (l.insertIdx i a).getD i d = a := by
    rw [List.getD_eq_getElem?_getD, List.getElem?_insertIdx_self, if_pos h]; rfl

/-- For upper facets the layer of leading coefficients is returned instead of the sum of the layers: the restriction of the
constant `p(x, y) = 1`, stored with orders (2, 2), to the facet `x = 1` is 0. -/
theorem C29_upper_facets_fail : ∃ p q : P ℚ, WellFormed p.order p.coefs ∧ extractFacet p 1 = some q ∧
    (∀ x y : ℚ, Mon.eval p [x, y] = 1) ∧ ∀ y : ℚ, Mon.eval q [y] = 0 := by
  refine ⟨⟨[2, 2], [1, 0, 0, 0]⟩, ⟨[2], [0, 0]⟩, ⟨by simp, by simp, by simp [listProd]⟩, by decide +kernel, ?_, ?_⟩
  · intro x y
    simp [Mon.eval, horner, readBlocks, hornerLoop]
  · intro y
    simp [Mon.eval, horner, readBlocks, hornerLoop]

end

/-! A concrete polynomial: `1 + 2x + 3y + 4xy` at (1/2, -1). -/
example : WellFormed [2, 2] [(1 : ℚ), 2, 3, 4] := ⟨by simp, by simp, by simp [listProd]⟩
example : Mon.eval ⟨[2, 2], [(1 : ℚ), 2, 3, 4]⟩ [(1 : ℚ) / 2, -1] = -3 := by decide +kernel
example : Mon.grad ⟨[2, 2], [(1 : ℚ), 2, 3, 4]⟩ [(1 : ℚ) / 2, -1] = [-2, 5] := by decide +kernel
example : Mon.hessian ⟨[2, 2], [(1 : ℚ), 2, 3, 4]⟩ [(1 : ℚ) / 2, -1] = [0, 4, 0] := by decide +kernel

end Qugar.Poly
