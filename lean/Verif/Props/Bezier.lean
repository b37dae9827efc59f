import Verif.Lemmas.BernsteinDer
import Verif.Props.Monomials
import Mathlib.Algebra.Order.BigOperators.Group.Finset
import Mathlib.Tactic.FieldSimp
import Mathlib.Algebra.Order.Field.Basic
/-
C30: Bezier polynomials; C31: Bernstein values; C32: convex hull property; C33: conversion of monomials
(bezier_tp.cpp, bezier_tp_utils.cpp, monomials_tp.cpp).
-/
namespace Qugar.Poly
open Spec TS Finset

/-! ### C31 -/

section
variable {K : Type} [Field K]

theorem bernsteinValues_eq (x : K) (n der : Nat) (hn : 0 < n) :
    bernsteinValues x n der = (List.range n).map fun i => bernD der (n - 1) i x := by
  unfold bernsteinValues
  obtain ⟨h1, h2, h3⟩ := bernsteinDer_spec x der n (List.replicate n 0) hn (by simp)
  have hl : (bernsteinDer x n der (List.replicate n 0)).length = n := by
    by_cases h : der < n
    · rw [h2 h]; simp
    · cases der with
      | zero => omega
      | succ der => unfold bernsteinDer; rw [if_pos (by omega)]; simp
  rw [eq_map_getD (bernsteinDer x n der (List.replicate n 0)) 0, hl]
  apply List.map_congr_left
  intro i hi
  exact h3 i (List.mem_range.1 hi)

/-- **C31**: the values returned for order `n` at `x` are the `n` Bernstein polynomials of degree `n - 1`, and they sum to
one. -/
theorem C31_values (x : K) (n : Nat) (hn : 0 < n) :
    bernsteinValues x n 0 = (List.range n).map (fun i => bernstein (n - 1) i x) ∧ (bernsteinValues x n 0).sum = 1 := by
  have h := bernsteinValues_eq x n 0 hn
  refine ⟨h, ?_⟩
  rw [h, list_sum_range]
  have := sum_bernstein (n - 1) x
  rw [show n - 1 + 1 = n by omega] at this
  exact this

theorem sum_bernD (k d : Nat) (x : K) : ∑ i ∈ range (d + 1), bernD (k + 1) d i x = 0 := by
  simp only [bernD, ← mul_sum, sum_sub_distrib]
  cases d with
  | zero => simp
  | succ d =>
    rw [sum_range_succ' (fun i => if i = 0 then 0 else bernD k (d + 1 - 1) (i - 1) x),
      sum_range_succ (fun i => bernD k (d + 1 - 1) i x), bernD_of_lt k _ (d + 1) x (by omega)]
    simp

/-- The derivatives sum to zero. -/
theorem C31_derivatives_sum (x : K) (n der : Nat) (hn : 0 < n) (hd : 0 < der) : (bernsteinValues x n der).sum = 0 := by
  obtain ⟨k, rfl⟩ : ∃ k, der = k + 1 := ⟨der - 1, by omega⟩
  rw [bernsteinValues_eq x n _ hn, list_sum_range]
  have := sum_bernD k (n - 1) x
  rwa [show n - 1 + 1 = n by omega] at this

end

theorem bernstein_nonneg {K : Type} [Field K] [LinearOrder K] [IsStrictOrderedRing K] (d i : Nat) (x : K) (h0 : 0 ≤ x)
    (h1 : x ≤ 1) : 0 ≤ bernstein d i x := by
  unfold bernstein
  have : 0 ≤ 1 - x := sub_nonneg.2 h1
  positivity

/-- The values are non-negative on [0,1]. -/
theorem C31_nonneg {K : Type} [Field K] [LinearOrder K] [IsStrictOrderedRing K] (x : K) (n : Nat) (hn : 0 < n)
    (h0 : 0 ≤ x) (h1 : x ≤ 1) : ∀ v ∈ bernsteinValues x n 0, 0 ≤ v := by
  intro v hv
  rw [(C31_values x n hn).1] at hv
  obtain ⟨i, _, rfl⟩ := List.mem_map.1 hv
  exact bernstein_nonneg _ _ _ h0 h1

/-- The values returned for `der + 1` derivatives are the derivatives of the ones for `der`, for every number of
derivatives. -/
theorem C31_derivatives (n der i : Nat) (hn : 0 < n) (hi : i < n) (x : ℝ) :
    HasDerivAt (fun s => (bernsteinValues s n der).getD i 0) ((bernsteinValues x n (der + 1)).getD i 0) x := by
  have e : ∀ (k : Nat) (s : ℝ), (bernsteinValues s n k).getD i 0 = bernD k (n - 1) i s := by
    intro k s
    rw [bernsteinValues_eq s n k hn, getD_map_range _ _ _ _ hi]
  simp only [e]
  exact hasDerivAt_bernD der (n - 1) i x

/-! ### C30 -/

section
variable {K V : Type} [Field K] [AddCommGroup V] [Module K V]

/-- Bernstein polynomials of order `n` with derivatives. -/
def bezD (der n : Nat) (t : K) (i : Nat) : K := bernD der (n - 1) i t

theorem bez_fam (size : List Nat) (x : List K) : fam (bezD 0) size x = bernsteinBasis size x := rfl

/-- **C30** (value): evaluation returns the combination of the coefficients with the Bernstein polynomials. -/
theorem C30_value (p : P V) (hw : WellFormed p.order p.coefs) (x : List K) (hx : x.length = p.order.length) :
    Bez.eval p x = tensorSum (bernsteinBasis p.order x) p.order p.coefs := by
  unfold Bez.eval
  rw [casteljau_eq, evalRec_eq _ (bezD 0) (fun n x beta hn hb => casteljauLoop_eq n x beta hn hb) _ (by
    intro d hd
    rw [List.mem_reverse] at hd
    exact hw.2.1 _ (List.of_mem_zip hd).1)]
  obtain ⟨h1, h2⟩ := zip_reverse_map hx
  rw [h1, h2, bez_fam, tensorSum_eq]

theorem C30_value' (p : P V) (hw : WellFormed p.order p.coefs) (x : List K) (hx : x.length = p.order.length) :
    Bez.eval p x = ts p.order (famD bezD p.order x (fun _ => 0)) (fun k => p.coefs.getD k 0) := by
  rw [C30_value p hw x hx, tensorSum_eq, ← bez_fam, fam_eq_famD bezD p.order x hx]

theorem bez_grad_eq (p : P V) (hw : WellFormed p.order p.coefs) (x : List K) (hx : x.length = p.order.length) :
    Bez.grad p x = (List.range p.order.length).map fun e =>
      ts p.order (famD bezD p.order x (unit e)) (fun k => p.coefs.getD k 0) := by
  unfold Bez.grad
  rw [casteljauDer_eq, derRec_eq _ (bezD 0) (bezD 1) (fun n => 0 < n)
    (fun n x m beta hn hb hm => by
      rw [casteljauDerLoop_eq n x m beta hn hb hm]
      congr 2
      apply sum_congr rfl
      intro i hi
      rw [mem_range] at hi
      rw [bernsteinD_eq _ _ (by omega)]; rfl) _ (by
    intro d hd
    rw [List.mem_reverse] at hd
    exact hw.2.1 _ (List.of_mem_zip hd).1)]
  obtain ⟨e1, e2⟩ := zip_reverse_map hx
  rw [e1, e2]
  simp only [valDers, List.tail_cons]
  apply List.map_congr_left
  intro d _
  rw [famSet_eq_famD bezD _ _ hx]

theorem bernstein_at_zero (d i : Nat) : bernstein d i (0 : K) = if i = 0 then 1 else 0 := by
  unfold bernstein
  by_cases h : i = 0
  · simp [h]
  · simp [h]

theorem bernstein_at_one (d i : Nat) (hi : i ≤ d) : bernstein d i (1 : K) = if i = d then 1 else 0 := by
  unfold bernstein
  by_cases h : i = d
  · simp [h]
  · rw [if_neg h, sub_self, zero_pow (by omega), mul_zero]

theorem zipWith_eraseIdx' {α β γ : Type} (f : α → β → γ) : ∀ (i : Nat) (a : List α) (b : List β), a.length = b.length →
    (List.zipWith f a b).eraseIdx i = List.zipWith f (a.eraseIdx i) (b.eraseIdx i) := by
  intro i
  induction i with
  | zero => intro a b _; cases a <;> cases b <;> simp_all
  | succ i ih =>
    intro a b h
    cases a with
    | nil => simp
    | cons x a =>
      cases b with
      | nil => simp at h
      | cons y b => simp only [List.zipWith_cons_cons, List.eraseIdx_cons_succ]; rw [ih a b (by simpa using h)]

/-- **C30** (facets): the restriction to a facet is the polynomial with the coordinate set to 0 (even facets) or 1 (odd
facets). -/
theorem C30_facet (p : P V) (hw : WellFormed p.order p.coefs) (hdim : 2 ≤ p.order.length) (dir side : Nat)
    (hd : dir < p.order.length) (hs : side < 2) : ∃ q, extractFacet p (2 * dir + side) = some q ∧
      q.order = p.order.eraseIdx dir ∧ WellFormed q.order q.coefs ∧
      ∀ x : List K, x.length + 1 = p.order.length → Bez.eval q x = Bez.eval p (x.insertIdx dir (side : K)) := by
  have hmem : p.order.getD dir 0 ∈ p.order := by simp [hd]
  have hp := hw.2.1 _ hmem
  obtain ⟨m, hm⟩ : ∃ m, m = if side = 0 then 0 else p.order.getD dir 0 - 1 := ⟨_, rfl⟩
  have hmlt : m < p.order.getD dir 0 := by rw [hm]; split_ifs <;> omega
  refine ⟨layer p dir m, ?_, rfl, wellFormed_layer p hw hdim dir m hd, ?_⟩
  · rw [extractFacet_eq p hw.2.1 _ (by omega), show (2 * dir + side) / 2 = dir by omega,
      show (2 * dir + side) % 2 = side by omega, ← hm]
  · intro x hx
    have hlen : (x.insertIdx dir (side : K)).length = p.order.length := by
      rw [List.length_insertIdx]; split_ifs <;> omega
    rw [C30_value _ (wellFormed_layer p hw hdim dir m hd) x (by simp [layer, List.length_eraseIdx, hd]; omega),
      C30_value p hw _ hlen, tensorSum_eq, tensorSum_eq]
    rw [← ts_layer p dir m hd hmlt (bernsteinBasis p.order (x.insertIdx dir (side : K)))
      (by simp [bernsteinBasis, hlen]) (by
      intro k hk
      unfold bernsteinBasis
      rw [getD_zipWith _ _ _ _ 0 0 _ hd (by omega), C29_facet_partial.getD_insertIdx_self _ _ _ _ (by omega)]
      rw [hm]
      by_cases h : side = 0
      · rw [if_pos h, h, Nat.cast_zero, bernstein_at_zero]
      · rw [if_neg h, show side = 1 by omega, Nat.cast_one, bernstein_at_one _ _ (by omega)])]
    congr 1
    unfold bernsteinBasis
    rw [zipWith_eraseIdx' _ _ _ _ (by omega), eraseIdx_insertIdx' _ _ _ (by omega)]
    rfl

end

section
variable {V : Type} [NormedAddCommGroup V] [NormedSpace ℝ V]

theorem derFam_bezD : DerFam bezD (fun _ => True) := by
  intro der n t i _ _
  exact hasDerivAt_bernD der (n - 1) i t

theorem bez_isGradient (p : P V) (hw : WellFormed p.order p.coefs) (x : List ℝ) (hx : x.length = p.order.length) :
    IsGradientV (Bez.eval p) x ((List.range p.order.length).map fun e =>
      ts p.order (famD bezD p.order x (unit e)) (fun k => p.coefs.getD k 0)) := by
  have h := isGradientV_ts bezD (fun _ => True) derFam_bezD p.order (fun _ _ => trivial) x hx (fun _ => 0)
    (fun k => p.coefs.getD k 0)
  simp only [Nat.zero_add] at h
  exact congr_isGradientV h fun y hy => C30_value' p hw y (by omega)

/-- **C30** (gradient): the gradient consists of the partial derivatives, for every dimension and degree. -/
theorem C30_gradient (p : P V) (hw : WellFormed p.order p.coefs) (x : List ℝ) (hx : x.length = p.order.length) :
    IsGradientV (Bez.eval p) x (Bez.grad p x) := by
  rw [bez_grad_eq p hw x hx]
  exact bez_isGradient p hw x hx

/-- **C30** (Hessian): the Hessian consists of the derivatives of the gradient. -/
theorem C30_hessian (p : P V) (hw : WellFormed p.order p.coefs) (x : List ℝ) (hx : x.length = p.order.length) :
    IsHessianV (Bez.grad p) x (Bez.hessian p x) := by
  have h := isHessianV_ts bezD (fun _ => True) derFam_bezD p.order (fun _ _ => trivial) x hx
    (fun k => p.coefs.getD k 0) (Bez.grad p) (fun y hy => bez_grad_eq p hw y hy)
  unfold Bez.hessian
  rw [hessianLoop_eq bernsteinValues p hw x]
  suffices e : ∀ i j, ts p.order (famD (fun der n t k => (bernsteinValues t n der).getD k 0) p.order x
      (fun d => unit i d + unit j d)) (fun k => p.coefs.getD k 0) =
      ts p.order (famD bezD p.order x (fun d => unit i d + unit j d)) (fun k => p.coefs.getD k 0) by
    simp only [e]; exact h
  intro i j
  apply ts_congr
  intro idx hidx
  have hl : idx.length = p.order.length := (mem_indices.1 hidx).length_eq
  unfold famD
  rw [basisProd_range _ _ _ hl, basisProd_range _ _ _ hl]
  congr 1
  apply prod_congr rfl
  intro d hd
  rw [mem_range] at hd
  have hlt : idx.getD d 0 < p.order.getD d 0 := by
    have := (List.forall₂_iff_get.1 (mem_indices.1 hidx)).2 d (by omega) hd
    simpa [hd, show d < idx.length by omega] using this
  dsimp only
  rw [bernsteinValues_eq _ _ _ (by omega), getD_map_range _ _ _ _ hlt]
  rfl

end

/-! ### C32 -/

section
variable {K : Type} [Field K] [LinearOrder K] [IsStrictOrderedRing K]

theorem basisProd_nonneg (f : List (Nat → K)) (i : List Nat) (h : ∀ φ ∈ f, ∀ k, 0 ≤ φ k) : 0 ≤ basisProd f i := by
  induction f generalizing i with
  | nil => simp [basisProd]
  | cons φ f ih =>
    cases i with
    | nil => simp [basisProd]
    | cons k i =>
      exact mul_nonneg (h φ (by simp) k) (ih i fun ψ hψ => h ψ (by simp [hψ]))

theorem bernsteinBasis_nonneg (size : List Nat) (x : List K) (hx : InUnitCube x) :
    ∀ φ ∈ bernsteinBasis size x, ∀ k, 0 ≤ φ k := by
  intro φ hφ k
  unfold bernsteinBasis at hφ
  obtain ⟨j, hj, rfl⟩ := List.getElem_of_mem hφ
  rw [List.getElem_zipWith]
  have := hx (x[j]'(by simp at hj; omega)) (List.getElem_mem _)
  exact bernstein_nonneg _ _ _ this.1 this.2

omit [LinearOrder K] [IsStrictOrderedRing K] in
theorem sum_bernsteinBasis (size : List Nat) (hpos : ∀ n ∈ size, 0 < n) (x : List K) (hx : x.length = size.length) :
    ((indices size).map fun i => basisProd (bernsteinBasis size x) i).sum = 1 := by
  rw [sum_basisProd size _ (by simp [bernsteinBasis, hx])]
  induction size generalizing x with
  | nil => simp
  | cons n ns ih =>
    cases x with
    | nil => simp at hx
    | cons t x =>
      have hn := hpos n (by simp)
      simp only [bernsteinBasis, List.zipWith_cons_cons, List.prod_cons]
      have h1 := sum_bernstein (n - 1) t
      rw [show n - 1 + 1 = n by omega] at h1
      rw [h1, one_mul]
      exact ih (fun m hm => hpos m (by simp [hm])) x (by simpa using hx)

theorem list_weighted_le (L : List (List Nat)) (w c : List Nat → K) (a : K) (hw : ∀ i ∈ L, 0 ≤ w i) (h : ∀ i ∈ L, a ≤ c i) :
    (L.map w).sum * a ≤ (L.map fun i => w i • c i).sum := by
  induction L with
  | nil => simp
  | cons i L ih =>
    simp only [List.map_cons, List.sum_cons, add_mul, smul_eq_mul]
    have h1 := mul_le_mul_of_nonneg_left (h i (by simp)) (hw i (by simp))
    have h2 := ih (fun j hj => hw j (by simp [hj])) (fun j hj => h j (by simp [hj]))
    simp only [smul_eq_mul] at h2
    exact add_le_add h1 h2

theorem mem_coefs {V : Type} [Zero V] {size : List Nat} {c : List V} (hc : c.length = listProd size) {i : List Nat} (hi : i ∈ indices size) :
    c.getD (flatIndex i size) 0 ∈ c := by
  have := flatIndex_lt' hi
  rw [List.getD_eq_getElem?_getD, List.getElem?_eq_getElem (by omega)]
  exact List.getElem_mem _

/-- **C32**: on the unit cube the value lies between any bounds of the coefficients. -/
theorem C32_bounds (p : P K) (hw : WellFormed p.order p.coefs) (x : List K) (hx : x.length = p.order.length)
    (hc : InUnitCube x) (lo hi : K) (hlo : ∀ c ∈ p.coefs, lo ≤ c) (hhi : ∀ c ∈ p.coefs, c ≤ hi) :
    lo ≤ Bez.eval p x ∧ Bez.eval p x ≤ hi := by
  have hlow : ∀ (c : List K) (a : K), c.length = listProd p.order → (∀ v ∈ c, a ≤ v) →
      a ≤ tensorSum (bernsteinBasis p.order x) p.order c := by
    intro c a hcl h
    have := list_weighted_le (indices p.order) (basisProd (bernsteinBasis p.order x))
      (fun i => c.getD (flatIndex i p.order) 0) a
      (fun i _ => basisProd_nonneg _ i (bernsteinBasis_nonneg p.order x hc)) (fun i hi => h _ (mem_coefs hcl hi))
    rw [sum_bernsteinBasis p.order hw.2.1 x hx, one_mul] at this
    exact this
  rw [C30_value p hw x hx]
  refine ⟨hlow p.coefs lo hw.2.2 hlo, ?_⟩
  have h := hlow (p.coefs.map (-·)) (-hi) (by simpa using hw.2.2) (by
    intro v hv
    obtain ⟨c, hcm, rfl⟩ := List.mem_map.1 hv
    exact neg_le_neg (hhi c hcm))
  have hneg : tensorSum (bernsteinBasis p.order x) p.order (p.coefs.map (-·)) =
      -tensorSum (bernsteinBasis p.order x) p.order p.coefs := by
    rw [tensorSum_eq, tensorSum_eq]
    have := ts_smul p.order (bernsteinBasis p.order x) (-1 : K) (fun k => p.coefs.getD k 0)
    rw [neg_one_smul] at this
    rw [← this]
    congr 1
    funext k
    rw [neg_one_smul]
    rw [List.getD_eq_getElem?_getD, List.getD_eq_getElem?_getD, List.getElem?_map]
    cases p.coefs[k]? <;> simp
  rw [hneg] at h
  exact neg_le_neg_iff.1 h

theorem exists_lower (l : List K) (h : ∀ c ∈ l, 0 < c) : ∃ a, 0 < a ∧ ∀ c ∈ l, a ≤ c := by
  induction l with
  | nil => exact ⟨1, one_pos, by simp⟩
  | cons b l ih =>
    obtain ⟨a, ha, hl⟩ := ih fun c hc => h c (by simp [hc])
    refine ⟨min a b, lt_min ha (h b (by simp)), ?_⟩
    intro c hc
    rcases List.mem_cons.1 hc with rfl | hc
    · exact min_le_right _ _
    · exact (min_le_left _ _).trans (hl c hc)

theorem exists_upper (l : List K) : ∃ b, ∀ c ∈ l, c ≤ b := by
  induction l with
  | nil => exact ⟨0, by simp⟩
  | cons a l ih =>
    obtain ⟨b, hb⟩ := ih
    refine ⟨max a b, ?_⟩
    intro c hc
    rcases List.mem_cons.1 hc with rfl | hc
    · exact le_max_left _ _
    · exact (hb c hc).trans (le_max_right _ _)

/-- **C32** (sign certificates): positive coefficients mean a positive function on the unit cube, negative coefficients a
negative one. -/
theorem C32_signs (p : P K) (hw : WellFormed p.order p.coefs) (x : List K) (hx : x.length = p.order.length)
    (hc : InUnitCube x) :
    ((∀ c ∈ p.coefs, 0 < c) → 0 < Bez.eval p x) ∧ ((∀ c ∈ p.coefs, c < 0) → Bez.eval p x < 0) := by
  constructor
  · intro h
    obtain ⟨a, ha, hl⟩ := exists_lower p.coefs h
    obtain ⟨b, hb⟩ := exists_upper p.coefs
    exact lt_of_lt_of_le ha (C32_bounds p hw x hx hc a b hl hb).1
  · intro h
    obtain ⟨a, ha, hl⟩ := exists_lower (p.coefs.map (-·)) (by
      intro c hc
      obtain ⟨d, hd, rfl⟩ := List.mem_map.1 hc
      exact neg_pos.2 (h d hd))
    obtain ⟨b, hb⟩ := exists_upper (p.coefs.map (-·))
    have := (C32_bounds p hw x hx hc (-b) (-a) (fun c hcm => by
      have := hb (-c) (List.mem_map.2 ⟨c, hcm, rfl⟩)
      exact neg_le.1 this) (fun c hcm => by
      have := hl (-c) (List.mem_map.2 ⟨c, hcm, rfl⟩)
      exact le_neg.1 this)).2
    exact lt_of_le_of_lt this (neg_neg_iff_pos.2 ha)

end

/-! ### C33 -/

section
variable {K V : Type} [Field K] [CharZero K] [AddCommGroup V] [Module K V]

omit [CharZero K] in
theorem sum_rangeList (f : List (Nat → K)) : ∀ (lo up : List Nat), lo.length = up.length → f.length = up.length →
    ((rangeList lo up).map fun i => basisProd f i).sum =
      (List.zipWith (fun (lu : Nat × Nat) φ => ∑ i ∈ range (lu.2 - lu.1), φ (lu.1 + i)) (lo.zip up) f).prod := by
  induction f with
  | nil =>
    intro lo up h1 h2
    have : up = [] := List.length_eq_zero_iff.1 h2.symm
    subst this
    have : lo = [] := List.length_eq_zero_iff.1 h1
    subst this
    simp [rangeList, basisProd]
  | cons φ f ih =>
    intro lo up h1 h2
    match lo, up with
    | [], [] => simp at h2
    | [], _ :: _ => simp at h1
    | _ :: _, [] => simp at h1
    | l :: lo, u :: up =>
      simp only [rangeList]
      rw [sum_map_flatMap, List.zip_cons_cons, List.zipWith_cons_cons, List.prod_cons,
        ← ih lo up (by simpa using h1) (by simpa using h2)]
      have : ∀ t, (((List.range' l (u - l)).map (· :: t)).map fun i => basisProd (φ :: f) i).sum =
          (∑ i ∈ range (u - l), φ (l + i)) * basisProd f t := by
        intro t
        rw [List.map_map, List.range'_eq_map_range, List.map_map, list_sum_range, sum_mul]
        simp [basisProd]
      simp only [this]
      induction rangeList lo up with
      | nil => simp
      | cons a L ih' => simp only [List.map_cons, List.sum_cons, mul_add]; rw [ih']

/-- The power in the Bernstein basis. -/
theorem pow_eq_bernstein (n i : Nat) (hi : i < n) (x : K) :
    ∑ m ∈ range (n - i), bernstein (n - 1) (i + m) x * (((i + m).choose i : Nat) : K) * (((n - 1).choose i : Nat) : K)⁻¹ = x ^ i := by
  have hc : (((n - 1).choose i : Nat) : K) ≠ 0 := by
    have := Nat.choose_pos (show i ≤ n - 1 by omega)
    exact_mod_cast this.ne'
  rw [← sum_mul]
  rw [mul_inv_eq_iff_eq_mul₀ hc]
  have h : ∀ m ∈ range (n - i), bernstein (n - 1) (i + m) x * (((i + m).choose i : Nat) : K) =
      (x ^ i * (((n - 1).choose i : Nat) : K)) * bernstein (n - 1 - i) m x := by
    intro m hm
    rw [mem_range] at hm
    unfold bernstein
    have e := Nat.choose_mul (n := n - 1) (k := i + m) (s := i) (by omega)
    have e' : (((n - 1).choose (i + m) : Nat) : K) * (((i + m).choose i : Nat) : K) =
        (((n - 1).choose i : Nat) : K) * (((n - 1 - i).choose m : Nat) : K) := by
      rw [show i + m - i = m by omega] at e
      exact_mod_cast e
    rw [show n - 1 - (i + m) = n - 1 - i - m by omega, pow_add]
    linear_combination (x ^ i * x ^ m * (1 - x) ^ (n - 1 - i - m)) * e'
  rw [sum_congr rfl h, ← mul_sum]
  have := sum_bernstein (n - 1 - i) x
  rw [show n - 1 - i + 1 = n - i by omega] at this
  rw [this, mul_one]

omit [CharZero K] in
theorem divBinomials_eq (order tid : List Nat) (v : V) :
    divBinomials order tid v K = (List.zipWith (fun n t => ((((n - 1).choose t : Nat) : K))⁻¹) order tid).prod • v := by
  unfold divBinomials
  induction order generalizing tid v with
  | nil => simp
  | cons n ns ih =>
    cases tid with
    | nil => simp
    | cons t ts =>
      simp only [List.zip_cons_cons, List.foldl_cons, List.zipWith_cons_cons, List.prod_cons]
      rw [ih, smul_smul, mul_comm]

omit [CharZero K] in
theorem mulBinomials_eq (tid2 tid : List Nat) (v : V) :
    mulBinomials tid2 tid v K = (List.zipWith (fun n t => ((n.choose t : Nat) : K)) tid2 tid).prod • v := by
  unfold mulBinomials
  induction tid2 generalizing tid v with
  | nil => simp
  | cons n ns ih =>
    cases tid with
    | nil => simp
    | cons t ts =>
      simp only [List.zip_cons_cons, List.foldl_cons, List.zipWith_cons_cons, List.prod_cons]
      rw [ih, smul_smul, mul_comm]

omit [CharZero K] in
theorem basisProd_zip (f : List (Nat → K)) (g : Nat → Nat → K) : ∀ (i tid : List Nat), i.length = f.length →
    tid.length = f.length →
    basisProd f i * (List.zipWith g i tid).prod = basisProd (List.zipWith (fun φ t k => φ k * g k t) f tid) i := by
  induction f with
  | nil =>
    intro i tid h1 h2
    have : i = [] := List.length_eq_zero_iff.1 h1
    subst this; simp [basisProd]
  | cons φ f ih =>
    intro i tid h1 h2
    match i, tid with
    | [], _ => simp at h1
    | _ :: _, [] => simp at h2
    | k :: i, t :: tid =>
      simp only [basisProd, List.zipWith_cons_cons, List.prod_cons]
      rw [← ih i tid (by simpa using h1) (by simpa using h2)]
      ring

theorem conv_sum (order : List Nat) : ∀ (x : List K) (tid : List Nat), x.length = order.length →
    List.Forall₂ (· < ·) tid order →
    (List.zipWith (fun (lu : Nat × Nat) φ => ∑ i ∈ range (lu.2 - lu.1), φ (lu.1 + i)) (tid.zip order)
      (List.zipWith (fun (φ : Nat → K) t k => φ k * ((k.choose t : Nat) : K)) (bernsteinBasis order x) tid)).prod *
      (List.zipWith (fun n t => ((((n - 1).choose t : Nat) : K))⁻¹) order tid).prod = basisProd (monomialBasis x) tid := by
  induction order with
  | nil =>
    intro x tid hx ht
    cases ht
    simp [basisProd]
  | cons n ns ih =>
    intro x tid hx ht
    match x with
    | [] => simp at hx
    | t :: x =>
      cases ht with
      | @cons i _ tid _ h1 h2 =>
        have e := ih x tid (by simpa using hx) h2
        have h := pow_eq_bernstein n i h1 t
        rw [← sum_mul] at h
        simp only [bernsteinBasis, monomialBasis, List.zipWith_cons_cons, List.zip_cons_cons, List.prod_cons, List.map_cons,
          basisProd] at e ⊢
        rw [← e, ← h]
        ring

/-- **C33**: the Bezier polynomial created from a monomial polynomial has the same value at every point. -/
theorem C33_conversion (p : P V) (hw : WellFormed p.order p.coefs) (x : List K) (hx : x.length = p.order.length) :
    WellFormed (ofMonomials K p).order (ofMonomials K p).coefs ∧ Bez.eval (ofMonomials K p) x = Mon.eval p x := by
  have hvis : ∀ tid ∈ indices p.order, visitAll ⟨tid, p.order⟩ = rangeList tid p.order := by
    intro tid ht
    apply visitAll_box _ (mem_indices.1 ht)
    intro h
    have := (mem_indices.1 ht).length_eq
    rw [show tid = [] from h] at this
    exact hw.1 (List.length_eq_zero_iff.1 this.symm)
  have hin : ∀ tid ∈ indices p.order, ∀ t2 ∈ rangeList tid p.order, t2 ∈ indices p.order := by
    intro tid _ t2 h2
    exact mem_indices.2 (forall2_inBox.2 (mem_rangeList.1 h2)).2
  -- the coefficients as one loop
  have hco : toBezierCoefs K p = ((indices p.order).flatMap fun tid => (rangeList tid p.order).map fun t2 => (tid, t2)).foldl
      (fun bz (a : List Nat × List Nat) => addAt bz (flatIndex a.2 p.order)
        (mulBinomials a.2 a.1 (divBinomials p.order a.1 (p.coefs.getD (flatIndex a.1 p.order) 0) K) K))
      (List.replicate p.coefs.length 0) := by
    unfold toBezierCoefs
    rw [visitAll_ofUpper hw.1 hw.2.1, zip_indices _ _ hw.2.2, List.foldl_map, List.foldl_flatMap]
    apply List.foldl_ext
    intro bz tid ht
    rw [hvis tid ht, List.foldl_map]
    apply List.foldl_ext
    intro bz t2 h2
    rw [flat_eq (forall2_lt_iff_inSize.1 (mem_indices.1 (hin tid ht t2 h2)))]
    rfl
  obtain ⟨e1, e2⟩ := ts_foldl_addAt p.order (bernsteinBasis p.order x)
    ((indices p.order).flatMap fun tid => (rangeList tid p.order).map fun t2 => (tid, t2)) (fun a => a.2)
    (fun a => mulBinomials a.2 a.1 (divBinomials p.order a.1 (p.coefs.getD (flatIndex a.1 p.order) 0) K) K)
    (by
      intro a ha
      simp only [List.mem_flatMap, List.mem_map] at ha
      obtain ⟨tid, ht, t2, h2, rfl⟩ := ha
      exact hin tid ht t2 h2)
    (List.replicate p.coefs.length 0) (by simp [hw.2.2])
  rw [← hco] at e1 e2
  have hwq : WellFormed (ofMonomials K p).order (ofMonomials K p).coefs := ⟨hw.1, hw.2.1, e1⟩
  refine ⟨hwq, ?_⟩
  rw [C30_value _ hwq x hx, C29_value p hw x hx, tensorSum_eq, tensorSum_eq]
  change ts p.order (bernsteinBasis p.order x) (fun k => (toBezierCoefs K p).getD k 0) = _
  rw [e2]
  have hz : ts p.order (bernsteinBasis p.order x) (fun k => (List.replicate p.coefs.length (0 : V)).getD k 0) = 0 := by
    refine Eq.trans ?_ (ts_zero (V := V) p.order (bernsteinBasis p.order x))
    congr 1
    funext k
    rw [List.getD_eq_getElem?_getD, List.getElem?_replicate]
    split_ifs <;> rfl
  rw [hz, zero_add, sum_map_flatMap]
  unfold ts
  congr 1
  apply List.map_congr_left
  intro tid ht
  have htl : tid.length = p.order.length := (mem_indices.1 ht).length_eq
  have hbl : (bernsteinBasis p.order x).length = p.order.length := by simp [bernsteinBasis, hx]
  rw [List.map_map, ← conv_sum p.order x tid hx (mem_indices.1 ht),
    ← sum_rangeList _ tid p.order htl (by simp [htl, bernsteinBasis, hx])]
  -- factor out the coefficient
  have hterm : ∀ t2 ∈ rangeList tid p.order, ((fun a : List Nat × List Nat => basisProd (bernsteinBasis p.order x) a.2 •
      mulBinomials a.2 a.1 (divBinomials p.order a.1 (p.coefs.getD (flatIndex a.1 p.order) 0) K) K) ∘ fun t2 => (tid, t2)) t2 =
      basisProd (List.zipWith (fun (φ : Nat → K) t k => φ k * ((k.choose t : Nat) : K)) (bernsteinBasis p.order x) tid) t2 •
        ((List.zipWith (fun n t => ((((n - 1).choose t : Nat) : K))⁻¹) p.order tid).prod •
          p.coefs.getD (flatIndex tid p.order) 0) := by
    intro t2 h2
    have ht2l : t2.length = p.order.length := (mem_indices.1 (hin tid ht t2 h2)).length_eq
    simp only [Function.comp]
    rw [mulBinomials_eq, divBinomials_eq, smul_smul,
      basisProd_zip (bernsteinBasis p.order x) (fun k t => ((k.choose t : Nat) : K)) t2 tid (by omega) (by omega)]
  rw [List.map_congr_left hterm, mul_smul]
  generalize (List.zipWith (fun n t => ((((n - 1).choose t : Nat) : K))⁻¹) p.order tid).prod •
          p.coefs.getD (flatIndex tid p.order) 0 = w
  induction rangeList tid p.order with
  | nil => simp
  | cons a L ih => simp only [List.map_cons, List.sum_cons, add_smul]; rw [ih]

end

/-! Concrete cases: `1 + 2x + 3y + 4xy` as a Bezier polynomial. -/
example : ofMonomials ℚ ⟨[2, 2], [(1 : ℚ), 2, 3, 4]⟩ = ⟨[2, 2], [1, 3, 4, 10]⟩ := by decide +kernel
example : Bez.eval ⟨[2, 2], [(1 : ℚ), 3, 4, 10]⟩ [(1 : ℚ) / 2, -1] = -3 := by decide +kernel
example : Bez.grad ⟨[2, 2], [(1 : ℚ), 3, 4, 10]⟩ [(1 : ℚ) / 2, -1] = [-2, 5] := by decide +kernel
example : bernsteinValues (1 / 2 : ℚ) 3 1 = [-1, 0, 1] := by decide +kernel

end Qugar.Poly
