import Verif.Props.Bezier
/-
Lemmas about the product of Bezier polynomials.
-/
namespace Qugar.Poly
open Spec TS Finset

/-- Bernstein polynomials without the binomial factor. -/
def scaledBasis {K : Type} [Field K] (size : List Nat) (x : List K) : List (Nat → K) :=
  List.zipWith (fun n t i => t ^ i * (1 - t) ^ (n - 1 - i)) size x

/-- Order of a product. -/
def prodOrder (a b : List Nat) : List Nat := List.zipWith (fun a b => (a - 1) + (b - 1) + 1) a b

section
variable {K : Type} [Field K]

theorem bernsteinBasis_scaled (size : List Nat) : ∀ (x : List K), x.length = size.length → ∀ i : List Nat,
    i.length = size.length → basisProd (bernsteinBasis size x) i =
      (List.zipWith (fun n t => (((n - 1).choose t : Nat) : K)) size i).prod * basisProd (scaledBasis size x) i := by
  induction size with
  | nil => intro x hx i hi; simp [bernsteinBasis, scaledBasis, basisProd]
  | cons n ns ih =>
    intro x hx i hi
    match x, i with
    | [], _ => simp at hx
    | _ :: _, [] => simp at hi
    | t :: x, k :: i =>
      have e := ih x (by simpa using hx) i (by simpa using hi)
      unfold bernsteinBasis scaledBasis at e ⊢
      simp only [List.zipWith_cons_cons, basisProd, List.prod_cons]
      rw [e]; unfold bernstein; ring

theorem scaledBasis_prod (a : List Nat) : ∀ (b : List Nat) (x : List K), b.length = a.length → x.length = a.length →
    ∀ i ∈ indices a, ∀ j ∈ indices b,
    basisProd (scaledBasis (prodOrder a b) x) (List.zipWith (· + ·) i j) =
      basisProd (scaledBasis a x) i * basisProd (scaledBasis b x) j := by
  induction a with
  | nil => 
    intro b x hb hx i hi j hj
    have : b = [] := List.length_eq_zero_iff.1 hb
    subst this; simp [scaledBasis, prodOrder, basisProd]
  | cons n ns ih =>
    intro b x hb hx i hi j hj
    match b, x with
    | [], _ => simp at hb
    | _ :: _, [] => simp at hx
    | m :: b, t :: x =>
      cases mem_indices.1 hi with
      | @cons k _ i _ h1 h2 =>
        cases mem_indices.1 hj with
        | @cons l _ j _ h3 h4 =>
          have e := ih b x (by simpa using hb) (by simpa using hx) i (mem_indices.2 h2) j (mem_indices.2 h4)
          unfold prodOrder scaledBasis at e ⊢
          simp only [List.zipWith_cons_cons, basisProd]
          rw [e, show n - 1 + (m - 1) + 1 - 1 - (k + l) = (n - 1 - k) + (m - 1 - l) by omega, pow_add, pow_add]
          ring

theorem mem_prodOrder {a b : List Nat} (hl : b.length = a.length) {i j : List Nat} (hi : i ∈ indices a) (hj : j ∈ indices b) :
    List.zipWith (· + ·) i j ∈ indices (prodOrder a b) := by
  rw [mem_indices] at *
  induction hi generalizing b j with
  | nil =>
    have : b = [] := List.length_eq_zero_iff.1 hl
    subst this; simp [prodOrder]
  | @cons k n i a h1 _ ih =>
    cases hj with
    | nil => simp at hl
    | @cons l m j b h3 h4 =>
      unfold prodOrder at ih ⊢
      simp only [List.zipWith_cons_cons]
      exact .cons (by omega) (ih (by simpa using hl) h4)

theorem prodOrder_pos {a b : List Nat} : ∀ n ∈ prodOrder a b, 0 < n := by
  intro n hn
  unfold prodOrder at hn
  rw [List.mem_iff_getElem] at hn
  obtain ⟨k, hk, rfl⟩ := hn
  simp

theorem prodOrder_length {a b : List Nat} (hl : b.length = a.length) : (prodOrder a b).length = a.length := by
  simp [prodOrder, hl]

theorem mulPos_eq {a b : List Nat} (hl : b.length = a.length) (h1 : 1 ≤ a.length) (h3 : a.length ≤ 3) {i j : List Nat}
    (hi : i ∈ indices a) (hj : j ∈ indices b) :
    mulPos (prodOrder a b) i j = some (flatIndex (List.zipWith (· + ·) i j) (prodOrder a b)) := by
  have li := (mem_indices.1 hi).length_eq
  have lj := (mem_indices.1 hj).length_eq
  match a, b, i, j, hl, li, lj, h1, h3 with
  | [_], [_], [_], [_], _, _, _, _, _ => simp [prodOrder, mulPos, flatIndex]
  | [_, _], [_, _], [_, _], [_, _], _, _, _, _, _ => simp [prodOrder, mulPos, flatIndex]; ring
  | [_, _, _], [_, _, _], [_, _, _], [_, _, _], _, _, _, _, _ => simp [prodOrder, mulPos, flatIndex]; ring

variable {V : Type} [AddCommGroup V] [Module K V]

omit [Field K] [Module K V] in
theorem zipWith_indices {W : Type} [AddCommGroup W] (size : List Nat) (g : List Nat → V → W) (c : List V) (hc : c.length = listProd size) :
    List.zipWith g (indices size) c = (indices size).map fun i => g i (c.getD (flatIndex i size) 0) := by
  rw [← List.map_uncurry_zip_eq_zipWith, zip_indices size c hc, List.map_map]
  rfl

variable [CharZero K]

omit [CharZero K] in
/-- Evaluation with the coefficients multiplied by binomials. -/
theorem ts_bernstein (size : List Nat) (x : List K) (hx : x.length = size.length) (c : List V) (hc : c.length = listProd size) :
    ts size (bernsteinBasis size x) (fun k => c.getD k 0) =
      ((indices size).map fun i => basisProd (scaledBasis size x) i •
        mulBinomials (size.map (· - 1)) i (c.getD (flatIndex i size) 0) K).sum := by
  unfold ts
  congr 1
  apply List.map_congr_left
  intro i hi
  rw [bernsteinBasis_scaled size x hx i (mem_indices.1 hi).length_eq, mulBinomials_eq, smul_smul, mul_comm]
  congr 2
  rw [List.zipWith_map_left]

theorem ts_divBinomials (size : List Nat) (x : List K) (hx : x.length = size.length) (c : List V) (hc : c.length = listProd size) :
    ts size (bernsteinBasis size x) (fun k => ((indices size).map fun i => divBinomials size i (c.getD (flatIndex i size) 0) K).getD k 0) =
      ts size (scaledBasis size x) (fun k => c.getD k 0) := by
  unfold ts
  congr 1
  apply List.map_congr_left
  intro i hi
  dsimp only
  rw [getD_indices_map size _ 0 i hi, bernsteinBasis_scaled size x hx i (mem_indices.1 hi).length_eq, divBinomials_eq, smul_smul]
  congr 1
  have hne : ∀ (s i : List Nat), List.Forall₂ (· < ·) i s →
      (List.zipWith (fun n t => (((n - 1).choose t : Nat) : K)) s i).prod *
        (List.zipWith (fun n t => ((((n - 1).choose t : Nat) : K))⁻¹) s i).prod = 1 := by
    intro s i h
    induction h with
    | nil => simp
    | @cons k n i s h1 _ ih =>
      simp only [List.zipWith_cons_cons, List.prod_cons]
      have hc : (((n - 1).choose k : Nat) : K) ≠ 0 := by
        have := Nat.choose_pos (show k ≤ n - 1 by omega)
        exact_mod_cast this.ne'
      rw [mul_mul_mul_comm, ih, mul_inv_cancel₀ hc, one_mul]
  have := hne size i (mem_indices.1 hi)
  linear_combination (basisProd (scaledBasis size x) i) * this

variable {A : Type} [CommRing A] [Algebra K A]

omit [CharZero K] in
theorem sum_smul_mul {α β : Type} (L : List α) (M : List β) (f : α → K) (g : β → K) (u : α → A) (v : β → A) :
    (L.map fun a => f a • u a).sum * (M.map fun b => g b • v b).sum =
      (L.map fun a => (M.map fun b => (f a * g b) • (u a * v b)).sum).sum := by
  induction L with
  | nil => simp
  | cons a L ih =>
    simp only [List.map_cons, List.sum_cons, add_mul, ih]
    congr 1
    clear ih
    induction M with
    | nil => simp
    | cons b M ihM =>
      simp only [List.map_cons, List.sum_cons, mul_add, ← ihM]
      congr 1; rw [smul_mul_smul_comm]

/-- The product of Beziers. -/
theorem mul_spec (l r : P A) (hl : WellFormed l.order l.coefs) (hr : WellFormed r.order r.coefs)
    (hd : r.order.length = l.order.length) (h3 : l.order.length ≤ 3) :
    (mul K l r).order = prodOrder l.order r.order ∧ WellFormed (mul K l r).order (mul K l r).coefs ∧
    ∀ x : List K, x.length = l.order.length → Bez.eval (mul K l r) x = Bez.eval l x * Bez.eval r x := by
  have h1 : 1 ≤ l.order.length := by have := List.length_pos_of_ne_nil hl.1; omega
  have hone : prodOrder l.order r.order ≠ [] := by
    intro h
    have := congrArg List.length h
    rw [prodOrder_length hd] at this
    simp only [List.length_nil] at this; omega
  obtain ⟨ord, hord⟩ : ∃ o, o = prodOrder l.order r.order := ⟨_, rfl⟩
  have hpos : ∀ n ∈ ord, 0 < n := by rw [hord]; exact prodOrder_pos
  have hlen : ord.length = l.order.length := by rw [hord]; exact prodOrder_length hd
  obtain ⟨val, hval⟩ : ∃ val : P A → List Nat → A, val = fun p i =>
    mulBinomials (p.order.map (· - 1)) i (p.coefs.getD (flatIndex i p.order) 0) K := ⟨_, rfl⟩
  have haux : ∀ p : P A, WellFormed p.order p.coefs →
      (visitAll (Range.ofUpper p.order)).zip (auxVector K p) = (indices p.order).map fun i => (i, val p i) := by
    intro p hp
    unfold auxVector
    rw [visitAll_ofUpper hp.1 hp.2.1, zipWith_indices _ _ _ hp.2.2, hval]
    exact List.map_prod_left_eq_zip.symm
  -- the convolution as one loop
  have hconv : mul K l r = ⟨ord, (indices ord).map fun i => divBinomials ord i
      ((((indices l.order).flatMap fun i => (indices r.order).map fun j => (i, j)).foldl
        (fun c (a : List Nat × List Nat) => addAt c (flatIndex (List.zipWith (· + ·) a.1 a.2) ord) (val l a.1 * val r a.2))
        (List.replicate (listProd ord) 0)).getD (flatIndex i ord) 0) K⟩ := by
    have hc : ((visitAll (Range.ofUpper l.order)).zip (auxVector K l)).foldl (fun c ia =>
      ((visitAll (Range.ofUpper r.order)).zip (auxVector K r)).foldl (fun c jb =>
        match mulPos ord ia.1 jb.1 with
        | some k => c.modify k (· + ia.2 * jb.2)
        | none => c) c) (List.replicate (tsize ord) 0) =
      ((indices l.order).flatMap fun i => (indices r.order).map fun j => (i, j)).foldl
        (fun c (a : List Nat × List Nat) => addAt c (flatIndex (List.zipWith (· + ·) a.1 a.2) ord) (val l a.1 * val r a.2))
        (List.replicate (listProd ord) 0) := by
      rw [haux l hl, haux r hr, List.foldl_map, List.foldl_flatMap, tsize_eq]
      apply List.foldl_ext
      intro c i hi
      rw [List.foldl_map, List.foldl_map]
      apply List.foldl_ext
      intro c j hj
      rw [hord, mulPos_eq hd h1 h3 hi hj]
      rfl
    unfold mul
    dsimp only
    rw [show List.zipWith (fun a b => a - 1 + (b - 1) + 1) l.order r.order = ord from hord.symm]
    refine (congrArg (fun c => (⟨ord, List.zipWith (fun tid v => divBinomials ord tid v K)
      (visitAll (Range.ofUpper ord)) c⟩ : P A)) hc).trans ?_
    congr 1
    rw [visitAll_ofUpper (by rw [hord]; exact hone) hpos]
    apply zipWith_indices
    exact (ts_foldl_addAt ord (scaledBasis (K := K) ord []) _ (fun a : List Nat × List Nat => List.zipWith (· + ·) a.1 a.2)
      (fun a => val l a.1 * val r a.2) (by
        intro a ha
        simp only [List.mem_flatMap, List.mem_map] at ha
        obtain ⟨i, hi, j, hj, rfl⟩ := ha
        rw [hord]; exact mem_prodOrder hd hi hj) _ (by simp)).1
  refine ⟨by rw [hconv, hord], ?_, ?_⟩
  · rw [hconv]
    exact ⟨by rw [hord]; exact hone, hpos, by simp [length_indices]⟩
  intro x hx
  obtain ⟨e1, e2⟩ := ts_foldl_addAt ord (scaledBasis ord x) ((indices l.order).flatMap fun i => (indices r.order).map fun j => (i, j))
      (fun a : List Nat × List Nat => List.zipWith (· + ·) a.1 a.2)
      (fun a => val l a.1 * val r a.2) (by
        intro a ha
        simp only [List.mem_flatMap, List.mem_map] at ha
        obtain ⟨i, hi, j, hj, rfl⟩ := ha
        rw [hord]; exact mem_prodOrder hd hi hj) (List.replicate (listProd ord) 0) (by simp)
  have hwm : WellFormed (mul K l r).order (mul K l r).coefs := by
    rw [hconv]
    exact ⟨by rw [hord]; exact hone, hpos, by simp [length_indices]⟩
  rw [C30_value _ hwm x (by rw [hconv]; simp only; omega), C30_value l hl x hx, C30_value r hr x (by omega), tensorSum_eq,
    tensorSum_eq, tensorSum_eq, hconv]
  dsimp only
  rw [ts_divBinomials ord x (by omega) _ e1, e2, ts_bernstein l.order x hx _ hl.2.2, ts_bernstein r.order x (by omega) _ hr.2.2,
    sum_smul_mul]
  have hz : ts ord (scaledBasis ord x) (fun k => (List.replicate (listProd ord) (0 : A)).getD k 0) = 0 := by
    refine Eq.trans ?_ (ts_zero (V := A) ord (scaledBasis ord x))
    congr 1
    funext k
    rw [List.getD_eq_getElem?_getD, List.getElem?_replicate]
    split_ifs <;> rfl
  rw [hz, zero_add, sum_map_flatMap]
  congr 1
  apply List.map_congr_left
  intro i hi
  rw [List.map_map]
  congr 1
  apply List.map_congr_left
  intro j hj
  simp only [Function.comp]
  rw [hord, scaledBasis_prod l.order r.order x hd hx i hi j hj, hval]

end

end Qugar.Poly
