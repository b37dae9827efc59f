import Verif.Spec.PolyCalculus
import Verif.Lemmas.PolyEval
import Mathlib.Analysis.Calculus.Deriv.Pow
import Mathlib.Analysis.Calculus.Deriv.Mul
import Mathlib.Analysis.Calculus.Deriv.Add
import Mathlib.Analysis.Calculus.Deriv.Comp
import Mathlib.Analysis.Calculus.Deriv.Polynomial
/-
Derivatives of tensor-product sums.
-/
namespace Qugar.Poly
open Spec TS Finset

section
variable {K V : Type} [Field K] [AddCommGroup V] [Module K V]

/-- One basis function per direction, with `ds d` derivatives in the direction `d`. -/
def famD (B : Nat → Nat → K → Nat → K) (size : List Nat) (x : List K) (ds : Nat → Nat) : List (Nat → K) :=
  (List.range size.length).map fun d => B (ds d) (size.getD d 0) (x.getD d 0)

/-- One derivative in the direction `d`. -/
def unit (d : Nat) : Nat → Nat := fun e => if e = d then 1 else 0

theorem getD_zipWith {α β γ : Type} (f : α → β → γ) (a : List α) (b : List β) (k : Nat) (da : α) (db : β) (dc : γ)
    (ha : k < a.length) (hb : k < b.length) : (List.zipWith f a b).getD k dc = f (a.getD k da) (b.getD k db) := by
  simp only [List.getD_eq_getElem?_getD, List.getElem?_zipWith, List.getElem?_eq_getElem ha, List.getElem?_eq_getElem hb]
  rfl

theorem fam_eq_famD (B : Nat → Nat → K → Nat → K) (size : List Nat) (x : List K) (h : x.length = size.length) :
    fam (B 0) size x = famD B size x (fun _ => 0) := by
  unfold fam famD
  rw [eq_map_getD' (List.zipWith (B 0) size x) (fun _ => 0)]
  rw [List.length_zipWith, h, min_self]
  apply List.map_congr_left
  intro d hd
  rw [List.mem_range] at hd
  rw [getD_zipWith (B 0) size x d 0 0 _ hd (by omega)]
where
  eq_map_getD' {α : Type} (l : List α) (d : α) : l = (List.range l.length).map fun k => l.getD k d := by
    apply List.ext_getElem
    · simp
    · intro i h1 h2
      simp [List.getElem?_eq_getElem h1]

theorem famSet_eq_famD (B : Nat → Nat → K → Nat → K) (size : List Nat) (x : List K) (h : x.length = size.length) (d : Nat) :
    famSet (B 0) (B 1) size x d = famD B size x (unit d) := by
  unfold famSet
  rw [fam_eq_famD B size x h]
  unfold famD
  apply List.ext_getElem
  · simp
  · intro i h1 h2
    rw [List.getElem_set]
    simp only [List.getElem_map, List.getElem_range, unit]
    by_cases hd : d = i
    · subst hd; simp
    · rw [if_neg hd, if_neg (Ne.symm hd)]

theorem basisProd_range (m : Nat) (F : Nat → Nat → K) (i : List Nat) (hi : i.length = m) :
    basisProd ((List.range m).map F) i = ∏ d ∈ range m, F d (i.getD d 0) := by
  induction i generalizing m F with
  | nil =>
    have : m = 0 := by simpa using hi.symm
    subst this; simp [basisProd]
  | cons a i ih =>
    have : m = i.length + 1 := by simpa using hi.symm
    subst this
    rw [List.range_succ_eq_map, List.map_cons, List.map_map]
    simp only [basisProd]
    rw [ih i.length (F ∘ Nat.succ) rfl, prod_range_succ', mul_comm]
    simp

end

theorem getD_along (x v : List ℝ) (t : ℝ) (d : Nat) (hx : d < x.length) (hv : d < v.length) :
    (along x v t).getD d 0 = x.getD d 0 + t * v.getD d 0 :=
  getD_zipWith _ _ _ _ 0 0 0 hx hv

variable {V : Type} [NormedAddCommGroup V] [NormedSpace ℝ V]

/-- The family `B` of 1D functions together with its derivatives. -/
def DerFam (B : Nat → Nat → ℝ → Nat → ℝ) (ok : Nat → Prop) : Prop :=
  ∀ der n t i, ok n → i < n → HasDerivAt (fun s => B der n s i) (B (der + 1) n t i) t

theorem hasDerivAt_basisProd (B : Nat → Nat → ℝ → Nat → ℝ) (ok : Nat → Prop) (hB : DerFam B ok) (size : List Nat)
    (hok : ∀ n ∈ size, ok n) (x v : List ℝ) (hx : x.length = size.length) (hv : v.length = size.length) (ds : Nat → Nat)
    (i : List Nat) (hi : i ∈ indices size) :
    HasDerivAt (fun t => basisProd (famD B size (along x v t) ds) i)
      (∑ e ∈ range size.length, v.getD e 0 * basisProd (famD B size x (fun d => ds d + unit e d)) i) 0 := by
  have hlen : i.length = size.length := (mem_indices.1 hi).length_eq
  unfold famD
  simp only [basisProd_range size.length _ i hlen]
  have hidx : ∀ d, d < size.length → i.getD d 0 < size.getD d 0 := by
    intro d hd
    have := (List.forall₂_iff_get.1 (mem_indices.1 hi)).2 d (by omega) hd
    simpa [hd, show d < i.length by omega] using this
  have hder : ∀ d ∈ range size.length,
      HasDerivAt (fun t => B (ds d) (size.getD d 0) ((along x v t).getD d 0) (i.getD d 0))
        (v.getD d 0 * B (ds d + 1) (size.getD d 0) (x.getD d 0) (i.getD d 0)) 0 := by
    intro d hd
    rw [mem_range] at hd
    have hmem : size.getD d 0 ∈ size := by simp [hd]
    have h1 := hB (ds d) (size.getD d 0) (x.getD d 0 + 0 * v.getD d 0) (i.getD d 0) (hok _ hmem) (hidx d hd)
    have h2 : HasDerivAt (fun t : ℝ => x.getD d 0 + t * v.getD d 0) (v.getD d 0) 0 := by
      simpa using ((hasDerivAt_id (0 : ℝ)).mul_const (v.getD d 0)).const_add (x.getD d 0)
    have h3 := HasDerivAt.comp (0 : ℝ) h1 h2
    have hfun : (fun t => B (ds d) (size.getD d 0) ((along x v t).getD d 0) (i.getD d 0)) =
        (fun s => B (ds d) (size.getD d 0) s (i.getD d 0)) ∘ (fun t : ℝ => x.getD d 0 + t * v.getD d 0) := by
      funext t
      simp only [Function.comp]
      rw [getD_along x v t d (by omega) (by omega)]
    rw [hfun]
    have hval : v.getD d 0 * B (ds d + 1) (size.getD d 0) (x.getD d 0) (i.getD d 0) =
        B (ds d + 1) (size.getD d 0) (x.getD d 0 + 0 * v.getD d 0) (i.getD d 0) * v.getD d 0 := by
      rw [zero_mul, add_zero, mul_comm]
    rw [hval]
    exact h3
  have hp := HasDerivAt.fun_finsetProd hder
  have hz : ∀ d ∈ range size.length, (along x v 0).getD d 0 = x.getD d 0 := by
    intro d hd
    rw [mem_range] at hd
    rw [getD_along x v 0 d (by omega) (by omega), zero_mul, add_zero]
  refine hp.congr_deriv ?_
  symm
  apply sum_congr rfl
  intro e he
  rw [smul_eq_mul, ← mul_prod_erase (range size.length) _ he]
  have : ∏ d ∈ (range size.length).erase e, B (ds d + unit e d) (size.getD d 0) (x.getD d 0) (i.getD d 0) =
      ∏ j ∈ (range size.length).erase e, B (ds j) (size.getD j 0) ((along x v 0).getD j 0) (i.getD j 0) := by
    apply prod_congr rfl
    intro d hd
    rw [mem_erase] at hd
    rw [hz d hd.2]
    simp [unit, hd.1]
  rw [this]
  simp only [unit, if_true]
  ring

theorem hasDerivAt_list_sum {α : Type} (L : List α) (f : α → ℝ → V) (f' : α → V) (s : ℝ)
    (h : ∀ a ∈ L, HasDerivAt (f a) (f' a) s) : HasDerivAt (fun t => (L.map fun a => f a t).sum) (L.map f').sum s := by
  induction L with
  | nil => simpa using hasDerivAt_const s (0 : V)
  | cons a L ih =>
    simp only [List.map_cons, List.sum_cons]
    exact (h a (by simp)).add (ih fun b hb => h b (by simp [hb]))

theorem list_sum_finset_sum {α : Type} (L : List α) (s : Finset Nat) (g : Nat → α → V) :
    (L.map fun a => ∑ e ∈ s, g e a).sum = ∑ e ∈ s, (L.map fun a => g e a).sum := by
  induction L with
  | nil => simp
  | cons a L ih => simp only [List.map_cons, List.sum_cons, ih, sum_add_distrib]

theorem hasDerivAt_ts (B : Nat → Nat → ℝ → Nat → ℝ) (ok : Nat → Prop) (hB : DerFam B ok) (size : List Nat)
    (hok : ∀ n ∈ size, ok n) (x v : List ℝ) (hx : x.length = size.length) (hv : v.length = size.length) (ds : Nat → Nat)
    (c : Nat → V) :
    HasDerivAt (fun t => ts size (famD B size (along x v t) ds) c)
      (∑ e ∈ range size.length, v.getD e 0 • ts size (famD B size x (fun d => ds d + unit e d)) c) 0 := by
  unfold ts
  have h := hasDerivAt_list_sum (indices size)
    (fun i t => basisProd (famD B size (along x v t) ds) i • c (flatIndex i size))
    (fun i => (∑ e ∈ range size.length, v.getD e 0 * basisProd (famD B size x (fun d => ds d + unit e d)) i) •
      c (flatIndex i size)) 0
    (fun i hi => (hasDerivAt_basisProd B ok hB size hok x v hx hv ds i hi).smul_const _)
  convert h using 1
  simp only [sum_smul, list_sum_finset_sum]
  apply sum_congr rfl
  intro e _
  rw [smul_list_sum]
  simp only [smul_smul]

/-- Sum over directions in list form. -/
theorem zipWith_sum (v : List ℝ) (m : Nat) (hv : v.length = m) (g : Nat → V) :
    (List.zipWith (fun a b => a • b) v ((List.range m).map g)).sum = ∑ e ∈ range m, v.getD e 0 • g e := by
  induction v generalizing m g with
  | nil =>
    have : m = 0 := by simpa using hv.symm
    subst this; simp
  | cons a v ih =>
    have : m = v.length + 1 := by simpa using hv.symm
    subst this
    rw [List.range_succ_eq_map, List.map_cons, List.map_map, List.zipWith_cons_cons, List.sum_cons,
      ih v.length rfl (g ∘ Nat.succ), sum_range_succ']
    simp [add_comm]

theorem isGradientV_ts (B : Nat → Nat → ℝ → Nat → ℝ) (ok : Nat → Prop) (hB : DerFam B ok) (size : List Nat)
    (hok : ∀ n ∈ size, ok n) (x : List ℝ) (hx : x.length = size.length) (ds : Nat → Nat) (c : Nat → V) :
    IsGradientV (fun y => ts size (famD B size y ds) c) x
      ((List.range size.length).map fun e => ts size (famD B size x (fun d => ds d + unit e d)) c) := by
  refine ⟨by simp [hx], ?_⟩
  intro v hv
  rw [zipWith_sum v size.length (by omega)]
  exact hasDerivAt_ts B ok hB size hok x v hx (by omega) ds c

/-! ### Position of an entry in the upper triangle -/

theorem triangle_getD {W : Type} (m : Nat) (h : Nat → Nat → W) (d : W) : ∀ k i j, i < k → i ≤ j → j < m → k ≤ m →
    ((List.range k).flatMap fun i => (List.range' i (m - i)).map fun j => h i j).getD
      (i * m - i * (i + 1) / 2 + j) d = h i j := by
  have tri : ∀ k, k ≤ m → ∀ (f : Nat → Nat → W),
      ((List.range k).flatMap fun i => (List.range' i (m - i)).map fun j => f i j).length + k * (k - 1) / 2 = k * m := by
    intro k
    induction k with
    | zero => intro _ f; simp
    | succ k ih =>
      intro hk f
      have := ih (by omega) f
      rw [List.range_succ, List.flatMap_append, List.length_append]
      simp only [List.flatMap_cons, List.flatMap_nil, List.append_nil, List.length_map, List.length_range',
        Nat.add_sub_cancel]
      have e1 : (k + 1) * k / 2 = k * (k - 1) / 2 + k := by
        cases k with
        | zero => rfl
        | succ k =>
          simp only [Nat.add_sub_cancel]
          rw [show (k + 1 + 1) * (k + 1) = (k + 1) * k + (k + 1) * 2 by ring, Nat.add_mul_div_right _ _ (by omega)]
      rw [e1, Nat.succ_mul]
      omega
  have e0 : ∀ i, i * (i + 1) / 2 = i * (i - 1) / 2 + i := by
    intro i
    cases i with
    | zero => rfl
    | succ k =>
      simp only [Nat.add_sub_cancel]
      rw [show (k + 1) * (k + 1 + 1) = (k + 1) * k + (k + 1) * 2 by ring, Nat.add_mul_div_right _ _ (by omega)]
  intro k
  induction k with
  | zero => intro i j h; omega
  | succ k ih =>
    intro i j hi hij hj hk
    rw [List.range_succ, List.flatMap_append]
    have ht := tri k (by omega) h
    have e0i := e0 i
    have e0k := e0 k
    by_cases hik : i < k
    · rw [List.getD_append]
      · exact ih i j hik hij hj (by omega)
      · have ht2 := tri (i + 1) (by omega) h
        have hsub : ((List.range (i + 1)).flatMap fun i => (List.range' i (m - i)).map fun j => h i j).length ≤
            ((List.range k).flatMap fun i => (List.range' i (m - i)).map fun j => h i j).length := by
          have : List.range k = List.range (i + 1) ++ List.range' (i + 1) (k - (i + 1)) := by
            have h1 := List.range'_append_1 (s := 0) (m := i + 1) (n := k - (i + 1))
            rw [Nat.zero_add, show i + 1 + (k - (i + 1)) = k by omega] at h1
            rw [List.range_eq_range', List.range_eq_range', h1]
          rw [this, List.flatMap_append, List.length_append]
          omega
        have e3 : (i + 1) * (i + 1 - 1) / 2 = i * (i + 1) / 2 := by rw [Nat.add_sub_cancel, mul_comm]
        have e4 : (i + 1) * m = i * m + m := by ring
        have e5 : i * (i + 1) / 2 ≤ i * m := by
          have : i * (i + 1) ≤ i * m * 2 := by nlinarith
          omega
        rw [e3, e4] at ht2
        generalize i * m = A at *
        generalize i * (i + 1) / 2 = C at *
        omega
    · have : i = k := by omega
      subst this
      have e5 : i * (i - 1) / 2 ≤ i * m := by omega
      have e6 : i * (i + 1) / 2 ≤ i * m := by
        have : i * (i + 1) ≤ i * m * 2 := by nlinarith
        omega
      rw [List.getD_append_right _ _ _ _ (by omega)]
      simp only [List.flatMap_cons, List.flatMap_nil, List.append_nil]
      have e7 : i * m - i * (i + 1) / 2 + j -
          ((List.range i).flatMap fun i => (List.range' i (m - i)).map fun j => h i j).length = j - i := by omega
      rw [e7, List.getD_eq_getElem?_getD]
      simp [show j - i < m - i by omega, show i + (j - i) = j by omega]

theorem symMatrix_row {W : Type} [Zero W] (m : Nat) (h : Nat → Nat → W) (hs : ∀ i j, h i j = h j i) (i : Nat) (hi : i < m) :
    (symMatrix m ((List.range m).flatMap fun i => (List.range' i (m - i)).map fun j => h i j)).getD i [] =
      (List.range m).map fun j => h i j := by
  unfold symMatrix
  rw [getD_map_range _ _ _ _ hi]
  apply List.map_congr_left
  intro j hj
  rw [List.mem_range] at hj
  rw [triangle_getD m h 0 m (min i j) (max i j) (by omega) (by omega) (by omega) (le_refl _)]
  rcases le_total i j with h1 | h1
  · rw [min_eq_left h1, max_eq_right h1]
  · rw [min_eq_right h1, max_eq_left h1, hs]

theorem isHessianV_ts (B : Nat → Nat → ℝ → Nat → ℝ) (ok : Nat → Prop) (hB : DerFam B ok) (size : List Nat)
    (hok : ∀ n ∈ size, ok n) (x : List ℝ) (hx : x.length = size.length) (c : Nat → V) (G : List ℝ → List V)
    (hG : ∀ y, y.length = size.length → G y = (List.range size.length).map fun e => ts size (famD B size y (unit e)) c) :
    IsHessianV G x ((List.range size.length).flatMap fun i => (List.range' i (size.length - i)).map fun j =>
      ts size (famD B size x (fun d => unit i d + unit j d)) c) := by
  intro i hi
  rw [hx] at hi ⊢
  rw [symMatrix_row size.length (fun i j => ts size (famD B size x (fun d => unit i d + unit j d)) c)
    (fun i j => by simp only [add_comm]) i hi]
  have h := isGradientV_ts B ok hB size hok x hx (unit i) c
  refine ⟨h.1, fun v hv => ?_⟩
  have h2 := h.2 v hv
  apply h2.congr_of_eventuallyEq
  apply Filter.Eventually.of_forall
  intro t
  have hl : (along x v t).length = size.length := by unfold along; simp; omega
  simp only
  rw [hG _ hl, getD_map_range _ _ _ _ hi]

end Qugar.Poly
