import Verif.Lemmas.PolyEval
/-
The Horner loops of the monomials.
-/
namespace Qugar.Poly
open Spec TS Finset

variable {K V : Type} [Field K] [AddCommGroup V] [Module K V]

theorem hornerLoop_cons (x : K) (b : V) (bs : List V) (h : bs ≠ []) :
    hornerLoop x (b :: bs) = x • hornerLoop x bs + b := by
  unfold hornerLoop
  rw [List.reverse_cons]
  cases hr : bs.reverse with
  | nil => simp at hr; exact absurd hr h
  | cons a as => simp [List.foldl_append]

theorem hornerLoop_eq (x : K) (beta : List V) :
    hornerLoop x beta = ∑ i ∈ range beta.length, x ^ i • beta.getD i 0 := by
  induction beta with
  | nil => simp [hornerLoop]
  | cons b bs ih =>
    by_cases h : bs = []
    · subst h; simp [hornerLoop]
    · rw [hornerLoop_cons x b bs h, ih, List.length_cons, sum_range_succ', smul_sum]
      simp only [List.getD_cons_zero, pow_zero, one_smul, List.getD_cons_succ, smul_smul, pow_succ']

/-- `foldr` form of the loops that run down from `s + m - 1` to `s`. -/
theorem foldr_horner (x : K) (β : Nat → V) (init : V) (m : Nat) : ∀ s : Nat,
    (List.range' s m).foldr (fun i acc => x • acc + β i) init = (∑ i ∈ range m, x ^ i • β (s + i)) + x ^ m • init := by
  induction m with
  | zero => intro s; simp
  | succ m ih =>
    intro s
    rw [List.range'_succ, List.foldr_cons, ih (s + 1), sum_range_succ', smul_add, smul_sum]
    simp only [smul_smul, pow_succ', pow_zero, one_smul, add_zero]
    have : ∀ i, s + 1 + i = s + (i + 1) := fun i => by omega
    simp only [this]
    abel

theorem axpy_getD (x : K) (v w : List V) (k : Nat) (hv : k < v.length) (hw : k < w.length) :
    (axpy x v w).getD k 0 = x • v.getD k 0 + w.getD k 0 := by
  unfold axpy
  rw [List.getD_eq_getElem?_getD, List.getD_eq_getElem?_getD, List.getD_eq_getElem?_getD, List.getElem?_zipWith,
    List.getElem?_eq_getElem hv, List.getElem?_eq_getElem hw]
  rfl

theorem axpy_length (x : K) (v w : List V) : (axpy x v w).length = min v.length w.length := by simp [axpy]

theorem eq_map_getD {α : Type} (l : List α) (d : α) : l = (List.range l.length).map fun k => l.getD k d := by
  apply List.ext_getElem
  · simp
  · intro i h1 h2
    simp [List.getElem?_eq_getElem h1]

theorem getLastD_eq {α : Type} (l : List α) (d : α) : l.getLastD d = l.getD (l.length - 1) d := by
  cases l with
  | nil => rfl
  | cons a l => simp [List.getLastD_cons, List.getLastD_eq_getLast?, List.getLast?_eq_getElem?, List.getD_eq_getElem?_getD]

theorem hornerDerLoop_eq (n : Nat) (x : K) (m : Nat) (beta : List (List V)) (hn : 2 ≤ n) (hb : beta.length = n)
    (hm : ∀ v ∈ beta, v.length = m + 1) :
    hornerDerLoop n x beta = (List.range (m + 1)).map (fun k => ∑ i ∈ range n, x ^ i • (beta.getD i []).getD k 0) ++
      [∑ i ∈ range n, ((i : K) * x ^ (i - 1)) • (beta.getD i []).getD 0 0] := by
  have hlen : ∀ i, i < n → (beta.getD i []).length = m + 1 := by
    intro i hi
    apply hm
    rw [List.getD_eq_getElem?_getD, List.getElem?_eq_getElem (by omega)]
    exact List.getElem_mem _
  obtain ⟨β, hβ⟩ : ∃ β : Nat → List V, β = fun i => beta.getD i [] := ⟨_, rfl⟩
  have hβ' : ∀ i, beta.getD i [] = β i := fun i => by rw [hβ]
  simp only [hβ'] at hlen ⊢
  unfold hornerDerLoop
  have hlast : beta.getLastD [] = β (n - 1) := by rw [getLastD_eq, hb, hβ']
  have hfront : beta.headD [] = β 0 := by rw [hβ]; cases beta <;> rfl
  simp only [hβ', hlast, hfront]
  rw [List.foldl_reverse]
  -- the loop
  have key : ∀ q s, s + q ≤ n - 1 →
      let r := (List.range' s q).foldr (fun i (vd : List V × V) => (axpy x vd.1 (β i), x • vd.2 + (i : K) • (β i).headD 0))
        (β (n - 1), ((n - 1 : Nat) : K) • (β (n - 1)).headD 0)
      r.1.length = m + 1 ∧ (∀ k, k < m + 1 → r.1.getD k 0 =
        (List.range' s q).foldr (fun i acc => x • acc + (β i).getD k 0) ((β (n - 1)).getD k 0)) ∧
      r.2 = (List.range' s q).foldr (fun (i : Nat) acc => x • acc + (i : K) • (β i).headD 0)
        (((n - 1 : Nat) : K) • (β (n - 1)).headD 0) := by
    intro q
    induction q with
    | zero => intro s _; simp; exact hlen _ (by omega)
    | succ q ih =>
      intro s hs
      obtain ⟨h1, h2, h3⟩ := ih (s + 1) (by omega)
      dsimp only at h1 h2 h3 ⊢
      rw [List.range'_succ, List.foldr_cons, List.foldr_cons]
      refine ⟨?_, ?_, ?_⟩
      · rw [axpy_length, h1, hlen s (by omega)]; simp
      · intro k hk
        rw [axpy_getD _ _ _ _ (by omega) (by rw [hlen s (by omega)]; omega), h2 k hk, List.foldr_cons]
      · rw [h3]
  obtain ⟨h1, h2, h3⟩ := key (n - 2) 1 (by omega)
  rw [h3]
  have e1 : ∀ k, k < m + 1 →
      (axpy x ((List.range' 1 (n - 2)).foldr (fun i (vd : List V × V) => (axpy x vd.1 (β i), x • vd.2 + (i : K) • (β i).headD 0))
        (β (n - 1), ((n - 1 : Nat) : K) • (β (n - 1)).headD 0)).1 (β 0)).getD k 0 =
      ∑ i ∈ range n, x ^ i • (β i).getD k 0 := by
    intro k hk
    rw [axpy_getD _ _ _ _ (by omega) (by rw [hlen 0 (by omega)]; omega), h2 k hk,
      foldr_horner x (fun i => (β i).getD k 0)]
    obtain ⟨r, rfl⟩ : ∃ r, n = r + 2 := ⟨n - 2, by omega⟩
    rw [sum_range_succ', sum_range_succ, smul_add, smul_sum]
    simp only [Nat.add_sub_cancel, smul_smul, pow_zero, one_smul, show r + 2 - 1 = r + 1 from rfl]
    have : ∀ i, 1 + i = i + 1 := fun i => by omega
    simp only [this, ← pow_succ']
  congr 1
  · rw [eq_map_getD (axpy x _ _) 0, axpy_length, h1, hlen 0 (by omega), min_self]
    apply List.map_congr_left
    intro k hk
    exact e1 k (List.mem_range.1 hk)
  · congr 1
    rw [foldr_horner x (fun i => (i : K) • (β i).headD 0)]
    obtain ⟨r, rfl⟩ : ∃ r, n = r + 2 := ⟨n - 2, by omega⟩
    rw [sum_range_succ', sum_range_succ]
    simp only [Nat.add_sub_cancel, smul_smul, show r + 2 - 1 = r + 1 from rfl, Nat.cast_zero, zero_mul, zero_smul,
      add_zero, headD_eq_getD]
    have : ∀ i, 1 + i = i + 1 := fun i => by omega
    simp only [this, mul_comm]

end Qugar.Poly
