import Verif.Lemmas.Horner
import Mathlib.RingTheory.Polynomial.Bernstein
import Mathlib.Tactic.LinearCombination
/-
Bernstein polynomials and the loops of de Casteljau.
-/
namespace Qugar.Poly
open Spec TS Finset

section
variable {K : Type} [CommRing K]

theorem bernstein_eq_eval (d i : Nat) (t : K) : bernstein d i t = (bernsteinPolynomial K d i).eval t := by
  simp [bernstein, bernsteinPolynomial]

theorem bernstein_of_lt {d i : Nat} (h : d < i) (t : K) : bernstein d i t = 0 := by
  simp [bernstein, Nat.choose_eq_zero_of_lt h]

theorem sum_bernstein (d : Nat) (t : K) : ∑ i ∈ range (d + 1), bernstein d i t = 1 := by
  have := congrArg (Polynomial.eval t) (bernsteinPolynomial.sum K d)
  rw [Polynomial.eval_finset_sum, Polynomial.eval_one] at this
  simpa only [bernstein_eq_eval] using this

theorem bernstein_zero_zero (t : K) : bernstein 0 0 t = 1 := by simp [bernstein]

theorem bernstein_succ_zero (d : Nat) (t : K) : bernstein (d + 1) 0 t = (1 - t) * bernstein d 0 t := by
  simp [bernstein, pow_succ']

theorem bernstein_succ_succ (d i : Nat) (t : K) :
    bernstein (d + 1) (i + 1) t = t * bernstein d i t + (1 - t) * bernstein d (i + 1) t := by
  unfold bernstein
  rw [Nat.choose_succ_succ]
  rcases lt_trichotomy i d with h | h | h
  · rw [show d + 1 - (i + 1) = d - i by omega, show d - i = (d - (i + 1)) + 1 by omega]
    push_cast; ring
  · subst h
    simp; ring
  · rw [Nat.choose_eq_zero_of_lt h, Nat.choose_eq_zero_of_lt (show d < i + 1 by omega)]; simp

/-- `(d+1) B_i^d = (d+1-i) B_i^{d+1} + (i+1) B_{i+1}^{d+1}`. -/
theorem bernstein_elevate (d i : Nat) (hi : i ≤ d) (t : K) :
    ((d + 1 : Nat) : K) * bernstein d i t = ((d + 1 - i : Nat) : K) * bernstein (d + 1) i t +
      ((i + 1 : Nat) : K) * bernstein (d + 1) (i + 1) t := by
  unfold bernstein
  have h1 : ((d + 1).choose i * (d + 1 - i) : K) = (d + 1) * d.choose i := by
    have h := Nat.choose_mul_succ_eq d i
    have : (((d.choose i * (d + 1) : Nat)) : K) = (((d + 1).choose i * (d + 1 - i) : Nat) : K) := by rw [h]
    push_cast [Nat.cast_sub (show i ≤ d + 1 by omega)] at this
    linear_combination -this
  have h2 : ((d + 1).choose (i + 1) * (i + 1) : K) = (d + 1) * d.choose i := by
    have h := Nat.add_one_mul_choose_eq d i
    have : (((d + 1) * d.choose i : Nat) : K) = (((d + 1).choose (i + 1) * (i + 1) : Nat) : K) := by rw [h]
    push_cast at this
    linear_combination -this
  rw [show d + 1 - (i + 1) = d - i by omega]
  obtain ⟨e, rfl⟩ : ∃ e, d = i + e := ⟨d - i, by omega⟩
  rw [show i + e + 1 - i = e + 1 by omega, show i + e - i = e by omega]
  push_cast at h1 h2 ⊢
  linear_combination (-t ^ i * (1 - t) ^ (e + 1)) * h1 - (t ^ (i + 1) * (1 - t) ^ e) * h2

end

variable {K V : Type} [Field K] [AddCommGroup V] [Module K V]

theorem casteljauStep_length (x : K) (m : Nat) : ∀ b : List V, (casteljauStep x m b).length = b.length := by
  induction m with
  | zero => intro b; simp [casteljauStep]
  | succ m ih =>
    intro b
    match b with
    | [] => rfl
    | [a] => rfl
    | a :: b :: bs => simp only [casteljauStep, List.length_cons, ih]

theorem casteljauStep_getD (x : K) (m : Nat) : ∀ (b : List V) (k : Nat), m < b.length → k < m →
    (casteljauStep x m b).getD k 0 = (1 - x) • b.getD k 0 + x • b.getD (k + 1) 0 := by
  induction m with
  | zero => intro b k _ h; omega
  | succ m ih =>
    intro b k hb hk
    match b with
    | [] => simp at hb
    | [a] => simp at hb
    | a :: b :: bs =>
      simp only [casteljauStep]
      cases k with
      | zero => simp only [List.getD_cons_zero, List.getD_cons_succ]; module
      | succ k =>
        rw [List.getD_cons_succ, ih (b :: bs) k (by simpa using hb) (by omega)]
        simp only [List.getD_cons_succ]

/-- The state after `j` outer iterations. -/
theorem casteljau_iter (x : K) (n : Nat) (beta : List V) (hb : beta.length = n) : ∀ j, j < n →
    ((List.range' 1 j).foldl (fun b j => casteljauStep x (n - j) b) beta).length = n ∧
    ∀ k, k + j < n → ((List.range' 1 j).foldl (fun b j => casteljauStep x (n - j) b) beta).getD k 0 =
      ∑ i ∈ range (j + 1), bernstein j i x • beta.getD (k + i) 0 := by
  intro j
  induction j with
  | zero => intro _; simp [hb, bernstein]
  | succ j ih =>
    intro hj
    obtain ⟨h1, h2⟩ := ih (by omega)
    rw [List.range'_1_concat, List.foldl_append, List.foldl_cons, List.foldl_nil]
    refine ⟨by rw [casteljauStep_length, h1], ?_⟩
    intro k hk
    rw [casteljauStep_getD _ _ _ _ (by rw [h1]; omega) (by omega), h2 k (by omega), h2 (k + 1) (by omega)]
    -- right-hand side
    rw [sum_range_succ' (n := j + 1)]
    have hs : ∀ i, bernstein (j + 1) (i + 1) x • beta.getD (k + (i + 1)) 0 =
        x • (bernstein j i x • beta.getD (k + 1 + i) 0) + (1 - x) • (bernstein j (i + 1) x • beta.getD (k + (i + 1)) 0) := by
      intro i
      rw [bernstein_succ_succ, show k + 1 + i = k + (i + 1) by omega]; module
    simp only [hs, sum_add_distrib, ← smul_sum]
    rw [bernstein_succ_zero, add_zero]
    have e : ∑ i ∈ range (j + 1), bernstein j (i + 1) x • beta.getD (k + (i + 1)) 0 + bernstein j 0 x • beta.getD k 0 =
        ∑ i ∈ range (j + 1), bernstein j i x • beta.getD (k + i) 0 := by
      rw [sum_range_succ, bernstein_of_lt (show j < j + 1 by omega), zero_smul, add_zero,
        sum_range_succ' (fun i => bernstein j i x • beta.getD (k + i) 0), add_zero]
    rw [← e]
    module

theorem casteljauLoop_eq (n : Nat) (x : K) (beta : List V) (hn : 0 < n) (hb : beta.length = n) :
    casteljauLoop x n beta = ∑ i ∈ range n, bernstein (n - 1) i x • beta.getD i 0 := by
  unfold casteljauLoop
  rw [headD_eq_getD, (casteljau_iter x n beta hb (n - 1) (by omega)).2 0 (by omega)]
  rw [show n - 1 + 1 = n by omega]
  simp only [zero_add]

/-! ### Derivatives -/

/-- Derivative of the Bernstein polynomial `i` of degree `d`, in the basis of degree `d`. -/
def bernsteinD (d i : Nat) (t : K) : K :=
  ((d + 1 - i : Nat) : K) * (if i = 0 then 0 else bernstein d (i - 1) t) + ((2 * i : Nat) - (d : K)) * bernstein d i t -
    ((i + 1 : Nat) : K) * bernstein d (i + 1) t

theorem getD_modify' (c : List V) (k : Nat) (f : V → V) (v : V) (hf : ∀ u, f u = u + v) :
    c.modify k f = addAt c k v := by
  unfold addAt
  congr 1
  exact funext hf

/-- The functional "combination with `φ`" of the list `c`. -/
def comb (n : Nat) (φ : Nat → K) (c : List V) : V := ∑ i ∈ range n, φ i • c.getD i 0

theorem comb_addAt (n : Nat) (φ : Nat → K) (c : List V) (hc : c.length = n) (k : Nat) (hk : k < n) (v : V) :
    comb n φ (addAt c k v) = comb n φ c + φ k • v := by
  unfold comb
  have : ∀ i ∈ range n, φ i • (addAt c k v).getD i 0 = φ i • c.getD i 0 + (if i = k then φ k • v else 0) := by
    intro i _
    rw [getD_addAt _ _ _ (by omega)]
    by_cases h : i = k
    · simp [h]
    · simp [h]
  rw [sum_congr rfl this, sum_add_distrib, sum_ite_eq' (range n) k]
  simp [hk]

theorem comb_set_zero (n : Nat) (φ : Nat → K) (c : List V) (hc : c.length = n) (k : Nat) (hk : k < n) (v : V)
    (hz : c.getD k 0 = 0) : comb n φ (c.set k v) = comb n φ c + φ k • v := by
  rw [← comb_addAt n φ c hc k hk v]
  unfold comb
  apply sum_congr rfl
  intro i _
  congr 1
  rw [getD_addAt _ _ _ (by omega), List.getD_eq_getElem?_getD, List.getD_eq_getElem?_getD, List.getElem?_set]
  by_cases h : k = i
  · subst h
    rw [if_pos rfl, if_pos (by omega), if_pos rfl]
    rw [List.getD_eq_getElem?_getD] at hz
    rw [hz, zero_add]; rfl
  · rw [if_neg h, if_neg (Ne.symm h), add_zero]

theorem gamma_fold (n deg : Nat) (hdeg : n = deg + 1) (φ : Nat → K) (b : List V) (m : Nat) (hm : m + 1 ≤ deg) :
    ∀ g : List V, g.length = n →
    let r := (List.range' 1 m).foldl (fun g (i : Nat) =>
      let bi := b.getD i 0
      let g := g.modify (i - 1) (· + ((n - i : Nat) : K) • bi)
      let g := g.modify i (· + ((2 * i : Nat) - (deg : K)) • bi)
      g.modify (i + 1) (· - ((i + 1 : Nat) : K) • bi)) g
    r.length = n ∧ comb n φ r = comb n φ g + ∑ i ∈ range m,
      (((n - (i + 1) : Nat) : K) * φ i + ((2 * (i + 1) : Nat) - (deg : K)) * φ (i + 1) -
        ((i + 1 + 1 : Nat) : K) * φ (i + 2)) • b.getD (i + 1) 0 := by
  intro g hg
  induction m with
  | zero => simp [hg]
  | succ m ih =>
    obtain ⟨h1, h2⟩ := ih (by omega)
    dsimp only at h1 h2 ⊢
    rw [List.range'_1_concat, List.foldl_append, List.foldl_cons, List.foldl_nil]
    generalize List.foldl _ g (List.range' 1 m) = r at h1 h2
    have e3 : ∀ (c : List V) k (v : V), c.modify k (· - v) = addAt c k (-v) := fun c k v =>
      getD_modify' c k _ (-v) (fun u => sub_eq_add_neg u v)
    have e4 : ∀ (c : List V) k (v : V), c.modify k (· + v) = addAt c k v := fun c k v => rfl
    simp only [e3, e4]
    refine ⟨by simp only [addAt_length, h1], ?_⟩
    rw [comb_addAt _ _ _ (by simp only [addAt_length, h1]) _ (by omega),
      comb_addAt _ _ _ (by simp only [addAt_length, h1]) _ (by omega), comb_addAt _ _ _ h1 _ (by omega), h2,
      sum_range_succ, show 1 + m = m + 1 by omega, Nat.add_sub_cancel]
    module

theorem gammaInit_eq (n : Nat) (hn : 2 ≤ n) (b : List V) (x : K) :
    (gammaInit K n b).length = n ∧
    comb n (fun i => bernstein (n - 1) i x) (gammaInit K n b) = ∑ i ∈ range n, bernsteinD (n - 1) i x • b.getD i 0 := by
  obtain ⟨r, rfl⟩ : ∃ r, n = r + 2 := ⟨n - 2, by omega⟩
  obtain ⟨φ, hφ⟩ : ∃ φ : Nat → K, φ = fun i => bernstein (r + 2 - 1) i x := ⟨_, rfl⟩
  unfold gammaInit
  simp only [show r + 2 - 1 = r + 1 from rfl, Nat.add_sub_cancel] at hφ ⊢
  rw [← hφ]
  have z : (List.replicate (r + 2) (0 : V)).length = r + 2 := by simp
  have z0 : (List.replicate (r + 2) (0 : V)).getD 0 0 = 0 := by simp
  have hz : comb (r + 2) φ (List.replicate (r + 2) (0 : V)) = 0 := by
    unfold comb
    apply sum_eq_zero
    intro i hi
    rw [mem_range] at hi
    simp [hi]
  obtain ⟨g0, hg0⟩ : ∃ g, g = ((List.replicate (r + 2) (0 : V)).set 0 (-((r + 1 : Nat) : K) • b.getD 0 0)).set 1
    (-b.getD 0 0) := ⟨_, rfl⟩
  rw [← hg0]
  have l0 : g0.length = r + 2 := by rw [hg0]; simp
  have c0 : comb (r + 2) φ g0 = (-((r + 1 : Nat) : K) * φ 0 - φ 1) • b.getD 0 0 := by
    rw [hg0, comb_set_zero _ _ _ (by simp) 1 (by omega) _ (by simp), comb_set_zero _ _ _ z 0 (by omega) _ z0, hz]
    module
  obtain ⟨h1, h2⟩ := gamma_fold (r + 2) (r + 1) rfl φ b r (by omega) g0 l0
  dsimp only at h1 h2
  generalize List.foldl _ g0 (List.range' 1 r) = g1 at h1 h2
  have e4 : ∀ (c : List V) k (v : V), c.modify k (· + v) = addAt c k v := fun c k v => rfl
  simp only [e4]
  refine ⟨by simp only [addAt_length, h1], ?_⟩
  rw [comb_addAt _ _ _ (by simp only [addAt_length, h1]) _ (by omega), comb_addAt _ _ _ h1 _ (by omega), h2, c0]
  rw [sum_range_succ, sum_range_succ']
  have hz2 : φ (r + 2) = 0 := by rw [hφ]; exact bernstein_of_lt (by omega) x
  have hD : ∀ i, i < r → bernsteinD (r + 1) (i + 1) x = ((r + 2 - (i + 1) : Nat) : K) * φ i +
      ((2 * (i + 1) : Nat) - ((r + 1 : Nat) : K)) * φ (i + 1) - ((i + 1 + 1 : Nat) : K) * φ (i + 2) := by
    intro i _
    rw [hφ]; simp [bernsteinD]
  have hD0 : bernsteinD (r + 1) 0 x = -((r + 1 : Nat) : K) * φ 0 - φ 1 := by
    rw [hφ]; simp [bernsteinD]
  have hDl : bernsteinD (r + 1) (r + 1) x = φ r + ((r + 1 : Nat) : K) * φ (r + 1) := by
    have : bernstein (r + 1) (r + 1 + 1) x = 0 := bernstein_of_lt (by omega) x
    simp only [hφ, bernsteinD, this]
    rw [if_neg (by omega), show r + 1 + 1 - (r + 1) = 1 by omega, show r + 1 - 1 = r from rfl]
    push_cast; ring
  have hs : ∑ i ∈ range r, bernsteinD (r + 1) (i + 1) x • b.getD (i + 1) 0 = ∑ i ∈ range r,
      (((r + 2 - (i + 1) : Nat) : K) * φ i + ((2 * (i + 1) : Nat) - ((r + 1 : Nat) : K)) * φ (i + 1) -
        ((i + 1 + 1 : Nat) : K) * φ (i + 2)) • b.getD (i + 1) 0 :=
    sum_congr rfl (fun i hi => by rw [hD i (mem_range.1 hi)])
  rw [hD0, hDl, hs]
  module

theorem casteljauStepV_length (x : K) (m : Nat) : ∀ b : List (List V), (casteljauStepV x m b).length = b.length := by
  induction m with
  | zero => intro b; simp [casteljauStepV]
  | succ m ih =>
    intro b
    match b with
    | [] => rfl
    | [a] => rfl
    | a :: b :: bs => simp only [casteljauStepV, List.length_cons, ih]

theorem casteljauStepV_mem (x : K) (m q : Nat) : ∀ b : List (List V), (∀ v ∈ b, v.length = q) →
    ∀ v ∈ casteljauStepV x m b, v.length = q := by
  induction m with
  | zero => intro b hb; simpa [casteljauStepV] using hb
  | succ m ih =>
    intro b hb
    match b with
    | [] => simp [casteljauStepV]
    | [a] => simpa [casteljauStepV] using hb
    | a :: b :: bs =>
      intro v hv
      simp only [casteljauStepV, List.mem_cons] at hv
      rcases hv with rfl | hv
      · simp [hb a (by simp), hb b (by simp)]
      · exact ih (b :: bs) (fun v hv => hb v (by simp only [List.mem_cons] at hv ⊢; tauto)) v hv

/-- Component `k` of the vector version. -/
theorem casteljauStepV_comp (x : K) (m q k : Nat) (hk : k < q) : ∀ b : List (List V), (∀ v ∈ b, v.length = q) →
    (casteljauStepV x m b).map (fun v => v.getD k 0) = casteljauStep x m (b.map fun v => v.getD k 0) := by
  induction m with
  | zero => intro b _; simp [casteljauStepV, casteljauStep]
  | succ m ih =>
    intro b hb
    match b with
    | [] => rfl
    | [a] => rfl
    | a :: b :: bs =>
      simp only [casteljauStepV, casteljauStep, List.map_cons]
      rw [ih (b :: bs) (fun v hv => hb v (by simp only [List.mem_cons] at hv ⊢; tauto)), List.map_cons]
      congr 1
      have h1 := hb a (by simp)
      have h2 := hb b (by simp)
      rw [List.getD_eq_getElem?_getD, List.getD_eq_getElem?_getD, List.getD_eq_getElem?_getD, List.getElem?_zipWith,
        List.getElem?_eq_getElem (by omega), List.getElem?_eq_getElem (by omega)]
      rfl

theorem foldl_pair {α β γ : Type} (f : α → γ → α) (g : β → γ → β) (L : List γ) : ∀ (a : α) (b : β),
    L.foldl (fun (s : α × β) c => (f s.1 c, g s.2 c)) (a, b) = (L.foldl f a, L.foldl g b) := by
  induction L with
  | nil => intro a b; rfl
  | cons c L ih => intro a b; rw [List.foldl_cons, ih]; rfl

theorem casteljauV_iter (x : K) (n q : Nat) (L : List Nat) : ∀ beta : List (List V), (∀ v ∈ beta, v.length = q) →
    (L.foldl (fun b j => casteljauStepV x (n - j) b) beta).length = beta.length ∧
    (∀ v ∈ L.foldl (fun b j => casteljauStepV x (n - j) b) beta, v.length = q) ∧
    ∀ k, k < q → (L.foldl (fun b j => casteljauStepV x (n - j) b) beta).map (fun v => v.getD k 0) =
      L.foldl (fun b j => casteljauStep x (n - j) b) (beta.map fun v => v.getD k 0) := by
  induction L with
  | nil => intro beta h; exact ⟨rfl, h, fun _ _ => rfl⟩
  | cons a L ih =>
    intro beta h
    rw [List.foldl_cons]
    obtain ⟨h1, h2, h3⟩ := ih _ (casteljauStepV_mem x (n - a) q beta h)
    refine ⟨by rw [h1, casteljauStepV_length], h2, ?_⟩
    intro k hk
    rw [h3 k hk, List.foldl_cons, casteljauStepV_comp x (n - a) q k hk beta h]

theorem getD_map_comp {α β : Type} (l : List α) (f : α → β) (i : Nat) (d : α) (e : β) (h : f d = e) :
    (l.map f).getD i e = f (l.getD i d) := by
  rw [List.getD_eq_getElem?_getD, List.getD_eq_getElem?_getD, List.getElem?_map]
  cases l[i]? <;> simp [h]

theorem casteljauDerLoop_eq (n : Nat) (x : K) (m : Nat) (beta : List (List V)) (hn : 0 < n) (hb : beta.length = n)
    (hm : ∀ v ∈ beta, v.length = m + 1) :
    casteljauDerLoop n x beta =
      (List.range (m + 1)).map (fun k => ∑ i ∈ range n, bernstein (n - 1) i x • (beta.getD i []).getD k 0) ++
      [∑ i ∈ range n, bernsteinD (n - 1) i x • (beta.getD i []).getD 0 0] := by
  unfold casteljauDerLoop
  have hcomp : ∀ k i, (beta.map fun v => v.getD k 0).getD i 0 = (beta.getD i []).getD k 0 := fun k i =>
    getD_map_comp beta (fun v => v.getD k 0) i [] 0 rfl
  split_ifs with h1
  · dsimp only
    rw [foldl_pair (fun b j => casteljauStepV x (n - j) b) (fun b j => casteljauStep x (n - j) b)]
    obtain ⟨e1, e2, e3⟩ := casteljauV_iter x n (m + 1) (List.range' 1 (n - 1)) beta hm
    obtain ⟨g1, g2⟩ := gammaInit_eq n (by omega) (beta.map (·.headD 0)) x
    generalize gammaInit K n (beta.map (·.headD 0)) = G at g1 g2 ⊢
    simp only
    congr 1
    · generalize List.foldl (fun b j => casteljauStepV x (n - j) b) beta (List.range' 1 (n - 1)) = R at e1 e2 e3
      have hR : R.headD [] = R.getD 0 [] := by cases R <;> rfl
      have hRl : (R.headD []).length = m + 1 := by
        apply e2
        cases R with
        | nil => simp at e1; omega
        | cons a R => simp
      rw [eq_map_getD (R.headD []) 0, hRl]
      apply List.map_congr_left
      intro k hk
      rw [List.mem_range] at hk
      rw [hR, ← getD_map_comp R (fun v => v.getD k 0) 0 [] 0 rfl, e3 k hk, ← headD_eq_getD]
      have := casteljauLoop_eq n x (beta.map fun v => v.getD k 0) hn (by simp [hb])
      unfold casteljauLoop at this
      rw [this]
      simp only [hcomp]
    · congr 1
      have := casteljauLoop_eq n x G hn g1
      unfold casteljauLoop at this
      rw [this]
      have e := g2
      unfold comb at e
      rw [e]
      apply sum_congr rfl
      intro i _
      have h0 : (beta.map fun v => v.headD 0).getD i 0 = (beta.getD i []).headD 0 :=
        getD_map_comp beta (fun v : List V => v.headD 0) i [] 0 rfl
      rw [h0, headD_eq_getD]
  · have : n = 1 := by omega
    subst this
    obtain ⟨v, rfl⟩ := List.length_eq_one_iff.1 hb
    simp only [List.headD_cons, sum_range_one, Nat.sub_self, bernstein_zero_zero, one_smul, List.getD_cons_zero]
    have hv := hm v (by simp)
    rw [← hv, ← eq_map_getD v 0]
    have h0 : bernsteinD 0 0 x = 0 := by simp [bernsteinD, bernstein]
    rw [h0, zero_smul]

end Qugar.Poly
