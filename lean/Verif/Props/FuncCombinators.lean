import Verif.Props.Funcs
import Mathlib.Tactic.IntervalCases
import Mathlib.Topology.Algebra.Order.Field
import Mathlib.Topology.Order.OrderClosed
/-
Property theorems C43 (function combinators).
-/
namespace Qugar
open Spec
namespace Func

theorem dot_map_neg (g v : List ℝ) : dot (g.map (- ·)) v = -dot g v := by
  induction g generalizing v with
  | nil => simp [dot]
  | cons a l ih =>
    cases v with
    | nil => simp [dot]
    | cons b m =>
      have := ih m
      simp only [dot, List.map_cons, List.zipWith_cons_cons, List.sum_cons] at this ⊢
      rw [this]
      ring

theorem dot_zip_add (g h v : List ℝ) (hl : g.length = h.length) :
    dot (List.zipWith (· + ·) g h) v = dot g v + dot h v := by
  induction g generalizing h v with
  | nil => cases h with
    | nil => simp [dot]
    | cons b m => simp at hl
  | cons a l ih =>
    cases h with
    | nil => simp at hl
    | cons b m =>
      cases v with
      | nil => simp [dot]
      | cons c n =>
        have := ih m n (by simpa using hl)
        simp only [dot, List.zipWith_cons_cons, List.sum_cons] at this ⊢
        rw [this]
        ring

theorem dot_zip_sub (g h v : List ℝ) (hl : g.length = h.length) :
    dot (List.zipWith (· - ·) g h) v = dot g v - dot h v := by
  induction g generalizing h v with
  | nil => cases h with
    | nil => simp [dot]
    | cons b m => simp at hl
  | cons a l ih =>
    cases h with
    | nil => simp at hl
    | cons b m =>
      cases v with
      | nil => simp [dot]
      | cons c n =>
        have := ih m n (by simpa using hl)
        simp only [dot, List.zipWith_cons_cons, List.sum_cons] at this ⊢
        rw [this]
        ring

theorem getD_zip (op : ℝ → ℝ → ℝ) (h0 : op 0 0 = 0) (g h : List ℝ) (hl : g.length = h.length) (k : Nat) :
    (List.zipWith op g h).getD k 0 = op (g.getD k 0) (h.getD k 0) := by
  by_cases hk : k < g.length
  · have hk' : k < h.length := hl ▸ hk
    simp [List.getD_eq_getElem?_getD, hk, hk']
  · have hk' : ¬ k < h.length := hl ▸ hk
    simp [List.getD_eq_getElem?_getD, hk, hk', h0]

theorem getD_map_neg (g : List ℝ) (k : Nat) : (g.map (- ·)).getD k 0 = -g.getD k 0 := by
  by_cases hk : k < g.length <;> simp [List.getD_eq_getElem?_getD, hk]

theorem sym_row_zip (op : ℝ → ℝ → ℝ) (h0 : op 0 0 = 0) (dim : Nat) (g h : List ℝ) (hl : g.length = h.length) (i : Nat) :
    (symMatrix dim (List.zipWith op g h)).getD i [] =
      List.zipWith op ((symMatrix dim g).getD i []) ((symMatrix dim h).getD i []) := by
  by_cases hi : i < dim
  · simp only [symMatrix, List.getD_eq_getElem?_getD, List.getElem?_map, List.getElem?_range hi, Option.map_some,
      Option.getD_some]
    rw [List.zipWith_map, List.zipWith_self]
    refine List.map_congr_left fun j _ => ?_
    exact getD_zip op h0 g h hl _
  · simp [symMatrix, List.getD_eq_getElem?_getD, hi]

theorem sym_row_neg (dim : Nat) (g : List ℝ) (i : Nat) :
    (symMatrix dim (g.map (- ·))).getD i [] = ((symMatrix dim g).getD i []).map (- ·) := by
  by_cases hi : i < dim
  · simp only [symMatrix, List.getD_eq_getElem?_getD, List.getElem?_map, List.getElem?_range hi, Option.map_some,
      Option.getD_some, List.map_map]
    refine List.map_congr_left fun j _ => ?_
    simpa [List.getD_eq_getElem?_getD] using getD_map_neg g (min i j * dim - min i j * (min i j + 1) / 2 + max i j)
  · simp [symMatrix, List.getD_eq_getElem?_getD, hi]

theorem sym_row_length (dim : Nat) (g : List ℝ) (i : Nat) (hi : i < dim) : ((symMatrix dim g).getD i []).length = dim := by
  simp [symMatrix, List.getD_eq_getElem?_getD, hi]

/-- **C43**, sums, differences and negation: the values are the pointwise ones, and gradients and Hessians are exact
whenever the operands' are, in every dimension. -/
theorem C43_pointwise (dim : Nat) (f g : Func ℝ) (hf : ExactDerivatives dim f.eval f.grad f.hess)
    (hg : ExactDerivatives dim g.eval g.grad g.hess) :
    ((∀ x, (neg f).eval x = -f.eval x) ∧ ExactDerivatives dim (neg f).eval (neg f).grad (neg f).hess) ∧
    ((∀ x, (add f g).eval x = f.eval x + g.eval x) ∧
      ExactDerivatives dim (add f g).eval (add f g).grad (add f g).hess) ∧
    ((∀ x, (sub f g).eval x = f.eval x - g.eval x) ∧
      ExactDerivatives dim (sub f g).eval (sub f g).grad (sub f g).hess) := by
  have hal : ∀ (x v : List ℝ) t, x.length = dim → v.length = x.length → (along x v t).length = dim := by
    intro x v t hx hv
    simp [along, hv, hx]
  refine ⟨⟨fun _ => rfl, ?_⟩, ⟨fun _ => rfl, ?_⟩, fun _ => rfl, ?_⟩
  · intro x hx
    obtain ⟨f1, f2, f3⟩ := hf x hx
    refine ⟨⟨?_, fun v hv => ?_⟩, ?_, ?_⟩
    · simpa [neg] using f1.1
    · exact ((f1.2 v hv).neg).congr_deriv (dot_map_neg _ _).symm
    · intro i hi
      have := f2 i hi
      simp only [neg]
      rw [sym_row_neg]
      refine ⟨by simpa using this.1, fun v hv => ?_⟩
      rw [dot_map_neg]
      refine ((this.2 v hv).neg).congr_of_eventuallyEq (Filter.Eventually.of_forall fun t => ?_)
      exact getD_map_neg _ _
    · simpa [neg] using f3
  · intro x hx
    obtain ⟨f1, f2, f3⟩ := hf x hx
    obtain ⟨g1, g2, g3⟩ := hg x hx
    refine ⟨⟨?_, fun v hv => ?_⟩, ?_, ?_⟩
    · simp [add, f1.1, g1.1]
    · exact ((f1.2 v hv).add (g1.2 v hv)).congr_deriv (dot_zip_add _ _ _ (f1.1.trans g1.1.symm)).symm
    · intro i hi
      have hf' := f2 i hi
      have hg' := g2 i hi
      simp only [add]
      rw [sym_row_zip (· + ·) (by simp) _ _ _ (f3.trans g3.symm)]
      refine ⟨by rw [List.length_zipWith, hf'.1, hg'.1, Nat.min_self], fun v hv => ?_⟩
      rw [dot_zip_add _ _ _ (hf'.1.trans hg'.1.symm)]
      refine ((hf'.2 v hv).add (hg'.2 v hv)).congr_of_eventuallyEq (Filter.Eventually.of_forall fun t => ?_)
      have hl := hal x v t hx hv
      exact getD_zip (· + ·) (by simp) _ _ ((hf _ hl).1.1.trans (hg _ hl).1.1.symm) i
    · simp [add, f3, g3]
  · intro x hx
    obtain ⟨f1, f2, f3⟩ := hf x hx
    obtain ⟨g1, g2, g3⟩ := hg x hx
    refine ⟨⟨?_, fun v hv => ?_⟩, ?_, ?_⟩
    · simp [sub, f1.1, g1.1]
    · exact ((f1.2 v hv).sub (g1.2 v hv)).congr_deriv (dot_zip_sub _ _ _ (f1.1.trans g1.1.symm)).symm
    · intro i hi
      have hf' := f2 i hi
      have hg' := g2 i hi
      simp only [sub]
      rw [sym_row_zip (· - ·) (by simp) _ _ _ (f3.trans g3.symm)]
      refine ⟨by rw [List.length_zipWith, hf'.1, hg'.1, Nat.min_self], fun v hv => ?_⟩
      rw [dot_zip_sub _ _ _ (hf'.1.trans hg'.1.symm)]
      refine ((hf'.2 v hv).sub (hg'.2 v hv)).congr_of_eventuallyEq (Filter.Eventually.of_forall fun t => ?_)
      have hl := hal x v t hx hv
      exact getD_zip (· - ·) (by simp) _ _ ((hf _ hl).1.1.trans (hg _ hl).1.1.symm) i
    · simp [sub, f3, g3]

/-- The multilinear interpolant of the corner values, 2D, as an expression. -/
noncomputable def dimLinearEx2 (c : List ℝ) : Ex :=
  .add (.mul (.add (.mul (.const (vat c 0)) (.sub (.const 1) (.var 0))) (.mul (.const (vat c 1)) (.var 0)))
      (.sub (.const 1) (.var 1)))
    (.mul (.add (.mul (.const (vat c 2)) (.sub (.const 1) (.var 0))) (.mul (.const (vat c 3)) (.var 0))) (.var 1))

noncomputable def dimLinearEx3 (c : List ℝ) : Ex :=
  .add (.mul (dimLinearEx2 [vat c 0, vat c 1, vat c 2, vat c 3]) (.sub (.const 1) (.var 2)))
    (.mul (dimLinearEx2 [vat c 4, vat c 5, vat c 6, vat c 7]) (.var 2))

/-- **C43**, multilinear functions in 2D: interpolate the four corner values, and have exact derivatives. -/
theorem C43_dim_linear_2D (c : List ℝ) :
    (∀ i j : ℕ, i < 2 → j < 2 → (dimLinear2 c).eval [(i : ℝ), (j : ℝ)] = c.getD (i + 2 * j) 0) ∧
    ExactDerivatives 2 (dimLinear2 c).eval (dimLinear2 c).grad (dimLinear2 c).hess := by
  constructor
  · intro i j hi hj
    interval_cases i <;> interval_cases j <;> simp [dimLinear2, vat]
  · apply exact_of_ex 2 (dimLinearEx2 c)
    · intro x hx
      rfl
    · intro x hx
      obtain ⟨a, b, rfl⟩ := len2 hx
      simp only [dimLinear2, dimLinearEx2, vat, Ex.D, Ex.eval, List.range_succ, List.range_zero, List.nil_append,
        List.cons_append, List.map_cons, List.map_nil, List.getD_cons_zero, List.getD_cons_succ, List.cons.injEq,
        and_true]
      norm_num
      constructor <;> ring
    · intro x hx
      obtain ⟨a, b, rfl⟩ := len2 hx
      simp only [dimLinear2, symMatrix2]
      simp only [dimLinearEx2, vat, Ex.D, Ex.eval, List.range_succ, List.range_zero, List.nil_append,
        List.cons_append, List.map_cons, List.map_nil, List.getD_cons_zero, List.getD_cons_succ]
      norm_num
      ring
    · intro x _
      rfl

/-- **C43**, multilinear functions in 3D: interpolate the eight corner values, and have the exact gradient. -/
theorem C43_dim_linear_3D_partial (c : List ℝ) :
    (∀ i j k : ℕ, i < 2 → j < 2 → k < 2 →
      (dimLinear3 c).eval [(i : ℝ), (j : ℝ), (k : ℝ)] = c.getD (i + 2 * j + 4 * k) 0) ∧
    ∀ x, x.length = 3 → IsGradient (dimLinear3 c).eval x ((dimLinear3 c).grad x) := by
  constructor
  · intro i j k hi hj hk
    interval_cases i <;> interval_cases j <;> interval_cases k <;> simp [dimLinear3, vat]
  · intro x hx
    have h := Ex.isGradient (dimLinearEx3 c) x
    obtain ⟨a, b, d, rfl⟩ := len3 hx
    have e1 : (dimLinear3 c).eval = (dimLinearEx3 c).eval := rfl
    rw [e1]
    suffices e2 : (dimLinear3 c).grad [a, b, d] =
        (List.range [a, b, d].length).map fun i => (Ex.D i (dimLinearEx3 c)).eval [a, b, d] by rw [e2]; exact h
    simp only [dimLinear3, dimLinearEx3, dimLinearEx2, vat, Ex.D, Ex.eval, List.length_cons, List.length_nil,
      List.range_succ, List.range_zero, List.nil_append,
      List.cons_append, List.map_cons, List.map_nil, List.getD_cons_zero, List.getD_cons_succ]
    refine congr3 ?_ ?_ ?_ <;> norm_num <;> ring

/-- The exact Hessian of the 3D multilinear functions. -/
theorem dimLinear3_exact (c x : List ℝ) (hx : x.length = 3) :
    IsHessian (dimLinear3 c).grad x [0,
      (vat c 0 + vat c 3 - vat c 1 - vat c 2) * (1 - vat x 2) + (vat c 4 + vat c 7 - vat c 5 - vat c 6) * vat x 2,
      (vat c 0 + vat c 5 - vat c 1 - vat c 4) * (1 - vat x 1) + (vat c 2 + vat c 7 - vat c 3 - vat c 6) * vat x 1,
      0,
      (vat c 0 + vat c 6 - vat c 2 - vat c 4) * (1 - vat x 0) + (vat c 1 + vat c 7 - vat c 3 - vat c 5) * vat x 0,
      0] := by
  have := exact_of_ex 3 (dimLinearEx3 c) ⟨(dimLinear3 c).eval, (dimLinear3 c).grad, fun x => [0,
      (vat c 0 + vat c 3 - vat c 1 - vat c 2) * (1 - vat x 2) + (vat c 4 + vat c 7 - vat c 5 - vat c 6) * vat x 2,
      (vat c 0 + vat c 5 - vat c 1 - vat c 4) * (1 - vat x 1) + (vat c 2 + vat c 7 - vat c 3 - vat c 6) * vat x 1,
      0,
      (vat c 0 + vat c 6 - vat c 2 - vat c 4) * (1 - vat x 0) + (vat c 1 + vat c 7 - vat c 3 - vat c 5) * vat x 0,
      0]⟩ ?_ ?_ ?_ ?_
  · exact (this x hx).2.1
  · intro x hx
    rfl
  · intro x hx
    obtain ⟨a, b, d, rfl⟩ := len3 hx
    simp only [dimLinear3, dimLinearEx3, dimLinearEx2, vat, Ex.D, Ex.eval, List.range_succ, List.range_zero,
      List.nil_append, List.cons_append, List.map_cons, List.map_nil, List.getD_cons_zero, List.getD_cons_succ,
      List.cons.injEq, and_true]
    norm_num
    refine ⟨?_, ?_, ?_⟩ <;> ring
  · intro x hx
    obtain ⟨a, b, d, rfl⟩ := len3 hx
    simp only [symMatrix3]
    simp only [dimLinearEx3, dimLinearEx2, vat, Ex.D, Ex.eval, List.range_succ, List.range_zero,
      List.nil_append, List.cons_append, List.map_cons, List.map_nil, List.getD_cons_zero, List.getD_cons_succ]
    refine congr3 (congr3 ?_ ?_ ?_) (congr3 ?_ ?_ ?_) (congr3 ?_ ?_ ?_) <;> norm_num <;> ring
  · intro x _
    rfl

/-- **C43**, negated: the Hessian of a 3D multilinear function is right only on the plane `x = 1/2`, unless the corner
values of the upper face are themselves those of a function without mixed term. -/
theorem C43_dim_linear_3D_hessian_fails (c x : List ℝ) (hx : x.length = 3) :
    IsHessian (dimLinear3 c).grad x ((dimLinear3 c).hess x) ↔
      (c.getD 4 0 + c.getD 7 0 = c.getD 5 0 + c.getD 6 0 ∨ x.getD 0 0 = 1 / 2) := by
  have hex := dimLinear3_exact c x hx
  have key : vat c 4 + vat c 7 = vat c 5 + vat c 6 ∨ vat x 0 = 1 / 2 ↔
      (vat c 0 + vat c 7 - vat c 2 - vat c 5) * (1 - vat x 0) + (vat c 1 + vat c 6 - vat c 3 - vat c 4) * vat x 0 =
      (vat c 0 + vat c 6 - vat c 2 - vat c 4) * (1 - vat x 0) + (vat c 1 + vat c 7 - vat c 3 - vat c 5) * vat x 0 := by
    constructor
    · rintro (h | h)
      · linear_combination (1 - 2 * vat x 0) * h
      · linear_combination (-2 * (vat c 4 + vat c 7 - vat c 5 - vat c 6)) * h
    · intro h
      have : (vat c 4 + vat c 7 - vat c 5 - vat c 6) * (1 - 2 * vat x 0) = 0 := by linear_combination h
      rcases mul_eq_zero.1 this with h' | h'
      · left
        linarith
      · right
        linarith
  change _ ↔ vat c 4 + vat c 7 = vat c 5 + vat c 6 ∨ vat x 0 = 1 / 2
  rw [key]
  constructor
  · intro h
    have h1 := (h 1 (by omega)).unique (hex 1 (by omega))
    rw [hx] at h1
    simp only [dimLinear3, symMatrix3, List.getD_cons_succ, List.getD_cons_zero, List.cons.injEq, and_true,
      true_and] at h1
    exact h1
  · intro h
    simp only [dimLinear3]
    rw [h]
    exact hex

/-- A function whose Hessian is wrong, at the centre of the facet `x = 0`. -/
example : ¬ IsHessian (dimLinear3 [0, 0, 0, 0, 0, 0, 0, 1]).grad [0, 1/2, 1/2]
    ((dimLinear3 [0, 0, 0, 0, 0, 0, 0, 1]).hess [0, 1/2, 1/2]) := by
  rw [C43_dim_linear_3D_hessian_fails _ _ rfl]
  simp

/-! `Square` -/

theorem argmax_aux {K : Type} [Field K] [LinearOrder K] (v : List K) (n : Nat) :
    let b := (List.range n).foldl (fun best i => if vat v best < vat v i then i else best) 0
    (b < n ∨ (n = 0 ∧ b = 0)) ∧ ∀ j, j < n → vat v j ≤ vat v b := by
  induction n with
  | zero => simp
  | succ n ih =>
    simp only [List.range_succ, List.foldl_append, List.foldl_cons, List.foldl_nil] at ih ⊢
    generalize (List.range n).foldl (fun best i => if vat v best < vat v i then i else best) 0 = b at ih ⊢
    split_ifs with h
    · refine ⟨Or.inl (Nat.lt_succ_self n), fun j hj => ?_⟩
      rcases Nat.lt_succ_iff_lt_or_eq.1 hj with h' | rfl
      · exact (ih.2 j h').trans h.le
      · exact le_rfl
    · refine ⟨Or.inl (by rcases ih.1 with h' | h' <;> omega), fun j hj => ?_⟩
      rcases Nat.lt_succ_iff_lt_or_eq.1 hj with h' | rfl
      · exact ih.2 j h'
      · exact not_lt.1 h

theorem argmax_spec {K : Type} [Field K] [LinearOrder K] (v : List K) (hv : v ≠ []) :
    argmax v < v.length ∧ ∀ j, j < v.length → vat v j ≤ vat v (argmax v) := by
  have h := argmax_aux v v.length
  refine ⟨?_, h.2⟩
  rcases h.1 with h' | h'
  · exact h'
  · exact absurd (List.length_eq_zero_iff.1 h'.1) hv

theorem argmax_unique {K : Type} [Field K] [LinearOrder K] (v : List K) (i : Nat) (hi : i < v.length)
    (h : ∀ j, j < v.length → j ≠ i → vat v j < vat v i) : argmax v = i := by
  have hs := argmax_spec v (by rintro rfl; simp at hi)
  by_contra hne
  exact absurd (hs.2 i hi) (not_le.2 (h _ hs.1 hne))

/-- The distances of `Square`. -/
theorem vat_diff (dim : Nat) (p : List ℝ) (i : Nat) (hi : i < dim) :
    vat ((List.range dim).map fun i => |vat p i| - 1) i = |vat p i| - 1 := by
  simp [vat, List.getD_eq_getElem?_getD, hi]

/-- **C43**, squares and cubes: the value is the largest of `|x_i| - 1`; it is negative exactly in the open cube
`(-1, 1)^dim`, zero exactly on its boundary. -/
theorem C43_square_value (dim : Nat) (hd : 0 < dim) (p : List ℝ) :
    (∃ i, i < dim ∧ (square dim).eval p = |p.getD i 0| - 1) ∧ (∀ i, i < dim → |p.getD i 0| - 1 ≤ (square dim).eval p) ∧
    ((square dim).eval p < 0 ↔ ∀ i, i < dim → |p.getD i 0| < 1) ∧
    ((square dim).eval p ≤ 0 ↔ ∀ i, i < dim → |p.getD i 0| ≤ 1) := by
  have hs := argmax_spec ((List.range dim).map fun i => |vat p i| - 1) (by simp; omega)
  simp only [List.length_map, List.length_range] at hs
  have hval : (square dim).eval p = |vat p (argmax ((List.range dim).map fun i => |vat p i| - 1))| - 1 := by
    simp only [square]
    exact vat_diff dim p _ hs.1
  have hmax : ∀ i, i < dim → |vat p i| - 1 ≤ (square dim).eval p := by
    intro i hi
    have := hs.2 i hi
    rw [vat_diff dim p _ hi, vat_diff dim p _ hs.1] at this
    rw [hval]
    exact this
  refine ⟨⟨_, hs.1, hval⟩, hmax, ?_, ?_⟩
  · constructor
    · intro h i hi
      have := hmax i hi
      simp only [vat] at this
      linarith
    · intro h
      have := h _ hs.1
      rw [hval]
      simp only [vat] at this ⊢
      linarith
  · constructor
    · intro h i hi
      have := hmax i hi
      simp only [vat] at this
      linarith
    · intro h
      have := h _ hs.1
      rw [hval]
      simp only [vat] at this ⊢
      linarith

/-- **C43**, squares and cubes: wherever the largest `|x_i|` is attained once (and is not zero), the gradient is exact.
(Elsewhere the function has no gradient; its Hessian is not implemented.) -/
theorem C43_square_gradient (dim : Nat) (p : List ℝ) (hp : p.length = dim) (i : Nat) (hi : i < dim)
    (h0 : p.getD i 0 ≠ 0) (h : ∀ j, j < dim → j ≠ i → |p.getD j 0| < |p.getD i 0|) :
    IsGradient (square dim).eval p ((square dim).grad p) := by
  have harg : ∀ q : List ℝ, (∀ j, j < dim → j ≠ i → |q.getD j 0| < |q.getD i 0|) →
      argmax ((List.range dim).map fun i => |vat q i| - 1) = i := by
    intro q hq
    apply argmax_unique _ i (by simpa using hi)
    intro j hj hji
    simp only [List.length_map, List.length_range] at hj
    rw [vat_diff dim q _ hj, vat_diff dim q _ hi]
    have := hq j hj hji
    simp only [vat]
    linarith
  refine ⟨by simp [square, hp], fun v hv => ?_⟩
  have hgrad : dot ((square dim).grad p) v = sgn (vat p i) * v.getD i 0 := by
    rw [Ex.dot_eq_sum' _ _ (by simp [square, hv, hp])]
    simp only [square]
    rw [harg p h, hv, hp]
    have : ∀ k ∈ Finset.range dim, ((List.range dim).map fun k => if k = i then sgn (vat p i) else 0).getD k 0 * v.getD k 0
        = if k = i then sgn (vat p i) * v.getD k 0 else 0 := by
      intro k hk
      rw [Ex.getD_map_range _ _ _ (Finset.mem_range.1 hk)]
      split_ifs <;> simp
    rw [Finset.sum_congr rfl this, Finset.sum_ite_eq', if_pos (Finset.mem_range.2 hi)]
  rw [hgrad]
  -- near zero the same component is the largest
  have hcont : ∀ j, Filter.Tendsto (fun t : ℝ => |p.getD j 0 + t * v.getD j 0|) (nhds 0) (nhds |p.getD j 0|) := by
    intro j
    have : Continuous fun t : ℝ => |p.getD j 0 + t * v.getD j 0| := by fun_prop
    simpa using this.tendsto 0
  have hev : ∀ᶠ t in nhds (0 : ℝ), ∀ j ∈ Finset.range dim, j ≠ i →
      |(along p v t).getD j 0| < |(along p v t).getD i 0| := by
    rw [Filter.eventually_all_finset]
    intro j hj
    by_cases hji : j = i
    · exact Filter.Eventually.of_forall fun t hne => absurd hji hne
    · have := (hcont j).eventually_lt (hcont i) (h j (Finset.mem_range.1 hj) hji)
      filter_upwards [this] with t ht _
      rw [Ex.along_getD p v hv, Ex.along_getD p v hv]
      exact ht
  have hd : HasDerivAt (fun t : ℝ => |p.getD i 0 + t * v.getD i 0| - 1) (sgn (vat p i) * v.getD i 0) 0 := by
    have hl : HasDerivAt (fun t : ℝ => p.getD i 0 + t * v.getD i 0) (v.getD i 0) 0 := by
      have := ((hasDerivAt_id (0 : ℝ)).mul_const (v.getD i 0)).const_add (p.getD i 0)
      simpa using this
    have hc : Filter.Tendsto (fun t : ℝ => p.getD i 0 + t * v.getD i 0) (nhds 0) (nhds (p.getD i 0)) := by
      have : Continuous fun t : ℝ => p.getD i 0 + t * v.getD i 0 := by fun_prop
      simpa using this.tendsto 0
    rcases lt_or_gt_of_ne h0 with hneg | hpos
    · have hs : sgn (vat p i) = -1 := by
        unfold sgn vat
        rw [if_neg (not_lt.2 hneg.le), if_pos hneg]
        norm_num
      rw [hs]
      refine ((hl.neg).sub_const 1).congr_deriv (by ring) |>.congr_of_eventuallyEq ?_
      filter_upwards [hc.eventually_lt_const hneg] with t ht
      simp only [Pi.neg_apply]
      rw [abs_of_neg ht]
    · have hs : sgn (vat p i) = 1 := by
        unfold sgn vat
        rw [if_pos hpos, if_neg (not_lt.2 hpos.le)]
        norm_num
      rw [hs]
      refine (hl.sub_const 1).congr_deriv (by ring) |>.congr_of_eventuallyEq ?_
      filter_upwards [hc.eventually_const_lt hpos] with t ht
      rw [abs_of_pos ht]
  refine hd.congr_of_eventuallyEq ?_
  filter_upwards [hev] with t ht
  have ha := harg (along p v t) fun j hj hji => ht j (Finset.mem_range.2 hj) hji
  simp only [square]
  rw [ha, vat_diff dim _ _ hi]
  simp only [vat]
  rw [Ex.along_getD p v hv]

/-- A point where the hypotheses hold. -/
example : IsGradient (square 3).eval [1/2, -3, 2] [0, -1, 0] := by
  have h := C43_square_gradient 3 [1/2, -3, 2] rfl 1 (by decide) (by norm_num) (by
    intro j hj hne
    interval_cases j
    · norm_num [abs_of_pos, abs_of_neg]
    · exact absurd rfl hne
    · norm_num [abs_of_pos, abs_of_neg])
  have harg : argmax ((List.range 3).map fun i => |vat ([1/2, -3, 2] : List ℝ) i| - 1) = 1 :=
    argmax_unique _ 1 (by simp) (by
      intro j hj hne
      simp only [List.length_map, List.length_range] at hj
      rw [vat_diff 3 _ _ hj, vat_diff 3 _ _ (by decide)]
      interval_cases j
      · norm_num [vat, abs_of_pos, abs_of_neg]
      · exact absurd rfl hne
      · norm_num [vat, abs_of_pos, abs_of_neg])
  have : (square 3).grad ([1/2, -3, 2] : List ℝ) = [0, -1, 0] := by
    simp only [square]
    rw [harg]
    simp [List.range_succ, vat, sgn]
  rwa [this] at h

end Func
end Qugar
