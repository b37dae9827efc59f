import Verif.Model.Lagrange
import Verif.Props.Monomials
import Mathlib.LinearAlgebra.Lagrange
/-
C35: Lagrange bases (lagrange_tp_utils.cpp).
-/
namespace Qugar.Lagrange
open Spec TS Finset Poly

section
variable {K : Type} [Field K]

/-- The first `n` nodes are distinct. -/
def Distinct (node : Nat → K) (n : Nat) : Prop := ∀ i < n, ∀ j < n, node i = node j → i = j

theorem foldl_mul_if (n : Nat) (c : Nat → Prop) [DecidablePred c] (g : Nat → K) (a : K) :
    (List.range n).foldl (fun p j => if c j then p * g j else p) a = a * ∏ j ∈ (range n).filter c, g j := by
  rw [prod_filter]
  induction n with
  | zero => simp
  | succ n ih =>
    rw [List.range_succ, List.foldl_append, ih, List.foldl_cons, List.foldl_nil, prod_range_succ]
    split_ifs <;> ring

theorem foldl_add_if (n : Nat) (c : Nat → Prop) [DecidablePred c] (g : Nat → K) (a : K) :
    (List.range n).foldl (fun p j => if c j then p + g j else p) a = a + ∑ j ∈ (range n).filter c, g j := by
  rw [sum_filter]
  induction n with
  | zero => simp
  | succ n ih =>
    rw [List.range_succ, List.foldl_append, ih, List.foldl_cons, List.foldl_nil, sum_range_succ]
    split_ifs <;> ring

/-- Lagrange polynomial `i`. -/
def lag (node : Nat → K) (n i : Nat) (x : K) : K := ∏ j ∈ (range n).erase i, (x - node j) / (node i - node j)

theorem filter_erase (n i : Nat) : (range n).filter (fun j => i ≠ j) = (range n).erase i := by
  ext j; simp [eq_comm, and_comm]

theorem values_eq (node : Nat → K) (n : Nat) (x : K) : values node n x = (List.range n).map fun i => lag node n i x := by
  unfold values
  apply List.map_congr_left
  intro i _
  rw [foldl_mul_if n (fun j => i ≠ j) (fun j => (x - node j) / (node i - node j)), one_mul, filter_erase]
  rfl

theorem lag_eq_eval (node : Nat → K) (n i : Nat) (x : K) : lag node n i x = (_root_.Lagrange.basis (range n) node i).eval x := by
  unfold lag _root_.Lagrange.basis
  rw [Polynomial.eval_prod]
  apply prod_congr rfl
  intro j _
  simp only [_root_.Lagrange.basisDivisor, Polynomial.eval_mul, Polynomial.eval_C, Polynomial.eval_sub, Polynomial.eval_X]
  rw [div_eq_mul_inv, mul_comm]

theorem distinct_injOn {node : Nat → K} {n : Nat} (h : Distinct node n) : Set.InjOn node (range n : Finset Nat) := by
  intro i hi j hj e
  simp only [coe_range, Set.mem_Iio] at hi hj
  exact h i hi j hj e

theorem values_length (node : Nat → K) (n : Nat) (x : K) : (values node n x).length = n := by simp [values]

theorem values_getD (node : Nat → K) (n i : Nat) (x : K) (hi : i < n) : (values node n x).getD i 0 = lag node n i x := by
  rw [values_eq, getD_map_range _ _ _ _ hi]

/-- **C35** (interpolation): there are as many functions as nodes; function `i` is one at node `i` and zero at the others. -/
theorem C35_interpolation (node : Nat → K) (n : Nat) (hd : Distinct node n) (j : Nat) (hj : j < n) :
    values node n (node j) = (List.range n).map fun i => if i = j then 1 else 0 := by
  rw [values_eq]
  apply List.map_congr_left
  intro i hi
  rw [List.mem_range] at hi
  rw [lag_eq_eval]
  by_cases h : i = j
  · rw [if_pos h, h, _root_.Lagrange.eval_basis_self (distinct_injOn hd) (mem_range.2 hj)]
  · rw [if_neg h, _root_.Lagrange.eval_basis_of_ne h (mem_range.2 hj)]

theorem lag_reproduce (node : Nat → K) (n : Nat) (hd : Distinct node n) (p : Polynomial K) (hp : p.degree < n) (x : K) :
    ∑ i ∈ range n, lag node n i x * p.eval (node i) = p.eval x := by
  have h := _root_.Lagrange.eq_interpolate (distinct_injOn hd) (by simpa using hp)
  conv_rhs => rw [h]
  rw [_root_.Lagrange.interpolate_apply, Polynomial.eval_finsetSum]
  apply sum_congr rfl
  intro i _
  rw [Polynomial.eval_mul, Polynomial.eval_C, lag_eq_eval, mul_comm]

/-- **C35** (reproduction): polynomials of degree less than the number of nodes are reproduced from their values at the
nodes. -/
theorem C35_reproduction (node : Nat → K) (n : Nat) (hd : Distinct node n) (p : Polynomial K) (hp : p.degree < n) (x : K) :
    (List.zipWith (fun v i => v * p.eval (node i)) (values node n x) (List.range n)).sum = p.eval x := by
  rw [values_eq, List.zipWith_map_left, List.zipWith_self, list_sum_range]
  exact lag_reproduce node n hd p hp x

/-- **C35** (partition of unity). -/
theorem C35_sum (node : Nat → K) (n : Nat) (hn : 0 < n) (hd : Distinct node n) (x : K) : (values node n x).sum = 1 := by
  rw [values_eq, list_sum_range]
  have := lag_reproduce node n hd 1 (by rw [Polynomial.degree_one]; exact_mod_cast hn) x
  simpa using this

/-- Derivative of the Lagrange polynomial. -/
def lagD (node : Nat → K) (n i : Nat) (x : K) : K :=
  ∑ j ∈ (range n).erase i, (∏ k ∈ ((range n).erase i).erase j, (x - node k) / (node i - node k)) * (1 / (node i - node j))

theorem derivatives_eq (node : Nat → K) (n : Nat) (x : K) :
    derivatives node n x = (List.range n).map fun i => lagD node n i x := by
  unfold derivatives
  apply List.map_congr_left
  intro i _
  rw [foldl_add_if n (fun j => i ≠ j) (fun j => (List.range n).foldl (fun term k =>
        if k ≠ i ∧ k ≠ j then term * ((x - node k) / (node i - node k)) else term) (1 / (node i - node j))), zero_add,
    filter_erase]
  unfold lagD
  apply sum_congr rfl
  intro j _
  rw [foldl_mul_if n (fun k => k ≠ i ∧ k ≠ j) (fun k => (x - node k) / (node i - node k)), mul_comm]
  congr 2
  ext k; simp; tauto

end

theorem hasDerivAt_lag (node : Nat → ℝ) (n i : Nat) (x : ℝ) : HasDerivAt (fun s => lag node n i s) (lagD node n i x) x := by
  have := HasDerivAt.fun_finset_prod (u := (range n).erase i) (f := fun j s => (s - node j) / (node i - node j))
    (f' := fun j => 1 / (node i - node j)) (x := x) (fun j _ => ((hasDerivAt_id x).sub_const (node j)).div_const _)
  exact this

/-- **C35** (derivatives): the derivative routine returns the derivatives of the functions. -/
theorem C35_derivatives (node : Nat → ℝ) (n i : Nat) (hi : i < n) (x : ℝ) :
    (derivatives node n x).length = n ∧
    HasDerivAt (fun s => (values node n s).getD i 0) ((derivatives node n x).getD i 0) x := by
  refine ⟨by simp [derivatives], ?_⟩
  rw [derivatives_eq, getD_map_range _ _ _ _ hi]
  simp only [values_getD node n i _ hi]
  exact hasDerivAt_lag node n i x

/-! ### Tensor products -/

section
variable {K : Type} [Field K]

theorem tensorValues_eq (order : List Nat) (h0 : order ≠ []) (hpos : ∀ n ∈ order, 0 < n) (dirs : List (List K))
    (hd : dirs.length = order.length) :
    tensorValues order dirs = (indices order).map fun i => basisProd (dirs.map fun v k => v.getD k 0) i := by
  have hp : ∀ i ∈ indices order, (List.range order.length).foldl (fun val dir => val * (dirs.getD dir []).getD (i.getD dir 0) 0)
      (1 : K) = basisProd (dirs.map fun v k => v.getD k 0) i := by
    intro i hi
    have hil := (mem_indices.1 hi).length_eq
    have e : (dirs.map fun v k => v.getD k 0) = (List.range order.length).map fun d k => ((dirs.getD d []).getD k (0 : K)) := by
      conv_lhs => rw [eq_map_getD dirs [], List.map_map, hd]
      rfl
    rw [e, basisProd_range _ _ _ hil]
    have := foldl_mul_if order.length (fun _ => True) (fun dir => (dirs.getD dir []).getD (i.getD dir 0) 0) (1 : K)
    simpa using this
  unfold tensorValues
  rw [visitAll_ofUpper h0 hpos, tsize_eq, ← foldl_set_indices order (fun i => basisProd (dirs.map fun v k => v.getD k 0) i)
    (List.replicate (listProd order) 0) (by simp)]
  apply List.foldl_ext
  intro c i hi
  rw [flat_eq (forall2_lt_iff_inSize.1 (mem_indices.1 hi)), ← hp i hi]

theorem mapM_basis1D (cheb : Nat → Nat → K) (flag : Bool) (f : (Nat → K) → Nat → K → List K)
    (g : K → Nat → Option (List K)) (hg : ∀ x n, 1 < n → g x n = some (f (getCoord cheb n flag) n x)) (order : List Nat) :
    ∀ x : List K, (∀ n ∈ order, 1 < n) →
    ((List.zip x order).mapM fun xn => g xn.1 xn.2) = some (List.zipWith (fun t n => f (getCoord cheb n flag) n t) x order) := by
  induction order with
  | nil => intro x _; cases x <;> rfl
  | cons n order ih =>
    intro x h
    cases x with
    | nil => rfl
    | cons t x =>
      rw [List.zip_cons_cons, List.mapM_cons, hg t n (h n (by simp)), ih x (fun m hm => h m (by simp [hm]))]
      rfl

theorem basis_eq (cheb : Nat → Nat → K) (x : List K) (order : List Nat) (flag : Bool) (h : ∀ n ∈ order, 1 < n) :
    basis cheb x order flag = some (tensorValues order (List.zipWith (fun t n => values (getCoord cheb n flag) n t) x order)) := by
  unfold basis
  rw [mapM_basis1D cheb flag values (fun t n => basis1D cheb t n flag) (fun t n hn => by simp [basis1D, hn]) order x h]
  rfl

theorem derivative_eq (cheb : Nat → Nat → K) (x : List K) (order : List Nat) (flag : Bool) (h : ∀ n ∈ order, 1 < n) :
    derivative cheb x order flag = some ((List.range order.length).map fun d => tensorValues order
      ((List.zipWith (fun t n => values (getCoord cheb n flag) n t) x order).set d
        ((List.zipWith (fun t n => derivatives (getCoord cheb n flag) n t) x order).getD d []))) := by
  unfold derivative
  rw [mapM_basis1D cheb flag values (fun t n => basis1D cheb t n flag) (fun t n hn => by simp [basis1D, hn]) order x h,
    mapM_basis1D cheb flag derivatives (fun t n => basisDer1D cheb t n flag) (fun t n hn => by simp [basisDer1D, hn]) order x h]
  rfl

/-- The node of a tensor index. -/
def nodeAt (cheb : Nat → Nat → K) (order : List Nat) (flag : Bool) (i : List Nat) : List K :=
  List.zipWith (fun n k => getCoord cheb n flag k) order i

/-- The nodes of all the directions are distinct. -/
def DistinctNodes (cheb : Nat → Nat → K) (order : List Nat) (flag : Bool) : Prop :=
  ∀ n ∈ order, Distinct (getCoord cheb n flag) n

theorem basis_values (cheb : Nat → Nat → K) (x : List K) (order : List Nat) (flag : Bool) (h0 : order ≠ [])
    (h : ∀ n ∈ order, 1 < n) (hx : x.length = order.length) : ∃ b, basis cheb x order flag = some b ∧
      b.length = listProd order ∧ ∀ i ∈ indices order, b.getD (flatIndex i order) 0 =
        basisProd (List.zipWith (fun t n k => lag (getCoord cheb n flag) n k t) x order) i := by
  refine ⟨_, basis_eq cheb x order flag h, ?_, ?_⟩
  · rw [tensorValues_eq order h0 (fun n hn => by have := h n hn; omega) _ (by simp [hx])]
    simp [length_indices]
  intro i hi
  rw [tensorValues_eq order h0 (fun n hn => by have := h n hn; omega) _ (by simp [hx]), getD_indices_map order _ 0 i hi]
  have hil := mem_indices.1 hi
  clear hi h0 h
  induction hil generalizing x with
  | nil =>
    have : x = [] := List.length_eq_zero_iff.1 hx
    subst this; simp
  | @cons k n i order h1 _ ih =>
    cases x with
    | nil => simp at hx
    | cons t x =>
      simp only [List.zipWith_cons_cons, List.map_cons, basisProd]
      rw [ih x (by simpa using hx), values_getD _ _ _ _ h1]

/-- **C35** (tensor products, interpolation): at the node of index `j` the function of index `j` is one and all the others are
zero. -/
theorem C35_tensor_interpolation (cheb : Nat → Nat → K) (order : List Nat) (flag : Bool) (h0 : order ≠ [])
    (h : ∀ n ∈ order, 1 < n) (hd : DistinctNodes cheb order flag) (j : List Nat) (hj : j ∈ indices order) :
    ∃ b, basis cheb (nodeAt cheb order flag j) order flag = some b ∧ b.length = listProd order ∧
      ∀ i ∈ indices order, b.getD (flatIndex i order) 0 = if i = j then 1 else 0 := by
  have hjl := mem_indices.1 hj
  obtain ⟨b, hb, hbl, hv⟩ := basis_values cheb (nodeAt cheb order flag j) order flag h0 h (by simp [nodeAt, hjl.length_eq])
  refine ⟨b, hb, hbl, ?_⟩
  intro i hi
  rw [hv i hi]
  have hil := mem_indices.1 hi
  clear hv hi hj hbl hb h0 h
  induction hjl generalizing i with
  | nil => cases hil; simp [nodeAt, basisProd]
  | @cons l n j order h1 _ ih =>
    cases hil with
    | @cons k _ i _ h2 h3 =>
      have e := ih (fun m hm => hd m (by simp [hm])) i h3
      unfold nodeAt at e ⊢
      simp only [List.zipWith_cons_cons, basisProd]
      rw [e, ← values_getD _ _ _ _ h2, C35_interpolation _ _ (hd n (by simp)) l h1, getD_map_range _ _ _ _ h2]
      by_cases g1 : k = l <;> by_cases g2 : i = j <;> simp [g1, g2]

/-- **C35** (tensor products, partition of unity). -/
theorem C35_tensor_sum (cheb : Nat → Nat → K) (x : List K) (order : List Nat) (flag : Bool) (h0 : order ≠ [])
    (h : ∀ n ∈ order, 1 < n) (hd : DistinctNodes cheb order flag) (hx : x.length = order.length) :
    ∃ b, basis cheb x order flag = some b ∧ b.sum = 1 := by
  obtain ⟨b, hb, hbl, hv⟩ := basis_values cheb x order flag h0 h hx
  refine ⟨b, hb, ?_⟩
  have e : b = (indices order).map fun i => b.getD (flatIndex i order) 0 := by
    have := zip_indices order b hbl
    have h2 := congrArg (List.map Prod.snd) this
    rw [List.map_snd_zip (by rw [length_indices, hbl]), List.map_map] at h2
    exact h2
  rw [e, List.map_congr_left hv, sum_basisProd _ _ (by simp [hx])]
  clear hv hbl hb e h0
  induction order generalizing x with
  | nil => simp
  | cons n order ih =>
    cases x with
    | nil => simp at hx
    | cons t x =>
      simp only [List.zipWith_cons_cons, List.prod_cons]
      have e := C35_sum (getCoord cheb n flag) n (by have := h n (by simp); omega) (hd n (by simp)) t
      rw [values_eq, list_sum_range] at e
      rw [e, ih x (fun m hm => h m (by simp [hm])) (fun m hm => hd m (by simp [hm])) (by simpa using hx), one_mul]

theorem reproduce_prod (cheb : Nat → Nat → K) (flag : Bool) (order : List Nat) : ∀ (x : List K) (e : List Nat),
    x.length = order.length → List.Forall₂ (· < ·) e order → DistinctNodes cheb order flag →
    ((indices order).map fun i => basisProd (List.zipWith (fun t n k => lag (getCoord cheb n flag) n k t) x order) i *
      basisProd (monomialBasis (nodeAt cheb order flag i)) e).sum = basisProd (monomialBasis x) e := by
  induction order with
  | nil =>
    intro x e hx he _
    cases he
    simp [indices, basisProd]
  | cons n order ih =>
    intro x e hx he hd
    cases x with
    | nil => simp at hx
    | cons t x =>
      cases he with
      | @cons a _ e _ h1 h2 =>
        have hi := ih x e (by simpa using hx) h2 (fun m hm => hd m (by simp [hm]))
        have hr := lag_reproduce (getCoord cheb n flag) n (hd n (by simp)) (Polynomial.X ^ a)
          (by rw [Polynomial.degree_X_pow]; exact_mod_cast h1) t
        simp only [Polynomial.eval_pow, Polynomial.eval_X] at hr
        simp only [indices]
        rw [sum_map_flatMap]
        have hterm : ∀ s, (((List.range n).map (· :: s)).map fun i =>
            basisProd (List.zipWith (fun t n k => lag (getCoord cheb n flag) n k t) (t :: x) (n :: order)) i *
              basisProd (monomialBasis (nodeAt cheb (n :: order) flag i)) (a :: e)).sum =
            t ^ a * (basisProd (List.zipWith (fun t n k => lag (getCoord cheb n flag) n k t) x order) s *
              basisProd (monomialBasis (nodeAt cheb order flag s)) e) := by
          intro s
          rw [List.map_map, list_sum_range, ← hr, sum_mul]
          apply sum_congr rfl
          intro k _
          simp only [Function.comp, List.zipWith_cons_cons, basisProd, nodeAt, monomialBasis, List.map_cons]
          ring
        simp only [hterm]
        rw [List.sum_map_mul_left, hi]
        rfl

/-- **C35** (tensor products, reproduction): every tensor-product polynomial of the given orders is reproduced from its
values at the nodes. -/
theorem C35_tensor_reproduction {V : Type} [AddCommGroup V] [Module K V] (cheb : Nat → Nat → K) (x : List K)
    (p : P V) (flag : Bool) (hw : WellFormed p.order p.coefs) (h : ∀ n ∈ p.order, 1 < n) (hd : DistinctNodes cheb p.order flag)
    (hx : x.length = p.order.length) :
    ∃ b, basis cheb x p.order flag = some b ∧
      ((indices p.order).map fun i => b.getD (flatIndex i p.order) 0 • Mon.eval p (nodeAt cheb p.order flag i)).sum = Mon.eval p x := by
  obtain ⟨b, hb, hbl, hv⟩ := basis_values cheb x p.order flag hw.1 h hx
  refine ⟨b, hb, ?_⟩
  have hn : ∀ i ∈ indices p.order, (nodeAt cheb p.order flag i).length = p.order.length := by
    intro i hi
    simp [nodeAt, (mem_indices.1 hi).length_eq]
  rw [C29_value p hw x hx]
  have hterm : ∀ i ∈ indices p.order, b.getD (flatIndex i p.order) 0 • Mon.eval p (nodeAt cheb p.order flag i) =
      ((indices p.order).map fun e => (basisProd (List.zipWith (fun t n k => lag (getCoord cheb n flag) n k t) x p.order) i *
        basisProd (monomialBasis (nodeAt cheb p.order flag i)) e) • p.coefs.getD (flatIndex e p.order) 0).sum := by
    intro i hi
    rw [hv i hi, C29_value p hw _ (hn i hi)]
    unfold tensorSum
    rw [smul_list_sum]
    simp only [smul_smul]
  rw [List.map_congr_left hterm]
  unfold tensorSum
  have swap : ∀ (L M : List (List Nat)) (F : List Nat → List Nat → K) (c : List Nat → V),
      (L.map fun i => (M.map fun e => F i e • c e).sum).sum = (M.map fun e => (L.map fun i => F i e).sum • c e).sum := by
    intro L M F c
    induction L with
    | nil => simp
    | cons i L ih =>
      simp only [List.map_cons, List.sum_cons, add_smul, ih, List.sum_map_add]
  rw [swap]
  congr 1
  apply List.map_congr_left
  intro e he
  rw [reproduce_prod cheb flag p.order x e hx (mem_indices.1 he) hd]

end

theorem prod_update (m : Nat) (F : Nat → Nat → ℝ) (d : Nat) (v : Nat → ℝ) (hd : d < m) (i : Nat → Nat) :
    ∏ e ∈ range m, (if e = d then v (i e) else F e (i e)) = (∏ e ∈ (range m).erase d, F e (i e)) * v (i d) := by
  rw [← mul_prod_erase _ _ (mem_range.2 hd), if_pos rfl, mul_comm]
  congr 1
  apply prod_congr rfl
  intro e he
  rw [if_neg (ne_of_mem_erase he)]

theorem basisProd_set (f : List (Nat → ℝ)) (d : Nat) (hd : d < f.length) (v : Nat → ℝ) (i : List Nat) (hi : i.length = f.length) :
    basisProd (f.set d v) i = (∏ e ∈ (range f.length).erase d, (f.getD e (fun _ => 0)) (i.getD e 0)) * v (i.getD d 0) := by
  have e : f.set d v = (List.range f.length).map fun e k => if e = d then v k else f.getD e (fun _ => 0) k := by
    apply List.ext_getElem
    · simp
    intro k h1 h2
    have hk : k < f.length := by simpa using h1
    funext t
    rw [List.getElem_set, List.getElem_map, List.getElem_range, List.getD_eq_getElem?_getD, List.getElem?_eq_getElem hk]
    by_cases h : d = k
    · simp [h]
    · simp [h, Ne.symm h]
  rw [e, basisProd_range _ _ _ hi]
  exact prod_update f.length (fun e k => f.getD e (fun _ => 0) k) d v hd (fun e => i.getD e 0)

/-- **C35** (tensor products, derivatives): the list of direction `dir` contains the partial derivatives along `dir` of all the
functions. -/
theorem C35_tensor_derivatives (cheb : Nat → Nat → ℝ) (x : List ℝ) (order : List Nat) (flag : Bool) (h0 : order ≠ [])
    (h : ∀ n ∈ order, 1 < n) (hx : x.length = order.length) :
    ∃ D, derivative cheb x order flag = some D ∧ D.length = order.length ∧ ∀ dir < order.length,
      (D.getD dir []).length = listProd order ∧ ∀ k < listProd order,
      HasDerivAt (fun t => ((basis cheb (x.set dir t) order flag).getD []).getD k 0) ((D.getD dir []).getD k 0) (x.getD dir 0) := by
  have hpos : ∀ n ∈ order, 0 < n := fun n hn => by have := h n hn; omega
  refine ⟨_, derivative_eq cheb x order flag h, by simp, ?_⟩
  intro dir hdir
  rw [getD_map_range _ _ _ _ hdir, tensorValues_eq order h0 hpos _ (by simp [hx])]
  refine ⟨by simp [length_indices], ?_⟩
  intro k hk
  obtain ⟨i, hi, rfl⟩ : ∃ i ∈ indices order, flatIndex i order = k := by
    have := indices_flat order
    have hm : k ∈ List.range (listProd order) := List.mem_range.2 hk
    rw [← this] at hm
    obtain ⟨i, hi, e⟩ := List.mem_map.1 hm
    exact ⟨i, hi, e⟩
  have hil := mem_indices.1 hi
  have hill := hil.length_eq
  rw [getD_indices_map order _ 0 i hi]
  have hxd : dir < x.length := by omega
  have hnode : i.getD dir 0 < order.getD dir 0 := by
    have := List.forall₂_iff_get.1 hil
    have h2 := this.2 dir (by omega) hdir
    rw [List.getD_eq_getElem?_getD, List.getD_eq_getElem?_getD, List.getElem?_eq_getElem hdir, List.getElem?_eq_getElem (by omega)]
    simpa using h2
  -- the function as a product
  obtain ⟨vals, hvals⟩ : ∃ v, v = (List.zipWith (fun t n => values (getCoord cheb n flag) n t) x order).map
    fun v k => v.getD k (0 : ℝ) := ⟨_, rfl⟩
  have hvl : vals.length = order.length := by rw [hvals]; simp [hx]
  have hfun : ∀ t : ℝ, ((basis cheb (x.set dir t) order flag).getD []).getD (flatIndex i order) 0 =
      basisProd (vals.set dir fun k => (values (getCoord cheb (order.getD dir 0) flag) (order.getD dir 0) t).getD k 0) i := by
    intro t
    rw [basis_eq cheb _ order flag h]
    simp only [Option.getD_some]
    rw [tensorValues_eq order h0 hpos _ (by simp [hx]), getD_indices_map order _ 0 i hi]
    congr 1
    rw [hvals]
    apply List.ext_getElem
    · simp
    intro e h1 h2
    have he : e < order.length := by simp at h1; omega
    rw [List.getElem_map, List.getElem_zipWith, List.getElem_set, List.getElem_set]
    by_cases hed : dir = e
    · subst hed
      simp [List.getElem?_eq_getElem he]
    · simp [hed]
  have hder : (((List.zipWith (fun t n => values (getCoord cheb n flag) n t) x order).set dir
        ((List.zipWith (fun t n => derivatives (getCoord cheb n flag) n t) x order).getD dir [])).map fun v k => v.getD k (0 : ℝ)) =
      vals.set dir fun k => (derivatives (getCoord cheb (order.getD dir 0) flag) (order.getD dir 0) (x.getD dir 0)).getD k 0 := by
    rw [hvals, List.map_set, getD_zipWith _ _ _ _ 0 0 _ hxd hdir]
  rw [hder, basisProd_set vals dir (by omega) _ i (by omega)]
  have hd1 := (C35_derivatives (getCoord cheb (order.getD dir 0) flag) (order.getD dir 0) (i.getD dir 0) hnode (x.getD dir 0)).2
  refine (hd1.const_mul (∏ e ∈ (range vals.length).erase dir, (vals.getD e (fun _ => 0)) (i.getD e 0))).congr_of_eventuallyEq
    (Filter.Eventually.of_forall ?_)
  intro t
  dsimp only
  rw [hfun t, basisProd_set vals dir (by omega) _ i (by omega)]

/-- Orders below 2 are refused. -/
theorem C35_refuses_low_orders {K : Type} [Field K] (cheb : Nat → Nat → K) (x : K) (n : Nat) (flag : Bool) (hn : n ≤ 1) :
    basis1D cheb x n flag = none ∧ basisDer1D cheb x n flag = none := by
  constructor
  · unfold basis1D; rw [if_neg (by omega)]
  · unfold basisDer1D; rw [if_neg (by omega)]

/-- Equidistant nodes are distinct, so the theorems above apply to them. -/
theorem equidistant_distinct {K : Type} [Field K] [CharZero K] (cheb : Nat → Nat → K) (n : Nat) (hn : 1 < n) :
    Distinct (getCoord cheb n true) n := by
  intro i _ j _ e
  unfold getCoord at e
  simp only [if_true] at e
  have hne : ((n - 1 : Nat) : K) ≠ 0 := by
    have : n - 1 ≠ 0 := by omega
    exact_mod_cast this
  rw [div_left_inj' hne] at e
  exact_mod_cast e

/-- **C35** (choice of nodes) fails: the flag is inverted. With `chebyshev == true` function 1 of order 3 is one at the
equidistant node 1/2, whatever the Chebyshev nodes are; with `chebyshev == false` it is one at the Chebyshev node. -/
theorem C35_flag_is_inverted (cheb : Nat → Nat → ℚ) (n : Nat) (hn : 1 < n) (hd : Distinct (fun i => cheb i n) n) (i : Nat)
    (hi : i < n) :
    basis1D cheb ((i : ℚ) / ((n - 1 : Nat) : ℚ)) n true = some ((List.range n).map fun j => if j = i then 1 else 0) ∧
    basis1D cheb (cheb i n) n false = some ((List.range n).map fun j => if j = i then 1 else 0) := by
  unfold basis1D
  rw [if_pos hn, if_pos hn]
  constructor
  · have := C35_interpolation (getCoord cheb n true) n (equidistant_distinct cheb n hn) i hi
    simpa [getCoord] using this
  · have := C35_interpolation (getCoord cheb n false) n (by
      intro a ha b hb e
      exact hd a ha b hb (by simpa [getCoord] using e)) i hi
    simpa [getCoord] using this

/-- Consequently asking for Chebyshev nodes does not give the basis of the Chebyshev nodes as soon as one of them is not
equidistant. -/
theorem C35_choice_of_nodes_fails (cheb : Nat → Nat → ℚ) (hc : cheb 1 4 = 1 / 4) :
    ¬ basis1D cheb (cheb 1 4) 4 true = some ((List.range 4).map fun j => if j = 1 then 1 else 0) := by
  rw [hc]
  intro h
  have e : basis1D cheb (1 / 4) 4 true = basis1D (fun _ _ => 0) (1 / 4) 4 true := by
    have e2 : getCoord cheb 4 true = getCoord (fun _ _ => 0) 4 true := by funext i; simp [getCoord]
    unfold basis1D
    rw [e2]
  rw [e] at h
  revert h
  decide +kernel

/-! Concrete cases: equidistant nodes, orders 3 and 2 x 2. -/
example : basis1D (fun _ _ => 0) (1 / 4 : ℚ) 3 true = some [3 / 8, 3 / 4, -1 / 8] := by decide +kernel
example : basisDer1D (fun _ _ => 0) (1 / 4 : ℚ) 3 true = some [-2, 2, 0] := by decide +kernel
example : basis (fun _ _ => 0) [(1 / 4 : ℚ), 1 / 2] [2, 2] true = some [3 / 8, 1 / 8, 3 / 8, 1 / 8] := by decide +kernel
example : derivative (fun _ _ => 0) [(1 / 4 : ℚ), 1 / 2] [2, 2] true =
    some [[-1 / 2, 1 / 2, -1 / 2, 1 / 2], [-3 / 4, -1 / 4, 3 / 4, 1 / 4]] := by decide +kernel

end Qugar.Lagrange
