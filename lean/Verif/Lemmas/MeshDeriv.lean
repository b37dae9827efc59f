import Verif.Lemmas.MeshOrient
/-
The weighted sums of the orientation routines are the derivatives of the map that interpolates the vertices.
-/
namespace Qugar.Mesh
open Spec Poly TS Qugar.Lagrange

theorem hasDerivAt_list_sum {α : Type} (L : List α) (f : α → ℝ → ℝ) (g : α → ℝ) (x : ℝ)
    (h : ∀ a ∈ L, HasDerivAt (f a) (g a) x) : HasDerivAt (fun s => (L.map fun a => f a s).sum) (L.map g).sum x := by
  induction L with
  | nil => simpa using hasDerivAt_const x (0 : ℝ)
  | cons a L ih =>
    simp only [List.map_cons, List.sum_cons]
    exact (h a (List.mem_cons_self ..)).add (ih fun b hb => h b (List.mem_cons_of_mem _ hb))

theorem cellDeriv_eq (ν : Nat → ℝ) (dim order : Nat) (v : List Nat → List ℝ) (d c : Nat) (hd : d < dim) :
    cellDeriv ν dim order v d c = vsum dim order v c (wD ν dim order d) := by
  unfold cellDeriv vsum cellMap
  apply HasDerivAt.deriv
  apply hasDerivAt_list_sum
  intro t ht
  rw [mem_indices_replicate, inSize_replicate] at ht
  obtain ⟨hl, hb⟩ := ht
  have e : ∀ s : ℝ, (((centre dim).set d s).map fun x i => (_root_.Lagrange.basis (Finset.range order) ν i).eval x) =
      (List.replicate dim fun i => lag ν order i (1 / 2)).set d fun i => lag ν order i s := by
    intro s
    unfold centre
    rw [List.map_set, List.map_replicate]
    simp only [← lag_eq_eval]
  simp only [e]
  unfold wD vat
  apply HasDerivAt.const_mul
  have hdl : d < (List.replicate dim fun i => lag ν order i (1 / 2 : ℝ)).length := by simpa using hd
  rw [basisProd_set _ d hdl _ t (by simpa using hl)]
  refine ((hasDerivAt_lag ν order (t.getD d 0) (1 / 2)).const_mul _).congr_of_eventuallyEq (Filter.Eventually.of_forall fun s => ?_)
  dsimp only
  rw [basisProd_set _ d hdl _ t (by simpa using hl)]

theorem cellMap_centre (ν : Nat → ℝ) (dim order : Nat) (v : List Nat → List ℝ) (c : Nat) :
    cellMap ν dim order v (centre dim) c = vsum dim order v c (wV ν dim order) := by
  unfold vsum cellMap centre
  simp only [List.map_replicate, ← lag_eq_eval]
  rfl

theorem lag_congr {ν μ : Nat → ℝ} {n : Nat} (h : ∀ i < n, ν i = μ i) {i : Nat} (hi : i < n) (x : ℝ) : lag ν n i x = lag μ n i x := by
  unfold lag
  apply Finset.prod_congr rfl
  intro j hj
  rw [Finset.mem_erase, Finset.mem_range] at hj
  rw [h i hi, h j hj.2]

theorem lagD_congr {ν μ : Nat → ℝ} {n : Nat} (h : ∀ i < n, ν i = μ i) {i : Nat} (hi : i < n) (x : ℝ) : lagD ν n i x = lagD μ n i x := by
  unfold lagD
  apply Finset.sum_congr rfl
  intro j hj
  rw [Finset.mem_erase, Finset.mem_range] at hj
  rw [h i hi, h j hj.2]
  congr 1
  apply Finset.prod_congr rfl
  intro k hk
  rw [Finset.mem_erase, Finset.mem_erase, Finset.mem_range] at hk
  rw [h k hk.2.2]

theorem basisProd_congr {f g : List (Nat → ℝ)} {t : List Nat} {n : Nat} (hfg : List.Forall₂ (fun a b => ∀ i < n, a i = b i) f g)
    (ht : ∀ i ∈ t, i < n) : basisProd f t = basisProd g t := by
  induction hfg generalizing t with
  | nil => rfl
  | @cons a b f g hab _ ih =>
    match t with
    | [] => rfl
    | i :: t =>
      simp only [basisProd]
      rw [hab i (ht i (List.mem_cons_self ..)), ih fun j hj => ht j (List.mem_cons_of_mem _ hj)]

theorem mem_lt_of_indices {dim n : Nat} {t : List Nat} (ht : t ∈ indices (List.replicate dim n)) : ∀ i ∈ t, i < n := by
  rw [mem_indices_replicate, inSize_replicate] at ht
  intro i hi
  obtain ⟨k, hk, rfl⟩ := List.getElem_of_mem hi
  have := ht.2 k (by omega)
  rwa [List.getD_eq_getElem?_getD, List.getElem?_eq_getElem hk, Option.getD_some] at this

theorem wD_congr {ν μ : Nat → ℝ} {dim n : Nat} (h : ∀ i < n, ν i = μ i) {t : List Nat} (ht : t ∈ indices (List.replicate dim n))
    (d : Nat) : wD ν dim n d t = wD μ dim n d t := by
  unfold wD
  refine basisProd_congr (n := n) ?_ (mem_lt_of_indices ht)
  rw [List.forall₂_iff_get]
  refine ⟨by simp, fun k h1 h2 i hi => ?_⟩
  simp only [List.get_eq_getElem, List.getElem_set, List.getElem_replicate]
  split_ifs
  · exact lagD_congr h hi _
  · exact lag_congr h hi _

theorem wV_congr {ν μ : Nat → ℝ} {dim n : Nat} (h : ∀ i < n, ν i = μ i) {t : List Nat} (ht : t ∈ indices (List.replicate dim n)) :
    wV ν dim n t = wV μ dim n t := by
  unfold wV
  refine basisProd_congr (n := n) ?_ (mem_lt_of_indices ht)
  rw [List.forall₂_iff_get]
  refine ⟨by simp, fun k h1 h2 i hi => ?_⟩
  simp only [List.get_eq_getElem, List.getElem_replicate]
  exact lag_congr h hi _

theorem cellDeriv_congr {ν μ : Nat → ℝ} {dim n : Nat} (h : ∀ i < n, ν i = μ i) (v : List Nat → List ℝ) (d c : Nat) (hd : d < dim) :
    cellDeriv ν dim n v d c = cellDeriv μ dim n v d c := by
  rw [cellDeriv_eq _ _ _ _ _ _ hd, cellDeriv_eq _ _ _ _ _ _ hd]
  exact vsum_congr (fun _ _ => rfl) fun t ht => wD_congr h ht d

theorem jacobian2 (ν : Nat → ℝ) (n : Nat) (v : List Nat → List ℝ) : jacobian ν 2 n v =
    cellDeriv ν 2 n v 0 0 * cellDeriv ν 2 n v 1 1 - cellDeriv ν 2 n v 0 1 * cellDeriv ν 2 n v 1 0 := by
  unfold jacobian
  rw [Matrix.det_fin_two]; rfl

theorem jacobian3 (ν : Nat → ℝ) (n : Nat) (v : List Nat → List ℝ) : jacobian ν 3 n v =
    cellDeriv ν 3 n v 0 0 * cellDeriv ν 3 n v 1 1 * cellDeriv ν 3 n v 2 2
    - cellDeriv ν 3 n v 0 0 * cellDeriv ν 3 n v 1 2 * cellDeriv ν 3 n v 2 1
    - cellDeriv ν 3 n v 0 1 * cellDeriv ν 3 n v 1 0 * cellDeriv ν 3 n v 2 2
    + cellDeriv ν 3 n v 0 1 * cellDeriv ν 3 n v 1 2 * cellDeriv ν 3 n v 2 0
    + cellDeriv ν 3 n v 0 2 * cellDeriv ν 3 n v 1 0 * cellDeriv ν 3 n v 2 1
    - cellDeriv ν 3 n v 0 2 * cellDeriv ν 3 n v 1 1 * cellDeriv ν 3 n v 2 0 := by
  unfold jacobian
  rw [Matrix.det_fin_three]; rfl

theorem jacobian_flip {dim : Nat} (hd : dim = 2 ∨ dim = 3) (ν : Nat → ℝ) (n : Nat) (v : List Nat → List ℝ) :
    jacobian ν dim n (fun t => v (mirror n t)) = - jacobian ν dim n v := by
  rcases hd with rfl | rfl
  · rw [jacobian2, jacobian2]
    simp only [cellDeriv_eq ν 2 n _ 0 _ (by omega), cellDeriv_eq ν 2 n _ 1 _ (by omega), vsum_mirror]
    have e0 : ∀ c, vsum 2 n v c (fun t => wD ν 2 n 0 (mirror n t)) = vsum 2 n v c (wD ν 2 n 1) := fun c =>
      vsum_congr (fun _ _ => rfl) fun t ht => (wD_swap2 ν n ht).1
    have e1 : ∀ c, vsum 2 n v c (fun t => wD ν 2 n 1 (mirror n t)) = vsum 2 n v c (wD ν 2 n 0) := fun c =>
      vsum_congr (fun _ _ => rfl) fun t ht => (wD_swap2 ν n ht).2.1
    simp only [e0, e1]
    ring
  · rw [jacobian3, jacobian3]
    simp only [cellDeriv_eq ν 3 n _ 0 _ (by omega), cellDeriv_eq ν 3 n _ 1 _ (by omega), cellDeriv_eq ν 3 n _ 2 _ (by omega), vsum_mirror]
    have e0 : ∀ c, vsum 3 n v c (fun t => wD ν 3 n 0 (mirror n t)) = vsum 3 n v c (wD ν 3 n 1) := fun c =>
      vsum_congr (fun _ _ => rfl) fun t ht => (wD_swap3 ν n ht).1
    have e1 : ∀ c, vsum 3 n v c (fun t => wD ν 3 n 1 (mirror n t)) = vsum 3 n v c (wD ν 3 n 0) := fun c =>
      vsum_congr (fun _ _ => rfl) fun t ht => (wD_swap3 ν n ht).2.1
    have e2 : ∀ c, vsum 3 n v c (fun t => wD ν 3 n 2 (mirror n t)) = vsum 3 n v c (wD ν 3 n 2) := fun c =>
      vsum_congr (fun _ _ => rfl) fun t ht => (wD_swap3 ν n ht).2.2
    simp only [e0, e1, e2]
    ring

theorem jacobian_congr {dim : Nat} (hd : dim = 2 ∨ dim = 3) (ν : Nat → ℝ) (n : Nat) {v v' : List Nat → List ℝ}
    (h : ∀ t ∈ indices (List.replicate dim n), v t = v' t) : jacobian ν dim n v = jacobian ν dim n v' := by
  rcases hd with rfl | rfl
  · rw [jacobian2, jacobian2]
    simp only [cellDeriv_eq ν 2 n _ 0 _ (by omega), cellDeriv_eq ν 2 n _ 1 _ (by omega)]
    simp only [vsum_congr (c := 0) h (fun t _ => rfl), vsum_congr (c := 1) h (fun t _ => rfl)]
  · rw [jacobian3, jacobian3]
    simp only [cellDeriv_eq ν 3 n _ 0 _ (by omega), cellDeriv_eq ν 3 n _ 1 _ (by omega), cellDeriv_eq ν 3 n _ 2 _ (by omega)]
    simp only [vsum_congr (c := 0) h (fun t _ => rfl), vsum_congr (c := 1) h (fun t _ => rfl), vsum_congr (c := 2) h (fun t _ => rfl)]

theorem jacobian_nodes {ν μ : Nat → ℝ} {dim n : Nat} (h : ∀ i < n, ν i = μ i) (v : List Nat → List ℝ) :
    jacobian ν dim n v = jacobian μ dim n v := by
  unfold jacobian
  congr 1
  ext d c
  exact cellDeriv_congr h v d c d.2

theorem vat_cellSum_der (cheb : Nat → Nat → ℝ) (m : Mesh ℝ) (hd : 0 < m.dim) (ho : 1 < m.order) :
    ∃ D, Lagrange.derivative cheb (List.replicate m.dim (1 / 2)) (List.replicate m.dim m.order) false = some D ∧ D.length = m.dim ∧
      ∀ m', SameShape m m' → ∀ cell, ∀ d < m.dim, ∀ c < m.range, vat ((D.map fun w => cellSum m' cell w).getD d []) c =
        cellDeriv (fun i => cheb i m.order) m.dim m.order (vert m' cell) d c := by
  obtain ⟨D, h1, h2, h3⟩ := derivative_weights cheb m.dim m.order (1 / 2 : ℝ) hd ho
  refine ⟨D, h1, h2, fun m' hm cell d hdd c hc => ?_⟩
  have e : (D.map fun w => cellSum m' cell w).getD d [] = cellSum m' cell (D.getD d []) := by
    have : d < D.length := by omega
    rw [List.getD_eq_getElem?_getD, List.getD_eq_getElem?_getD, List.getElem?_map, List.getElem?_eq_getElem this]; rfl
  rw [e, cellSum_getD _ _ _ _ (by rw [hm.range]; exact hc), cellDeriv_eq _ _ _ _ _ _ hdd, hm.dim, hm.order]
  exact vsum_congr (fun _ _ => rfl) fun t ht => h3 d hdd t ht

theorem determinant_eq (cheb : Nat → Nat → ℝ) (m : Mesh ℝ) (hd : m.dim = 2 ∨ m.dim = 3) (hr : m.range = m.dim) (ho : 1 < m.order) :
    ∃ D, Lagrange.derivative cheb (List.replicate m.dim (1 / 2)) (List.replicate m.dim m.order) false = some D ∧
      ∀ m', SameShape m m' → ∀ cell, determinant m'.dim (D.map fun w => cellSum m' cell w) =
        jacobian (fun i => cheb i m.order) m.dim m.order (vert m' cell) := by
  obtain ⟨D, h1, h2, h3⟩ := vat_cellSum_der cheb m (by omega) ho
  refine ⟨D, h1, fun m' hm cell => ?_⟩
  have h4 := h3 m' hm cell
  unfold determinant
  rw [hm.dim]
  dsimp only
  rcases hd with h | h
  · rw [h] at hr h4 ⊢
    rw [if_neg (by omega), h4 0 (by omega) 0 (by omega), h4 0 (by omega) 1 (by omega), h4 1 (by omega) 0 (by omega),
      h4 1 (by omega) 1 (by omega), jacobian2]
  · rw [h] at hr h4 ⊢
    rw [if_pos rfl, h4 0 (by omega) 0 (by omega), h4 0 (by omega) 1 (by omega), h4 0 (by omega) 2 (by omega),
      h4 1 (by omega) 0 (by omega), h4 1 (by omega) 1 (by omega), h4 1 (by omega) 2 (by omega),
      h4 2 (by omega) 0 (by omega), h4 2 (by omega) 1 (by omega), h4 2 (by omega) 2 (by omega), jacobian3]
    ring

end Qugar.Mesh
