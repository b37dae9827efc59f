import Verif.Lemmas.MeshDeriv
import Verif.Spec.Calculus
import Mathlib.Tactic.IntervalCases
/-
Property theorem C41 (orientation of the cells of a reparameterization).
-/
namespace Qugar.Mesh
open Spec Poly TS
open Qugar.Lagrange (lag lagD)

/-- The mesh is well formed: at least one direction, two points per direction, whole cells. -/
structure WellShaped {K : Type} (m : Mesh K) : Prop where
  dim : 0 < m.dim
  order : 1 < m.order
  whole : m.conn.length % (m.order ^ m.dim) = 0

/-- Number of cells. -/
def cellCount {K : Type} (m : Mesh K) : Nat := m.conn.length / m.order ^ m.dim

section
variable {K : Type} [Field K] [LinearOrder K]

/-- **C41** (permuting): permuting the directions of a cell succeeds, changes only the connectivity, which is a permutation
of the former one; the vertices of the cell are those of the flipped cell, the vertices of the other cells do not change. -/
theorem C41_permute (m : Mesh K) (h : WellShaped m) (cell : Nat) (hc : cell < cellCount m) :
    ∃ m', permuteCell m cell = some m' ∧ m'.dim = m.dim ∧ m'.range = m.range ∧ m'.order = m.order ∧ m'.points = m.points ∧
      m'.wires = m.wires ∧ m'.conn.Perm m.conn ∧ (∀ t ∈ indices (List.replicate m.dim m.order),
        vertex m.dim m.order m.points m'.conn cell t = flipped m.dim m.order (vertex m.dim m.order m.points m.conn cell) t) ∧
      ∀ c, c ≠ cell → ∀ t ∈ indices (List.replicate m.dim m.order),
        vertex m.dim m.order m.points m'.conn c t = vertex m.dim m.order m.points m.conn c t := by
  obtain ⟨m', h1, h2, h3, h4⟩ := permute_vert m cell h.dim h.order h.whole hc
  unfold vert at h3 h4
  rw [h2.dim, h2.order, h2.points] at h3 h4
  refine ⟨m', h1, h2.dim, h2.range, h2.order, h2.points, h2.wires, h2.perm, fun t ht => ?_, h4⟩
  rw [h3 t ht, flipped_mirror _ ht h.dim]

/-- **C41** (involution): permuting the directions of a cell twice gives the mesh back. -/
theorem C41_involutive (m : Mesh K) (h : WellShaped m) (cell : Nat) (hc : cell < cellCount m) :
    (permuteCell m cell).bind (fun m' => permuteCell m' cell) = some m := by
  obtain ⟨c1, h1, h2, h3, h4, h5⟩ := permuteCell_spec m cell h.dim h.order h.whole hc
  obtain ⟨c2, g1, g2, g3, g4, g5⟩ := permuteCell_spec { m with conn := c1 } cell h.dim h.order
    (by show c1.length % _ = 0; rw [h2]; exact h.whole) (by show cell < c1.length / _; rw [h2]; exact hc)
  rw [h1, Option.bind_some, g1]
  have e : c2 = m.conn := by
    apply List.ext_getElem (g2.trans h2)
    intro k hk1 hk2
    have e2 : c2.getD k 0 = m.conn.getD k 0 := by
      by_cases hk : k < cell * ppc m ∨ (cell + 1) * ppc m ≤ k
      · exact (g5 k hk).trans (h5 k hk)
      · have hb : (cell + 1) * ppc m = cell * ppc m + ppc m := by ring
        obtain ⟨j, rfl⟩ : ∃ j, k = cell * ppc m + j := ⟨k - cell * ppc m, by omega⟩
        have hj : j ∈ List.range (listProd (List.replicate m.dim m.order)) := by
          rw [List.mem_range, Vtu.listProd_replicate]; show j < ppc m; omega
        rw [← indices_flat] at hj
        obtain ⟨t, ht, rfl⟩ := List.mem_map.1 hj
        have a := g4 t ht
        have b := h4 (mirror m.order t) (mirror_mem ht)
        rw [mirror_invol ht] at b
        exact a.trans b
    rw [List.getD_eq_getElem?_getD, List.getD_eq_getElem?_getD, List.getElem?_eq_getElem hk1, List.getElem?_eq_getElem hk2] at e2
    simpa using e2
  rw [e]

end

/-- The orientation routine judges the cells by the determinant for the nodes `cheb`. -/
theorem orient_cells_cheb (cheb : Nat → Nat → ℝ) (m : Mesh ℝ) (h : WellShaped m) (hd : m.dim = 2 ∨ m.dim = 3) (hr : m.range = m.dim)
    (cells : List Nat) (hc : ∀ c ∈ cells, c < cellCount m) (jac : (List Nat → List ℝ) → ℝ)
    (hj : jac = jacobian (fun i => cheb i m.order) m.dim m.order) :
    ∃ m', orientCells cheb m cells = some m' ∧ SameShape m m' ∧
      (∀ c, ∀ t ∈ indices (List.replicate m.dim m.order), vertex m.dim m.order m.points m'.conn c t =
        if c ∈ cells ∧ jac (vertex m.dim m.order m.points m.conn c) < 0 then
          flipped m.dim m.order (vertex m.dim m.order m.points m.conn c) t
        else vertex m.dim m.order m.points m.conn c t) ∧
      ∀ c ∈ cells, jac (vertex m.dim m.order m.points m'.conn c) = |jac (vertex m.dim m.order m.points m.conn c)| := by
  classical
  obtain ⟨D, h1, h2⟩ := determinant_eq cheb m hd hr h.order
  rw [← hj] at h2
  obtain ⟨m', e1, e2, e3⟩ := orient_fold m h.dim h.order h.whole (fun v => jac v < 0)
    (fun v v' hv => by rw [hj, jacobian_congr hd _ _ hv])
    (fun v hv => by rw [hj] at hv ⊢; rw [jacobian_flip hd]; linarith)
    (fun m cell => do
      let n ← numCells m
      if cell < n then
        if determinant m.dim (D.map fun w => cellSum m cell w) < 0 then permuteCell m cell else some m
      else none)
    (by
      intro m1 hm1 c hc1
      have : numCells m1 = some (m.conn.length / ppc m) := by
        unfold numCells
        rw [hm1.len, hm1.ppc, if_pos (show m.conn.length % ppc m = 0 from h.whole)]
      simp only [this, Option.bind_eq_bind, Option.bind_some]
      rw [if_pos hc1, h2 m1 hm1])
    cells m (SameShape.refl m) hc
  refine ⟨m', ?_, e2, fun c t ht => ?_, fun c hcc => ?_⟩
  · unfold orientCells
    rw [h1]; exact e1
  · have := e3 c t ht
    unfold vert at this
    rw [e2.dim, e2.order, e2.points] at this
    split_ifs with hb
    · rw [this.1 hb, flipped_mirror _ ht h.dim]
    · exact this.2 hb
  · have := e3 c
    unfold vert at this
    rw [e2.dim, e2.order, e2.points] at this
    by_cases hb : jac (vertex m.dim m.order m.points m.conn c) < 0
    · have e := jacobian_congr hd (fun i => cheb i m.order) _ fun t ht => (this t ht).1 ⟨hcc, hb⟩
      rw [jacobian_flip hd, ← hj] at e
      rw [e, abs_of_neg hb]
    · have e := jacobian_congr hd (fun i => cheb i m.order) _ fun t ht => (this t ht).2 fun x => hb x.2
      rw [← hj] at e
      rw [e, abs_of_nonneg (not_lt.1 hb)]

/-- **C41** (orientation): for meshes whose parametric nodes are the ones the routine uses, orienting the listed cells
flips exactly the listed cells whose Jacobian determinant at the centre is negative, changes no point and no other cell,
and afterwards no listed cell has a negative determinant. -/
theorem C41_orient_cells_partial (cheb : Nat → Nat → ℝ) (m : Mesh ℝ) (h : WellShaped m) (hd : m.dim = 2 ∨ m.dim = 3) (hr : m.range = m.dim)
    (hn : ∀ i < m.order, pointIn01 cheb m.order i = cheb i m.order) (cells : List Nat) (hc : ∀ c ∈ cells, c < cellCount m) :
    ∃ m', orientCells cheb m cells = some m' ∧ m'.dim = m.dim ∧ m'.range = m.range ∧ m'.order = m.order ∧ m'.points = m.points ∧
      m'.wires = m.wires ∧ m'.conn.Perm m.conn ∧
      (∀ c, ∀ t ∈ indices (List.replicate m.dim m.order), vertex m.dim m.order m.points m'.conn c t =
        if c ∈ cells ∧ jacobian (pointIn01 cheb m.order) m.dim m.order (vertex m.dim m.order m.points m.conn c) < 0 then
          flipped m.dim m.order (vertex m.dim m.order m.points m.conn c) t
        else vertex m.dim m.order m.points m.conn c t) ∧
      ∀ c ∈ cells, jacobian (pointIn01 cheb m.order) m.dim m.order (vertex m.dim m.order m.points m'.conn c) =
        |jacobian (pointIn01 cheb m.order) m.dim m.order (vertex m.dim m.order m.points m.conn c)| := by
  have hj : jacobian (pointIn01 cheb m.order) m.dim m.order = jacobian (fun i => cheb i m.order) m.dim m.order :=
    funext fun v => jacobian_nodes hn v
  obtain ⟨m', e1, e2, e3, e4⟩ := orient_cells_cheb cheb m h hd hr cells hc _ hj
  exact ⟨m', e1, e2.dim, e2.range, e2.order, e2.points, e2.wires, e2.perm, e3, e4⟩

/-- **C41** (orientation of the whole mesh). -/
theorem C41_orient_all_partial (cheb : Nat → Nat → ℝ) (m : Mesh ℝ) (h : WellShaped m) (hd : m.dim = 2 ∨ m.dim = 3) (hr : m.range = m.dim)
    (hn : ∀ i < m.order, pointIn01 cheb m.order i = cheb i m.order) :
    ∃ m', orientAllCells cheb m = some m' ∧ m'.points = m.points ∧ m'.conn.Perm m.conn ∧
      ∀ c < cellCount m, 0 ≤ jacobian (pointIn01 cheb m.order) m.dim m.order (vertex m.dim m.order m.points m'.conn c) := by
  obtain ⟨m', h1, _, _, _, h2, _, h3, _, h4⟩ := C41_orient_cells_partial cheb m h hd hr hn (List.range (cellCount m))
    (fun c hc => List.mem_range.1 hc)
  refine ⟨m', ?_, h2, h3, fun c hc => ?_⟩
  · unfold orientAllCells numCells
    rw [if_pos (show m.conn.length % ppc m = 0 from h.whole)]
    exact h1
  · rw [h4 c (List.mem_range.2 hc)]
    exact abs_nonneg _

/-- From seven points per direction on, the nodes of the cells are the ones the routine uses. -/
theorem nodes_high_order (cheb : Nat → Nat → ℝ) (order : Nat) (h : 7 ≤ order) (i : Nat) : pointIn01 cheb order i = cheb i order := by
  unfold pointIn01 useChebyshev
  rw [decide_eq_true h]; rfl

/-- The nodes 0, 1/2, 1 are the nodes of both kinds for two and three points per direction. -/
theorem nodes_low_order (cheb : Nat → Nat → ℝ) (order : Nat) (h : order = 2 ∨ order = 3) (h0 : cheb 0 order = 0)
    (h1 : cheb (order - 1) order = 1) (h2 : order = 3 → cheb 1 3 = 1 / 2) (i : Nat) (hi : i < order) :
    pointIn01 cheb order i = cheb i order := by
  unfold pointIn01 useChebyshev
  rcases h with rfl | rfl
  · interval_cases i
    · simpa using h0.symm
    · simpa using h1.symm
  · interval_cases i
    · simpa using h0.symm
    · have := h2 rfl
      rw [this]; norm_num
    · have : cheb 2 3 = 1 := h1
      rw [this]; norm_num

/-! ### Level sets and facets -/

theorem normal_flip {dim : Nat} (hd : dim = 1 ∨ dim = 2) (ν : Nat → ℝ) (n : Nat) (hs : dim = 1 → Symmetric ν n) (v : List Nat → List ℝ) :
    cellNormalAt ν dim n (fun t => v (mirror n t)) = (cellNormalAt ν dim n v).map fun x => -x := by
  unfold cellNormalAt
  rcases hd with rfl | rfl
  · simp only [if_true, cellDeriv_eq ν 1 n _ 0 _ (by omega), vsum_mirror, List.map_cons, List.map_nil]
    have e : ∀ c, vsum 1 n v c (fun t => wD ν 1 n 0 (mirror n t)) = - vsum 1 n v c (wD ν 1 n 0) := fun c => by
      rw [← vsum_neg]
      exact vsum_congr (fun _ _ => rfl) fun t ht => (wD_flip1 ν two_ne_zero n (hs rfl) ht).1
    simp only [e]
  · simp only [if_neg (show ¬ (2 = 1) by omega), cellDeriv_eq ν 2 n _ 0 _ (by omega), cellDeriv_eq ν 2 n _ 1 _ (by omega), vsum_mirror,
      List.map_cons, List.map_nil]
    have e0 : ∀ c, vsum 2 n v c (fun t => wD ν 2 n 0 (mirror n t)) = vsum 2 n v c (wD ν 2 n 1) := fun c =>
      vsum_congr (fun _ _ => rfl) fun t ht => (wD_swap2 ν n ht).1
    have e1 : ∀ c, vsum 2 n v c (fun t => wD ν 2 n 1 (mirror n t)) = vsum 2 n v c (wD ν 2 n 0) := fun c =>
      vsum_congr (fun _ _ => rfl) fun t ht => (wD_swap2 ν n ht).2.1
    simp only [e0, e1, List.cons.injEq, and_true]
    refine ⟨by ring, by ring, by ring⟩

theorem centrePoint_flip {dim : Nat} (hd : dim = 1 ∨ dim = 2) (ν : Nat → ℝ) (n range : Nat) (hs : dim = 1 → Symmetric ν n)
    (v : List Nat → List ℝ) : centrePoint ν dim range n (fun t => v (mirror n t)) = centrePoint ν dim range n v := by
  unfold centrePoint
  apply List.map_congr_left
  intro c _
  rw [cellMap_centre, cellMap_centre, vsum_mirror]
  apply vsum_congr (fun _ _ => rfl)
  intro t ht
  rcases hd with rfl | rfl
  · exact (wD_flip1 ν two_ne_zero n (hs rfl) ht).2
  · exact (wD_swap2 ν n ht).2.2

theorem normal_congr {dim : Nat} (hd : dim = 1 ∨ dim = 2) (ν : Nat → ℝ) (n : Nat) {v v' : List Nat → List ℝ}
    (h : ∀ t ∈ indices (List.replicate dim n), v t = v' t) : cellNormalAt ν dim n v = cellNormalAt ν dim n v' := by
  unfold cellNormalAt
  rcases hd with rfl | rfl
  · simp only [if_true, cellDeriv_eq ν 1 n _ 0 _ (by omega)]
    simp only [vsum_congr (c := 0) h (fun t _ => rfl), vsum_congr (c := 1) h (fun t _ => rfl)]
  · simp only [if_neg (show ¬ (2 = 1) by omega), cellDeriv_eq ν 2 n _ 0 _ (by omega), cellDeriv_eq ν 2 n _ 1 _ (by omega)]
    simp only [vsum_congr (c := 0) h (fun t _ => rfl), vsum_congr (c := 1) h (fun t _ => rfl), vsum_congr (c := 2) h (fun t _ => rfl)]

theorem centrePoint_congr (dim : Nat) (ν : Nat → ℝ) (n range : Nat) {v v' : List Nat → List ℝ}
    (h : ∀ t ∈ indices (List.replicate dim n), v t = v' t) : centrePoint ν dim range n v = centrePoint ν dim range n v' := by
  unfold centrePoint
  apply List.map_congr_left
  intro c _
  rw [cellMap_centre, cellMap_centre]
  exact vsum_congr h fun _ _ => rfl

theorem normal_nodes {dim : Nat} (hd : dim = 1 ∨ dim = 2) {ν μ : Nat → ℝ} {n : Nat} (h : ∀ i < n, ν i = μ i) (v : List Nat → List ℝ) :
    cellNormalAt ν dim n v = cellNormalAt μ dim n v := by
  unfold cellNormalAt
  rcases hd with rfl | rfl
  · simp only [if_true, cellDeriv_congr h v 0 _ (show 0 < 1 by omega)]
  · simp only [if_neg (show ¬ (2 = 1) by omega), cellDeriv_congr h v 0 _ (show 0 < 2 by omega), cellDeriv_congr h v 1 _ (show 1 < 2 by omega)]

theorem centrePoint_nodes (dim : Nat) {ν μ : Nat → ℝ} {n : Nat} (range : Nat) (h : ∀ i < n, ν i = μ i) (v : List Nat → List ℝ) :
    centrePoint ν dim range n v = centrePoint μ dim range n v := by
  unfold centrePoint
  apply List.map_congr_left
  intro c _
  rw [cellMap_centre, cellMap_centre]
  exact vsum_congr (fun _ _ => rfl) fun t ht => wV_congr h ht

theorem spec_dot_map_neg (u v : List ℝ) : Spec.dot (u.map fun x => -x) v = - Spec.dot u v := by
  unfold Spec.dot
  induction u generalizing v with
  | nil => simp
  | cons a u ih =>
    match v with
    | [] => simp
    | b :: v =>
      simp only [List.map_cons, List.zipWith_cons_cons, List.sum_cons, ih]
      ring

theorem dot_eq_spec (n : Nat) (u v : List ℝ) (hu : u.length = n) (hv : v.length = n) : Mesh.dot n u v = Spec.dot u v := by
  unfold Mesh.dot Spec.dot
  rw [sumTo_eq]
  congr 1
  apply List.ext_getElem
  · simp [hu, hv]
  intro k h1 h2
  have hk : k < n := by simpa using h1
  simp [vat, List.getElem?_eq_getElem (show k < u.length by omega), List.getElem?_eq_getElem (show k < v.length by omega)]

theorem spec_dot_self_zero (u : List ℝ) (h : Spec.dot u u = 0) : ∀ x ∈ u, x = 0 := by
  unfold Spec.dot at h
  induction u with
  | nil => simp
  | cons a u ih =>
    simp only [List.zipWith_cons_cons, List.sum_cons] at h
    have h1 : 0 ≤ a * a := mul_self_nonneg a
    have h2 : ∀ u : List ℝ, 0 ≤ (List.zipWith (fun x y => x * y) u u).sum := by
      intro u
      induction u with
      | nil => simp
      | cons b u ih =>
        simp only [List.zipWith_cons_cons, List.sum_cons]
        have := mul_self_nonneg b
        linarith
    have h3 := h2 u
    intro x hx
    rcases List.mem_cons.1 hx with rfl | hx
    · exact mul_self_eq_zero.1 (by linarith)
    · exact ih (by linarith) x hx

/-- Normalising a vector does not change the sign of its scalar products. -/
theorem normalise_sign (norm : List ℝ → ℝ) (hn : EuclideanNorm norm) (u v : List ℝ) :
    Spec.dot (u.map (· / norm u)) v < 0 ↔ Spec.dot u v < 0 := by
  have e : ∀ (c : ℝ) (u v : List ℝ), Spec.dot (u.map (· / c)) v = Spec.dot u v / c := by
    intro c u
    unfold Spec.dot
    induction u with
    | nil => simp
    | cons a u ih =>
      intro v
      match v with
      | [] => simp
      | b :: v =>
        simp only [List.map_cons, List.zipWith_cons_cons, List.sum_cons, ih]
        ring
  rw [e]
  obtain ⟨h1, h2⟩ := hn u
  rcases h1.lt_or_eq with hpos | hz
  · rw [div_lt_iff₀ hpos, zero_mul]
  · rw [← hz] at h2 ⊢
    have hu := spec_dot_self_zero u (by rw [← h2]; ring)
    have : Spec.dot u v = 0 := by
      unfold Spec.dot
      clear e h1 h2 hz
      induction u generalizing v with
      | nil => simp
      | cons a u ih =>
        match v with
        | [] => simp
        | b :: v =>
          simp only [List.zipWith_cons_cons, List.sum_cons]
          rw [hu a (List.mem_cons_self ..), ih v fun x hx => hu x (List.mem_cons_of_mem _ hx)]
          ring
    rw [this]; simp

/-- **C41** (level sets): orienting the listed cells of a curve in the plane or a surface in space along a vector field
flips exactly the listed cells whose normal at the centre has a negative scalar product with the field there, changes no
point and no other cell, and afterwards no listed cell has a negative product. -/
theorem C41_orient_levelset_partial (cheb : Nat → Nat → ℝ) (norm : List ℝ → ℝ) (hnorm : EuclideanNorm norm) (m : Mesh ℝ) (h : WellShaped m)
    (hd : m.dim = 1 ∨ m.dim = 2) (hr : m.range = m.dim + 1) (hn : ∀ i < m.order, pointIn01 cheb m.order i = cheb i m.order)
    (hs : m.dim = 1 → ∀ i < m.order, cheb (m.order - 1 - i) m.order = 1 - cheb i m.order)
    (outer : List ℝ → List ℝ) (hout : ∀ p, (outer p).length = m.range) (cells : List Nat) (hc : ∀ c ∈ cells, c < cellCount m)
    (side : (List Nat → List ℝ) → ℝ) (hside : side = fun v => Spec.dot (cellNormalAt (pointIn01 cheb m.order) m.dim m.order v)
      (outer (centrePoint (pointIn01 cheb m.order) m.dim m.range m.order v))) :
    ∃ m', orientLevelset cheb norm m cells outer = some m' ∧ m'.dim = m.dim ∧ m'.range = m.range ∧ m'.order = m.order ∧
      m'.points = m.points ∧ m'.wires = m.wires ∧ m'.conn.Perm m.conn ∧
      (∀ c, ∀ t ∈ indices (List.replicate m.dim m.order), vertex m.dim m.order m.points m'.conn c t =
        if c ∈ cells ∧ side (vertex m.dim m.order m.points m.conn c) < 0 then
          flipped m.dim m.order (vertex m.dim m.order m.points m.conn c) t
        else vertex m.dim m.order m.points m.conn c t) ∧
      ∀ c ∈ cells, side (vertex m.dim m.order m.points m'.conn c) = |side (vertex m.dim m.order m.points m.conn c)| := by
  classical
  obtain ⟨D, h1, h2, h3⟩ := vat_cellSum_der cheb m h.dim h.order
  obtain ⟨b, g1, g2⟩ := basis_weights cheb m.dim m.order (1 / 2 : ℝ) h.dim h.order
  have hs' : m.dim = 1 → Symmetric (fun i => cheb i m.order) m.order := hs
  have hside' : side = fun v => Spec.dot (cellNormalAt (fun i => cheb i m.order) m.dim m.order v)
      (outer (centrePoint (fun i => cheb i m.order) m.dim m.range m.order v)) := by
    rw [hside]; funext v
    rw [normal_nodes hd hn, centrePoint_nodes m.dim m.range hn]
  have hflip : ∀ v, side (fun t => v (mirror m.order t)) = - side v := by
    intro v
    rw [hside']
    dsimp only
    rw [normal_flip hd _ _ hs', centrePoint_flip hd _ _ _ hs', spec_dot_map_neg]
  have hcongr : ∀ v v', (∀ t ∈ indices (List.replicate m.dim m.order), v t = v' t) → side v = side v' := by
    intro v v' hv
    rw [hside']
    dsimp only
    rw [normal_congr hd _ _ hv, centrePoint_congr _ _ _ _ hv]
  have hcentre : ∀ m1, SameShape m m1 → ∀ c, cellSum m1 c b = centrePoint (fun i => cheb i m.order) m.dim m.range m.order (vert m1 c) := by
    intro m1 hm1 c
    unfold centrePoint
    apply List.ext_getElem
    · simp [cellSum, hm1.range]
    intro k hk1 hk2
    have hk : k < m.range := by simpa using hk2
    have := cellSum_getD m1 c b k (by rw [hm1.range]; exact hk)
    unfold vat at this
    rw [List.getD_eq_getElem?_getD, List.getElem?_eq_getElem hk1, Option.getD_some] at this
    rw [this, List.getElem_map, List.getElem_range, cellMap_centre, hm1.dim, hm1.order]
    exact vsum_congr (fun _ _ => rfl) fun t ht => g2 t ht
  have hnormal : ∀ m1, SameShape m m1 → ∀ c, cellNormal m1.dim (D.map fun w => cellSum m1 c w) =
      cellNormalAt (fun i => cheb i m.order) m.dim m.order (vert m1 c) := by
    intro m1 hm1 c
    have h4 := h3 m1 hm1 c
    unfold cellNormal cellNormalAt crossProduct
    rw [hm1.dim]
    dsimp only
    rcases hd with hdd | hdd
    · rw [hdd] at h4 hr ⊢
      rw [if_neg (by omega), if_pos rfl, h4 0 (by omega) 1 (by omega), h4 0 (by omega) 0 (by omega)]
    · rw [hdd] at h4 hr ⊢
      rw [if_pos rfl, if_neg (by omega), h4 0 (by omega) 0 (by omega), h4 0 (by omega) 1 (by omega), h4 0 (by omega) 2 (by omega),
        h4 1 (by omega) 0 (by omega), h4 1 (by omega) 1 (by omega), h4 1 (by omega) 2 (by omega)]
  have hlenN : ∀ v, (cellNormalAt (fun i => cheb i m.order) m.dim m.order v).length = m.range := by
    intro v
    unfold cellNormalAt
    rcases hd with hdd | hdd
    · rw [hdd, if_pos rfl, hr, hdd]; rfl
    · rw [hdd, if_neg (by omega), hr, hdd]; rfl
  obtain ⟨m', e1, e2, e3⟩ := orient_fold m h.dim h.order h.whole (fun v => side v < 0)
    (fun v v' hv => by rw [hcongr v v' hv])
    (fun v hv => by rw [hflip]; linarith)
    (fun m cell => do
      let n ← numCells m
      if cell < n then
        let normal := cellNormal m.dim (D.map fun w => cellSum m cell w)
        let normal := normal.map (· / norm normal)
        if Mesh.dot m.range normal (outer (cellSum m cell b)) < 0 then permuteCell m cell else some m
      else none)
    (by
      intro m1 hm1 c hc1
      have : numCells m1 = some (m.conn.length / ppc m) := by
        unfold numCells
        rw [hm1.len, hm1.ppc, if_pos (show m.conn.length % ppc m = 0 from h.whole)]
      simp only [this, Option.bind_eq_bind, Option.bind_some]
      rw [if_pos hc1, hnormal m1 hm1, hcentre m1 hm1, hm1.range]
      rw [dot_eq_spec _ _ _ (by rw [List.length_map, hlenN]) (hout _)]
      simp only [normalise_sign norm hnorm]
      rw [hside'])
    cells m (SameShape.refl m) hc
  refine ⟨m', ?_, e2.dim, e2.range, e2.order, e2.points, e2.wires, e2.perm, fun c t ht => ?_, fun c hcc => ?_⟩
  · unfold orientLevelset
    rw [g1, h1]; exact e1
  · have := e3 c t ht
    unfold vert at this
    rw [e2.dim, e2.order, e2.points] at this
    split_ifs with hb
    · rw [this.1 hb, flipped_mirror _ ht h.dim]
    · exact this.2 hb
  · have := e3 c
    unfold vert at this
    rw [e2.dim, e2.order, e2.points] at this
    by_cases hb : side (vertex m.dim m.order m.points m.conn c) < 0
    · rw [hcongr _ _ fun t ht => (this t ht).1 ⟨hcc, hb⟩, hflip, abs_of_neg hb]
    · rw [hcongr _ _ fun t ht => (this t ht).2 fun x => hb x.2, abs_of_nonneg (not_lt.1 hb)]

/-- The outward unit normal of a facet of an axis-aligned box. -/
def outwardNormal (range facet : Nat) : List ℝ :=
  (List.range range).map fun k => if k = facet / 2 then (if facet % 2 = 0 then -1 else 1) else 0

/-- **C41** (facets): orienting the cells of a facet is orienting them along the outward normal of the facet. -/
theorem C41_orient_facet (cheb : Nat → Nat → ℝ) (norm : List ℝ → ℝ) (m : Mesh ℝ) (facet : Nat) (hf : facet < 2 * m.range) (cells : List Nat) :
    orientFacet cheb norm m facet cells = orientLevelset cheb norm m cells fun _ => outwardNormal m.range facet := by
  have e : facetNormal m.range facet = some (outwardNormal m.range facet) := by
    unfold facetNormal Ids.facetConstantDir Ids.facetSide
    rw [if_pos (by omega), if_pos (by omega)]
    simp only [Option.bind_eq_bind, Option.bind_some]
    congr 1
    apply List.ext_getElem
    · simp [outwardNormal]
    intro k h1 h2
    rw [List.getElem_set]
    simp only [outwardNormal, List.getElem_map, List.getElem_range, List.getElem_replicate]
    by_cases hk : facet / 2 = k
    · rw [if_pos hk, if_pos hk.symm]
    · rw [if_neg hk, if_neg (Ne.symm hk)]
  unfold orientFacet
  rw [e]; rfl

/-! ### Orders 4 to 6

The cells of a mesh with four to six points per direction have equidistant nodes, but the routine asks for the basis of
the Chebyshev nodes (`chebyshev == false` gives Chebyshev nodes, C35). -/

theorem lagD4 (ν : Nat → ℝ) (q : ℝ) (h0 : ν 0 = 0) (h1 : ν 1 = 1 / 2 - q) (h2 : ν 2 = 1 / 2 + q) (h3 : ν 3 = 1) (hq : 0 < q) (hq' : q < 1 / 2) :
    lagD ν 4 0 (1 / 2) = 4 * q ^ 2 / (1 - 4 * q ^ 2) ∧ lagD ν 4 1 (1 / 2) = -(1 / (2 * q * (1 - 4 * q ^ 2))) ∧
    lagD ν 4 2 (1 / 2) = 1 / (2 * q * (1 - 4 * q ^ 2)) ∧ lagD ν 4 3 (1 / 2) = -(4 * q ^ 2 / (1 - 4 * q ^ 2)) := by
  have e1 : 1 - 2 * q ≠ 0 := by linarith
  have e2 : 1 + 2 * q ≠ 0 := by linarith
  have e3 : q ≠ 0 := hq.ne'
  have e4 : 1 - 4 * q ^ 2 ≠ 0 := by
    have : 1 - 4 * q ^ 2 = (1 - 2 * q) * (1 + 2 * q) := by ring
    rw [this]; exact mul_ne_zero e1 e2
  have hsym : Symmetric ν 4 := by
    intro i hi
    interval_cases i <;> simp only [show 4 - 1 - 0 = 3 by rfl, show 4 - 1 - 1 = 2 by rfl, show 4 - 1 - 2 = 1 by rfl, show 4 - 1 - 3 = 0 by rfl, h0, h1, h2, h3] <;> ring
  have d2 : lagD ν 4 2 (1 / 2) = 1 / (2 * q * (1 - 4 * q ^ 2)) := by
    unfold lagD
    rw [show (Finset.range 4).erase 2 = {0, 1, 3} by decide, Finset.sum_insert (by decide), Finset.sum_insert (by decide),
      Finset.sum_singleton, show ({0, 1, 3} : Finset Nat).erase 0 = {1, 3} by decide,
      show ({0, 1, 3} : Finset Nat).erase 1 = {0, 3} by decide, show ({0, 1, 3} : Finset Nat).erase 3 = {0, 1} by decide,
      Finset.prod_insert (by decide), Finset.prod_insert (by decide), Finset.prod_insert (by decide), Finset.prod_singleton,
      Finset.prod_singleton, h0, h1, h2, h3]
    rw [show 1 / 2 + q - 0 = (1 + 2 * q) / 2 by ring, show 1 / 2 + q - (1 / 2 - q) = 2 * q by ring,
      show 1 / 2 + q - 1 = -(1 - 2 * q) / 2 by ring, show 1 - 4 * q ^ 2 = (1 - 2 * q) * (1 + 2 * q) by ring]
    field_simp
    ring
  have d3 : lagD ν 4 3 (1 / 2) = -(4 * q ^ 2 / (1 - 4 * q ^ 2)) := by
    unfold lagD
    rw [show (Finset.range 4).erase 3 = {0, 1, 2} by decide, Finset.sum_insert (by decide), Finset.sum_insert (by decide),
      Finset.sum_singleton, show ({0, 1, 2} : Finset Nat).erase 0 = {1, 2} by decide,
      show ({0, 1, 2} : Finset Nat).erase 1 = {0, 2} by decide, show ({0, 1, 2} : Finset Nat).erase 2 = {0, 1} by decide,
      Finset.prod_insert (by decide), Finset.prod_insert (by decide), Finset.prod_insert (by decide), Finset.prod_singleton,
      Finset.prod_singleton, h0, h1, h2, h3]
    have f1 : 1 - (1 / 2 - q) ≠ 0 := by linarith
    have f2 : 1 - (1 / 2 + q) ≠ 0 := by linarith
    field_simp
    ring
  refine ⟨?_, ?_, d2, d3⟩
  · have := lagD_symm ν two_ne_zero 4 hsym 3 (by omega)
    rw [show 4 - 1 - 3 = 0 by rfl, d3] at this
    rw [this, neg_neg]
  · have := lagD_symm ν two_ne_zero 4 hsym 2 (by omega)
    rw [show 4 - 1 - 2 = 1 by rfl, d2] at this
    exact this

/-- A cell with four points per direction: the abscissae 0, 12/25, 13/25, 1, the ordinates 0, 1/3, 2/3, 1. -/
noncomputable def stretchedCell : Mesh ℝ where
  dim := 2
  range := 2
  order := 4
  points := [[0, 0], [12 / 25, 0], [13 / 25, 0], [1, 0], [0, 1 / 3], [12 / 25, 1 / 3], [13 / 25, 1 / 3], [1, 1 / 3],
    [0, 2 / 3], [12 / 25, 2 / 3], [13 / 25, 2 / 3], [1, 2 / 3], [0, 1], [12 / 25, 1], [13 / 25, 1], [1, 1]]
  conn := List.range 16
  wires := []

theorem stretched_jacobian (ν : Nat → ℝ) (q : ℝ) (h0 : ν 0 = 0) (h1 : ν 1 = 1 / 2 - q) (h2 : ν 2 = 1 / 2 + q) (h3 : ν 3 = 1) (hq : 0 < q)
    (hq' : q < 1 / 2) :
    jacobian ν 2 4 (vertex 2 4 stretchedCell.points stretchedCell.conn 0) =
      (1 / 50 - 4 * q ^ 3) * (1 / 6 - 4 * q ^ 3) / (q * (1 - 4 * q ^ 2)) ^ 2 := by
  obtain ⟨D0, D1, D2, D3⟩ := lagD4 ν q h0 h1 h2 h3 hq hq'
  have hdist : Lagrange.Distinct ν 4 := by
    intro i hi j hj e
    interval_cases i <;> interval_cases j <;> simp only [h0, h1, h2, h3] at e ⊢ <;> exfalso <;> linarith
  have hV : lag ν 4 0 (1 / 2) + lag ν 4 1 (1 / 2) + lag ν 4 2 (1 / 2) + lag ν 4 3 (1 / 2) = 1 := by
    have := Lagrange.lag_reproduce ν 4 hdist 1 (by rw [Polynomial.degree_one]; norm_num) (1 / 2)
    simpa [Finset.sum_range_succ] using this
  have hi : indices (List.replicate 2 4) = [[0, 0], [1, 0], [2, 0], [3, 0], [0, 1], [1, 1], [2, 1], [3, 1],
    [0, 2], [1, 2], [2, 2], [3, 2], [0, 3], [1, 3], [2, 3], [3, 3]] := by decide
  have e1 : 1 - 4 * q ^ 2 ≠ 0 := by nlinarith
  have e2 : q ≠ 0 := hq.ne'
  obtain ⟨V, hVe⟩ : ∃ V : Nat → ℝ, V = fun i => lag ν 4 i (1 / 2) := ⟨_, rfl⟩
  obtain ⟨D, hDe⟩ : ∃ D : Nat → ℝ, D = fun i => lagD ν 4 i (1 / 2) := ⟨_, rfl⟩
  have w0 : ∀ i j, wD ν 2 4 0 [i, j] = D i * V j := by intro i j; rw [hVe, hDe]; simp [wD, basisProd, List.replicate]
  have w1 : ∀ i j, wD ν 2 4 1 [i, j] = V i * D j := by intro i j; rw [hVe, hDe]; simp [wD, basisProd, List.replicate]
  have hV' : V 0 + V 1 + V 2 + V 3 = 1 := by rw [hVe]; exact hV
  have hD0 : D 0 = 4 * q ^ 2 / (1 - 4 * q ^ 2) := by rw [hDe]; exact D0
  have hD1 : D 1 = -(1 / (2 * q * (1 - 4 * q ^ 2))) := by rw [hDe]; exact D1
  have hD2 : D 2 = 1 / (2 * q * (1 - 4 * q ^ 2)) := by rw [hDe]; exact D2
  have hD3 : D 3 = -(4 * q ^ 2 / (1 - 4 * q ^ 2)) := by rw [hDe]; exact D3
  have hD : D 0 + D 1 + D 2 + D 3 = 0 := by rw [hD0, hD1, hD2, hD3]; ring
  rw [jacobian2, cellDeriv_eq _ _ _ _ _ _ (by omega), cellDeriv_eq _ _ _ _ _ _ (by omega), cellDeriv_eq _ _ _ _ _ _ (by omega),
    cellDeriv_eq _ _ _ _ _ _ (by omega)]
  have J00 : vsum 2 4 (vertex 2 4 stretchedCell.points stretchedCell.conn 0) 0 (wD ν 2 4 0) =
      (12 / 25 * D 1 + 13 / 25 * D 2 + D 3) * (V 0 + V 1 + V 2 + V 3) := by
    unfold vsum
    rw [hi]
    simp only [List.map_cons, List.map_nil, List.sum_cons, List.sum_nil, w0]
    simp [vertex, flatIndex, stretchedCell, vat, List.range, List.range.loop, List.replicate]
    ring
  have J11 : vsum 2 4 (vertex 2 4 stretchedCell.points stretchedCell.conn 0) 1 (wD ν 2 4 1) =
      (1 / 3 * D 1 + 2 / 3 * D 2 + D 3) * (V 0 + V 1 + V 2 + V 3) := by
    unfold vsum
    rw [hi]
    simp only [List.map_cons, List.map_nil, List.sum_cons, List.sum_nil, w1]
    simp [vertex, flatIndex, stretchedCell, vat, List.range, List.range.loop, List.replicate]
    ring
  have J10 : vsum 2 4 (vertex 2 4 stretchedCell.points stretchedCell.conn 0) 0 (wD ν 2 4 1) =
      (12 / 25 * V 1 + 13 / 25 * V 2 + V 3) * (D 0 + D 1 + D 2 + D 3) := by
    unfold vsum
    rw [hi]
    simp only [List.map_cons, List.map_nil, List.sum_cons, List.sum_nil, w1]
    simp [vertex, flatIndex, stretchedCell, vat, List.range, List.range.loop, List.replicate]
    ring
  rw [J00, J11, J10, hV', hD, hD1, hD2, hD3]
  field_simp
  ring

/-- **C41** fails for orders 4 to 6: a cell with positive determinant (for the equidistant nodes of its order) is flipped and
has a negative determinant afterwards. (The Chebyshev nodes of order 4 are 0, 1/2 - q, 1/2 + q, 1 with q about 0.207.) -/
theorem C41_wrong_nodes_fail (cheb : Nat → Nat → ℝ) (q : ℝ) (hq : 9 / 50 < q) (hq' : q < 1 / 3) (h0 : cheb 0 4 = 0)
    (h1 : cheb 1 4 = 1 / 2 - q) (h2 : cheb 2 4 = 1 / 2 + q) (h3 : cheb 3 4 = 1) :
    0 < jacobian (pointIn01 cheb 4) 2 4 (vertex 2 4 stretchedCell.points stretchedCell.conn 0) ∧
    ∃ m', orientAllCells cheb stretchedCell = some m' ∧
      jacobian (pointIn01 cheb 4) 2 4 (vertex 2 4 m'.points m'.conn 0) < 0 := by
  have hp : ∀ i, pointIn01 cheb 4 i = (i : ℝ) / 3 := by
    intro i
    unfold pointIn01 useChebyshev
    norm_num
  have htrue := stretched_jacobian (pointIn01 cheb 4) (1 / 6) (by rw [hp]; norm_num) (by rw [hp]; norm_num) (by rw [hp]; norm_num)
    (by rw [hp]; norm_num) (by norm_num) (by norm_num)
  have hpos : 0 < jacobian (pointIn01 cheb 4) 2 4 (vertex 2 4 stretchedCell.points stretchedCell.conn 0) := by
    rw [htrue]; norm_num
  have hneg : jacobian (fun i => cheb i 4) 2 4 (vertex 2 4 stretchedCell.points stretchedCell.conn 0) < 0 := by
    rw [stretched_jacobian (fun i => cheb i 4) q h0 h1 h2 h3 (by linarith) (by linarith)]
    have a1 : q ^ 3 < 1 / 27 := by
      have : q ^ 3 < (1 / 3) ^ 3 := pow_lt_pow_left₀ hq' (by linarith) (by norm_num)
      linarith [show ((1 : ℝ) / 3) ^ 3 = 1 / 27 by norm_num]
    have a2 : 1 / 200 < q ^ 3 := by
      have : (9 / 50) ^ 3 < q ^ 3 := pow_lt_pow_left₀ hq (by norm_num) (by norm_num)
      linarith [show (1 : ℝ) / 200 < (9 / 50) ^ 3 by norm_num]
    have a3 : q * (1 - 4 * q ^ 2) ≠ 0 := mul_ne_zero (by linarith) (by nlinarith)
    apply div_neg_of_neg_of_pos
    · exact mul_neg_of_neg_of_pos (by linarith) (by linarith)
    · positivity
  refine ⟨hpos, ?_⟩
  obtain ⟨m', e1, e2, e3, _⟩ := orient_cells_cheb cheb stretchedCell ⟨by decide, by decide, by decide⟩ (Or.inl rfl) rfl [0]
    (by decide) _ rfl
  refine ⟨m', e1, ?_⟩
  have hpt := e2.points
  rw [hpt]
  have hf : ∀ t ∈ indices (List.replicate 2 4), vertex 2 4 stretchedCell.points m'.conn 0 t =
      vertex 2 4 stretchedCell.points stretchedCell.conn 0 (mirror 4 t) := by
    intro t ht
    have := e3 0 t ht
    rw [if_pos ⟨List.mem_singleton_self 0, hneg⟩] at this
    exact this.trans (flipped_mirror _ ht (by decide))
  rw [jacobian_congr (Or.inl rfl) _ _ hf, jacobian_flip (Or.inl rfl)]
  linarith

/-- Nodes that meet the hypotheses: q = 1/5. -/
example : ∃ cheb : Nat → Nat → ℝ, cheb 0 4 = 0 ∧ cheb 1 4 = 1 / 2 - 1 / 5 ∧ cheb 2 4 = 1 / 2 + 1 / 5 ∧ cheb 3 4 = 1 :=
  ⟨fun i _ => if i = 0 then 0 else if i = 1 then 1 / 2 - 1 / 5 else if i = 2 then 1 / 2 + 1 / 5 else 1, by simp⟩

/-- A mesh of one cell of order 2 whose determinant is negative meets the hypotheses of the orientation theorems, and is flipped. -/
example : orientAllCells (fun i n => if i + 1 = n then (1 : ℚ) else 0) ⟨2, 2, 2, [[0, 0], [0, 1], [1, 0], [1, 1]], [0, 1, 2, 3], []⟩ =
    some ⟨2, 2, 2, [[0, 0], [0, 1], [1, 0], [1, 1]], [0, 2, 1, 3], []⟩ := by decide +kernel

example : WellShaped (⟨2, 2, 2, [[0, 0], [0, 1], [1, 0], [1, 1]], [0, 1, 2, 3], []⟩ : Mesh ℝ) := ⟨by decide, by decide, by decide⟩

end Qugar.Mesh
