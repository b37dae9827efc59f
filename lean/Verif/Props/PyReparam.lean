import Verif.Model.PyReparam
import Verif.Props.PyNumbering
import Verif.Props.MeshHistory
import Verif.Props.CreateReparam
import Verif.Props.Lagrange
import Verif.Lemmas.PolyCalculus
import Mathlib.RingTheory.Polynomial.ShiftedLegendre
import Mathlib.Topology.Instances.Real.Lemmas
/-
Property theorems C77 (meshes of DOLFINx for reparameterizations).
-/
namespace Qugar.Py.Reparam
open Spec Spec.Cell TS Mesh Tree

variable {K : Type} [Field K] [LinearOrder K] [IsStrictOrderedRing K]

/-! ### Connectivity -/

theorem createRows (w : List Nat) (dim order : Nat) (h1 : 1 ≤ dim) (h3 : dim ≤ 3) (ho : 1 < order) (hw : w.length % order ^ dim = 0) :
    ((connArray w (order ^ dim)).bind fun conn => (dlfToLexicg dim (order - 1)).bind fun mask => conn.mapM fun row => take row mask) =
      some ((List.range (w.length / order ^ dim)).map fun k =>
        ((basix dim).nodes dim order).map fun t => w.getD (k * order ^ dim + flatIndex t (List.replicate dim order)) 0) := by
  have hpos : 0 < order ^ dim := Nat.pow_pos (by omega)
  have hd : order - 1 + 1 = order := by omega
  obtain ⟨D, eD, pD⟩ := dlfTids_perm h1 h3 (d := order - 1) (by omega)
  have hD : D = (basix dim).nodes dim order := by
    have := dlfTids_order h1 h3 (d := order - 1) (by omega)
    rw [eD, hd] at this; exact Option.some.inj this
  have e2 : dlfToLexicg dim (order - 1) = some (D.map fun t => flatIndex t (List.replicate dim order)) := by
    unfold dlfToLexicg; rw [eD, Option.map_some, toLexicg_spec h1 h3 pD, hd]
  rw [hd] at pD
  have hc : connArray w (order ^ dim) = some (chunks (order ^ dim) w) := by
    unfold connArray
    split
    · rename_i h
      rw [List.isEmpty_iff] at h
      rw [h]; simp [chunks]
    · first | rfl | rw [if_pos hw]
  rw [hc, e2, Option.bind_some, Option.bind_some]
  unfold chunks
  rw [List.mapM_map]
  refine mapM_some _ _ _ fun k hk => ?_
  rw [List.mem_range] at hk
  have hkw : (k + 1) * order ^ dim ≤ w.length := by
    calc (k + 1) * order ^ dim ≤ w.length / order ^ dim * order ^ dim := Nat.mul_le_mul_right _ hk
      _ ≤ w.length := Nat.div_mul_le_self _ _
  rw [Nat.succ_mul] at hkw
  unfold take
  show List.mapM _ _ = _
  rw [List.mapM_map, ← hD]
  refine mapM_some _ _ _ fun t ht => ?_
  have hl : flatIndex t (List.replicate dim order) < order ^ dim := by
    rw [← listProd_replicate]; exact flatIndex_lt' (pD.mem_iff.1 ht)
  show ((w.drop (k * order ^ dim)).take (order ^ dim))[flatIndex t (List.replicate dim order)]? = _
  rw [List.getElem?_take_of_lt hl, List.getElem?_drop, List.getElem?_eq_getElem (by omega), List.getD_eq_getElem?_getD,
    List.getElem?_eq_getElem (by omega)]
  rfl

theorem createMesh_cells (m : Mesh K) (hi1 : 0 < m.dim) (hi3 : m.dim ≤ 3) (hio : 1 < m.order) (hiw : m.conn.length % m.order ^ m.dim = 0) :
    ∃ rows, createMesh m false = some rows ∧ numCells m = some rows.length ∧
      ∀ k, k < rows.length → (rows.getD k []).length = m.order ^ m.dim ∧
        ∀ j t, ((basix m.dim).nodes m.dim m.order)[j]? = some t →
          m.points.getD ((rows.getD k []).getD j 0) [] = vertex m.dim m.order m.points m.conn k t := by
  have hd : m.order - 1 + 1 = m.order := by omega
  have hr := createRows m.conn m.dim m.order hi1 hi3 hio hiw
  obtain ⟨rows, hrows⟩ : ∃ rows, rows = (List.range (m.conn.length / m.order ^ m.dim)).map fun k =>
        ((basix m.dim).nodes m.dim m.order).map fun t => m.conn.getD (k * m.order ^ m.dim + flatIndex t (List.replicate m.dim m.order)) 0 := ⟨_, rfl⟩
  rw [← hrows] at hr
  refine ⟨rows, hr, ?_, fun k hk => ?_⟩
  · unfold numCells ppc
    rw [if_pos hiw, hrows, List.length_map, List.length_range]
  · have hk' : k < m.conn.length / m.order ^ m.dim := by rw [hrows] at hk; simpa using hk
    have hrow : rows.getD k [] = ((basix m.dim).nodes m.dim m.order).map fun t =>
        m.conn.getD (k * m.order ^ m.dim + flatIndex t (List.replicate m.dim m.order)) 0 := by
      rw [hrows, Poly.getD_map_range _ _ _ _ hk']
    obtain ⟨-, pD, -⟩ := C61_node_numberings m.dim (m.order - 1) hi1 hi3 (by omega)
    rw [hd] at pD
    refine ⟨by rw [hrow, List.length_map, pD.length_eq, length_indices, listProd_replicate], fun j t hj => ?_⟩
    rw [hrow, List.getD_eq_getElem?_getD (i := j), List.getElem?_map, hj]
    rfl

/-- **C77** (cells): whatever the history of the reparameterization, the mesh of its cells is created; cell `k` of DOLFINx is cell `k` of
the reparameterization, and the node of DOLFINx with tensor index `t` (in the numbering of basix) is its vertex with tensor index `t`. -/
theorem C77_cells (E : Env K) (hsrt : IsSort E.srt) (hE : IsEdgeSort E.srtE) (m : Mesh K) (h : Built E m) :
    ∃ rows, createMesh m false = some rows ∧ numCells m = some rows.length ∧
      ∀ k, k < rows.length → (rows.getD k []).length = m.order ^ m.dim ∧
        ∀ j t, ((basix m.dim).nodes m.dim m.order)[j]? = some t →
          m.points.getD ((rows.getD k []).getD j 0) [] = vertex m.dim m.order m.points m.conn k t := by
  have hi := (built_inv E hsrt hE m h).1
  exact createMesh_cells m hi.dim hi.dim3 hi.order hi.whole

/-- **C77** (domains): the reparameterization of a domain (volume or level set, of any positive degree) gives a mesh of DOLFINx: every
cell of the mesh comes from a cut or full cell of the grid, all its nodes are in the closed box of that cell, and every full cell gives
exactly one cell (for volumes). The degree 0 is refused. -/
theorem C77_domain (cheb : Nat → Nat → K) (srt : (Nat → K) → List Nat → List Nat) (srtE : List (List Nat) → List (List Nat)) (tol : K)
    (g : Grid K) (hv : g.Valid) (hg : g.length = 2 ∨ g.length = 3) (t : Tree) (ht : Reachable g.numCellsDir t) (levelset : Bool)
    (cutCell : Mesh K → Box K → Option (Mesh K)) (degree : Nat)
    (hn : ∀ i, i < degree + 1 → 0 ≤ pointIn01 cheb (degree + 1) i ∧ pointIn01 cheb (degree + 1) i ≤ 1)
    (hcut : CutCellOk g (paramDim g levelset) g.length (degree + 1) cutCell) :
    createReparamMesh cheb srt srtE tol g t levelset cutCell 0 = none ∧
    ∀ m, createReparamMesh cheb srt srtE tol g t levelset cutCell degree = some m → m.order = degree + 1 ∧
      ∃ rows, createMesh m false = some rows ∧ ∃ origins : List Nat, origins.length = rows.length ∧
        (∀ k (hk : k < origins.length),
          (HasStatus g.numCellsDir t origins[k] .cut ∨ (levelset = false ∧ HasStatus g.numCellsDir t origins[k] .full)) ∧
          ∃ box, g.cellDomain origins[k] = some box ∧ ∀ n ∈ rows.getD k [], InClosedBox 0 box (m.points.getD n [])) ∧
        (levelset = false → ∀ c, HasStatus g.numCellsDir t c .full → origins.count c = 1) := by
  refine ⟨rfl, fun m hm => ?_⟩
  unfold createReparamMesh at hm
  have hd : 0 < degree := by
    by_contra h
    rw [if_neg h] at hm; simp at hm
  rw [if_pos hd] at hm
  obtain ⟨a1, -, a3, -, -, origins, o1, o2, o3⟩ := C58_cells cheb srt srtE tol g hv hg t ht levelset cutCell (List.range g.numCells)
    (fun c hc => List.mem_range.1 hc) (degree + 1) (by omega) hn hcut m hm
  have hdim : 0 < m.dim ∧ m.dim ≤ 3 := by
    rw [a1]; unfold paramDim
    split <;> omega
  have hwhole : m.conn.length % m.order ^ m.dim = 0 := by
    by_contra hne
    unfold numCells ppc at o1
    rw [if_neg hne] at o1; simp at o1
  have hor : 1 < m.order := by omega
  obtain ⟨rows, r1, r2, r3⟩ := createMesh_cells m hdim.1 hdim.2 hor hwhole
  rw [o1] at r2
  have hlen : origins.length = rows.length := Option.some.inj r2
  obtain ⟨-, pD, -⟩ := C61_node_numberings m.dim (m.order - 1) hdim.1 hdim.2 (by omega)
  rw [show m.order - 1 + 1 = m.order by omega] at pD
  refine ⟨a3, rows, r1, origins, hlen, fun k hk => ?_, fun hl c hc => ?_⟩
  · obtain ⟨-, s1, box, b1, b2, -⟩ := o2 k hk
    refine ⟨s1, box, b1, fun n hnr => ?_⟩
    obtain ⟨l1, l2⟩ := r3 k (by omega)
    obtain ⟨j, hj, rfl⟩ := List.mem_iff_getElem.1 hnr
    have hjn : j < ((basix m.dim).nodes m.dim m.order).length := by
      rw [pD.length_eq, length_indices, listProd_replicate, ← l1]; exact hj
    obtain ⟨τ, hτ⟩ : ∃ τ, ((basix m.dim).nodes m.dim m.order)[j]? = some τ := ⟨_, List.getElem?_eq_getElem hjn⟩
    have hmem : τ ∈ indices (List.replicate m.dim m.order) := pD.mem_iff.1 (List.mem_of_getElem? hτ)
    have := l2 j τ hτ
    rw [List.getD_eq_getElem?_getD (i := j), List.getElem?_eq_getElem hj, Option.getD_some] at this
    rw [this, a3]
    exact b2 τ (by rw [← a3]; exact hmem)
  · rw [o3 hl c hc]
    have hne : g ≠ [] := by intro h; rw [h] at hg; simp at hg
    have hlt : c < g.numCells := by
      obtain ⟨q1, -, q3, -⟩ := C09_cells_by_status g.numCellsDir (gridShape_of_valid hv hne) t ht
      obtain ⟨ids, i1, -, i3, -⟩ := q1 .full
      have hsz : g.numCells = listProd g.numCellsDir := tsize_eq _
      rw [hsz]
      exact q3 .full ids c i1 ((i3 c).2 hc)
    rw [List.count_eq_one_of_mem List.nodup_range (List.mem_range.2 hlt)]

/-- **C77** (wirebasket): the mesh of the wirebasket is created; segment `k` of DOLFINx is edge `k`, its first two nodes are the ends of
the edge, followed by the interior points of the edge in their order. -/
theorem C77_wirebasket (E : Env K) (hsrt : IsSort E.srt) (hE : IsEdgeSort E.srtE) (m : Mesh K) (h : Built E m) :
    ∃ rows, createMesh m true = some rows ∧ rows.length = m.wires.length / m.order ∧
      ∀ k, k < rows.length → (∀ i ∈ rows.getD k [], i < m.points.length) ∧
        rows.getD k [] = m.wires.getD (k * m.order) 0 :: m.wires.getD (k * m.order + (m.order - 1)) 0 ::
          (List.range (m.order - 2)).map fun i => m.wires.getD (k * m.order + (i + 1)) 0 := by
  have hi := (built_inv E hsrt hE m h).1
  have ho := hi.order
  have hr := createRows m.wires 1 m.order (by omega) (by omega) ho (by rw [Nat.pow_one]; exact hi.wholeWires)
  rw [Nat.pow_one] at hr
  refine ⟨_, hr, by rw [List.length_map, List.length_range], fun k hk => ?_⟩
  have hk' : k < m.wires.length / m.order := by simpa using hk
  rw [Poly.getD_map_range _ _ _ _ hk']
  have hn : (basix 1).nodes 1 m.order = [0] :: [m.order - 1] :: (List.range (m.order - 2)).map fun i => [i + 1] := by
    simp [Numbering.nodes, basix, Numbering.corner, Vtk.inside, List.range_succ, List.range'_eq_map_range, Nat.add_comm]
  have hkw : k * m.order + m.order ≤ m.wires.length := by
    rw [← Nat.succ_mul]
    calc (k + 1) * m.order ≤ m.wires.length / m.order * m.order := Nat.mul_le_mul_right _ hk'
      _ ≤ m.wires.length := Nat.div_mul_le_self _ _
  have hw : ∀ i, i < m.order → m.wires.getD (k * m.order + i) 0 < m.points.length := by
    intro i hi'
    rw [List.getD_eq_getElem?_getD, List.getElem?_eq_getElem (by omega)]
    exact hi.wires _ (List.getElem_mem _)
  have hrow : (((basix 1).nodes 1 m.order).map fun t => m.wires.getD (k * m.order + flatIndex t (List.replicate 1 m.order)) 0) =
      m.wires.getD (k * m.order) 0 :: m.wires.getD (k * m.order + (m.order - 1)) 0 ::
          (List.range (m.order - 2)).map fun i => m.wires.getD (k * m.order + (i + 1)) 0 := by
    rw [hn]
    simp [flatIndex]
  refine ⟨fun i hi' => ?_, hrow⟩
  rw [hrow] at hi'
  rcases List.mem_cons.1 hi' with rfl | hi'
  · exact hw 0 (by omega)
  · rcases List.mem_cons.1 hi' with rfl | hi'
    · exact hw _ (by omega)
    · obtain ⟨j, hj, rfl⟩ := List.mem_map.1 hi'
      exact hw _ (by have := List.mem_range.1 hj; omega)

/-! ### Geometry -/

/-- External, the map of a cell of DOLFINx with the given nodes (their coordinates): the sum over the nodes, in the numbering of basix, of
the coordinates times the tensor-product Lagrange basis of the element, whose nodes in every direction are `ν`. -/
noncomputable def dolfinxMap (ν : Nat → ℝ) (dim order : Nat) (nodes : List (List ℝ)) (u : List ℝ) (c : Nat) : ℝ :=
  (List.zipWith (fun t p => p.getD c 0 * basisProd (u.map fun x i => (_root_.Lagrange.basis (Finset.range order) ν i).eval x) t)
    ((basix dim).nodes dim order) nodes).sum

/-- **C77** (geometry): the map of cell `k` of DOLFINx is the one that interpolates the vertices of cell `k` of the reparameterization,
whatever the nodes of the element. -/
theorem C77_geometry (E : Env ℝ) (hsrt : IsSort E.srt) (hE : IsEdgeSort E.srtE) (m : Mesh ℝ) (h : Built E m) (ν : Nat → ℝ) :
    ∃ rows, createMesh m false = some rows ∧ numCells m = some rows.length ∧ ∀ k, k < rows.length → ∀ u c,
      dolfinxMap ν m.dim m.order ((rows.getD k []).map fun n => m.points.getD n []) u c =
        cellMap ν m.dim m.order (vertex m.dim m.order m.points m.conn k) u c := by
  have hi := (built_inv E hsrt hE m h).1
  have hd : m.order - 1 + 1 = m.order := by have := hi.order; omega
  obtain ⟨-, pD, -⟩ := C61_node_numberings m.dim (m.order - 1) hi.dim hi.dim3 (by have := hi.order; omega)
  rw [hd] at pD
  refine ⟨_, createRows m.conn m.dim m.order hi.dim hi.dim3 hi.order hi.whole, ?_, fun k hk u c => ?_⟩
  · unfold numCells ppc
    rw [if_pos hi.whole, List.length_map, List.length_range]
  · have hk' : k < m.conn.length / m.order ^ m.dim := by simpa using hk
    rw [Poly.getD_map_range _ _ _ _ hk']
    unfold dolfinxMap cellMap
    rw [List.map_map, List.zipWith_map_right, List.zipWith_self]
    exact List.Perm.sum_eq (pD.map _)

/-! ### Full cells and the nodes of the element -/

/-- The Gauss-Lobatto-Legendre nodes of [0, 1] (`n` of them, `n - 1` is the degree): both ends and the zeros of the derivative of the
Legendre polynomial. External: the nodes of the elements of basix for the variant `gll_warped`. -/
structure IsGll (ν : Nat → ℝ) (n : Nat) : Prop where
  first : ν 0 = 0
  last : ν (n - 1) = 1
  inner : ∀ i, 0 < i → i < n - 1 → Polynomial.aeval (ν i) (Polynomial.derivative (Polynomial.shiftedLegendre (n - 1))) = 0
  increasing : ∀ i j, i < j → j < n → ν i < ν j

/-- The interpolant of the values `s` at the nodes `ν`. -/
noncomputable def interp (ν s : Nat → ℝ) (n : Nat) (x : ℝ) : ℝ :=
  ∑ i ∈ Finset.range n, s i * (_root_.Lagrange.basis (Finset.range n) ν i).eval x

theorem basisProd_weight (F : List (Nat → ℝ)) (t : List Nat) (c : Nat) (g : Nat → ℝ) (hc : c < F.length) (hl : t.length = F.length) :
    g (t.getD c 0) * basisProd F t = basisProd (F.set c fun i => g i * F.getD c (fun _ => 0) i) t := by
  induction F generalizing t c with
  | nil => simp at hc
  | cons f F ih =>
    cases t with
    | nil => simp at hl
    | cons a t =>
      cases c with
      | zero => simp [basisProd]; ring
      | succ c =>
        have := ih t c (by simpa using hc) (by simpa using hl)
        simp only [List.getD_cons_succ, List.set_cons_succ, basisProd, ← this]
        ring

theorem prod_zipWith_set (n : Nat) (F : List (Nat → ℝ)) (c : Nat) (hc : c < F.length) (φ : Nat → ℝ)
    (h1 : ∀ f ∈ F, ∑ i ∈ Finset.range n, f i = 1) :
    (List.zipWith (fun n φ => ∑ i ∈ Finset.range n, φ i) (List.replicate F.length n) (F.set c φ)).prod = ∑ i ∈ Finset.range n, φ i := by
  induction F generalizing c with
  | nil => simp at hc
  | cons f F ih =>
    have h2 : ∀ f ∈ F, ∑ i ∈ Finset.range n, f i = 1 := fun f hf => h1 f (List.mem_cons_of_mem _ hf)
    cases c with
    | zero =>
      have : (List.zipWith (fun n φ => ∑ i ∈ Finset.range n, φ i) (List.replicate F.length n) F).prod = 1 := by
        clear ih h1 hc
        induction F with
        | nil => simp
        | cons f F ih =>
          rw [List.length_cons, List.replicate_succ, List.zipWith_cons_cons, List.prod_cons, ih fun f hf => h2 f (List.mem_cons_of_mem _ hf),
            h2 f (List.mem_cons_self ..), one_mul]
      rw [List.length_cons, List.replicate_succ, List.set_cons_zero, List.zipWith_cons_cons, List.prod_cons, this, mul_one]
    | succ c =>
      rw [List.length_cons, List.replicate_succ, List.set_cons_succ, List.zipWith_cons_cons, List.prod_cons, ih c (by simpa using hc) h2,
        h1 f (List.mem_cons_self ..), one_mul]

theorem sum_basis (ν : Nat → ℝ) (n : Nat) (hn : 0 < n) (hd : Qugar.Lagrange.Distinct ν n) (x : ℝ) :
    ∑ i ∈ Finset.range n, (_root_.Lagrange.basis (Finset.range n) ν i).eval x = 1 := by
  have := Qugar.Lagrange.lag_reproduce ν n hd 1 (by rw [Polynomial.degree_one]; exact_mod_cast hn) x
  simpa [Qugar.Lagrange.lag_eq_eval] using this

/-- **C77** (full cells): the map of the cell of a box is, in every direction, the interpolant at the nodes of the element of the
parameters of the points; it depends on the coordinate of its own direction only. -/
theorem C77_full_cell (ν s : Nat → ℝ) (dim order : Nat) (ho : 1 < order) (hν : Qugar.Lagrange.Distinct ν order) (box : Box ℝ) (hb : box.length = dim)
    (vert : List Nat → List ℝ) (hv : ∀ t ∈ indices (List.replicate dim order), vert t = List.zipWith (fun iv i => iv.1 + (iv.2 - iv.1) * s i) box t)
    (u : List ℝ) (hu : u.length = dim) (c : Nat) (hc : c < dim) :
    cellMap ν dim order vert u c = (box.getD c (0, 0)).1 + ((box.getD c (0, 0)).2 - (box.getD c (0, 0)).1) * interp ν s order (u.getD c 0) := by
  obtain ⟨F, hF⟩ : ∃ F : List (Nat → ℝ), F = u.map fun x i => (_root_.Lagrange.basis (Finset.range order) ν i).eval x := ⟨_, rfl⟩
  have hFl : F.length = dim := by rw [hF, List.length_map, hu]
  have hF1 : ∀ f ∈ F, ∑ i ∈ Finset.range order, f i = 1 := by
    intro f hf
    rw [hF] at hf
    obtain ⟨x, -, rfl⟩ := List.mem_map.1 hf
    exact sum_basis ν order (by omega) hν x
  have hFc : ∀ i, F.getD c (fun _ => 0) i = (_root_.Lagrange.basis (Finset.range order) ν i).eval (u.getD c 0) := by
    intro i
    rw [hF, List.getD_eq_getElem?_getD, List.getElem?_map, List.getD_eq_getElem?_getD, List.getElem?_eq_getElem (by omega)]
    rfl
  have hm : ∀ t ∈ indices (List.replicate dim order), (vert t).getD c 0 * basisProd F t =
      basisProd (F.set c fun i => ((box.getD c (0, 0)).1 + ((box.getD c (0, 0)).2 - (box.getD c (0, 0)).1) * s i) * F.getD c (fun _ => 0) i) t := by
    intro t ht
    have hl : t.length = dim := (mem_indices_replicate.1 ht).1
    rw [← basisProd_weight F t c (fun i => (box.getD c (0, 0)).1 + ((box.getD c (0, 0)).2 - (box.getD c (0, 0)).1) * s i) (by omega) (by omega), hv t ht]
    congr 1
    simp only [List.getD_eq_getElem?_getD, List.getElem?_zipWith, List.getElem?_eq_getElem (show c < box.length by omega),
      List.getElem?_eq_getElem (show c < t.length by omega)]
    rfl
  unfold cellMap
  rw [← hF, List.map_congr_left hm, sum_basisProd _ _ (by rw [List.length_set, List.length_replicate, hFl]), ← hFl,
    prod_zipWith_set order F c (by omega) _ hF1]
  simp only [hFc]
  unfold interp
  rw [Finset.mul_sum]
  rw [← mul_one (box.getD c (0, 0)).1, ← sum_basis ν order (by omega) hν (u.getD c 0), Finset.mul_sum, ← Finset.sum_add_distrib]
  refine Finset.sum_congr rfl fun i _ => ?_
  rw [← Finset.mul_sum, sum_basis ν order (by omega) hν (u.getD c 0)]
  ring

theorem interp_node (ν s : Nat → ℝ) (n : Nat) (hd : Qugar.Lagrange.Distinct ν n) (j : Nat) (hj : j < n) : interp ν s n (ν j) = s j := by
  unfold interp
  rw [Finset.sum_eq_single j]
  · rw [_root_.Lagrange.eval_basis_self (Qugar.Lagrange.distinct_injOn hd) (Finset.mem_range.2 hj), mul_one]
  · intro i _ hij
    rw [_root_.Lagrange.eval_basis_of_ne hij (Finset.mem_range.2 hj), mul_zero]
  · intro h; exact absurd (Finset.mem_range.2 hj) h

theorem interp_id (ν : Nat → ℝ) (n : Nat) (hn : 1 < n) (hd : Qugar.Lagrange.Distinct ν n) (x : ℝ) : interp ν ν n x = x := by
  have := Qugar.Lagrange.lag_reproduce ν n hd Polynomial.X (by rw [Polynomial.degree_X]; exact_mod_cast hn) x
  simp only [Qugar.Lagrange.lag_eq_eval, Polynomial.eval_X] at this
  unfold interp
  exact (Finset.sum_congr rfl fun i _ => mul_comm _ _).trans this

/-- **C77** (affine maps): the cell of a box is mapped affinely onto the box exactly if the points were placed at the nodes of the
element. -/
theorem C77_affine_iff (ν s : Nat → ℝ) (n : Nat) (hn : 1 < n) (hd : Qugar.Lagrange.Distinct ν n) :
    (∀ x ∈ Set.Icc (0 : ℝ) 1, interp ν s n x = x) ↔ ∀ i, i < n → s i = ν i := by
  constructor
  · intro h i hi
    have key : ∀ x, interp ν s n x = x := by
      intro x
      have hp : (∑ i ∈ Finset.range n, Polynomial.C (s i) * _root_.Lagrange.basis (Finset.range n) ν i) = Polynomial.X := by
        refine Polynomial.eq_of_infinite_eval_eq _ _ (Set.Infinite.mono (s := Set.Icc (0 : ℝ) 1) ?_ (Set.Icc_infinite (by norm_num)))
        intro x hx
        have := h x hx
        unfold interp at this
        simp only [Set.mem_setOf_eq, Polynomial.eval_finsetSum, Polynomial.eval_mul, Polynomial.eval_C, Polynomial.eval_X]
        exact this
      have := congrArg (Polynomial.eval x) hp
      simp only [Polynomial.eval_finsetSum, Polynomial.eval_mul, Polynomial.eval_C, Polynomial.eval_X] at this
      exact this
    rw [← key (ν i), interp_node ν s n hd i hi]
  · intro h x _
    have : interp ν s n x = interp ν ν n x := Finset.sum_congr rfl fun i hi => by rw [h i (Finset.mem_range.1 hi)]
    rw [this, interp_id ν n hn hd]

theorem legendre_value (n : Nat) (x : ℝ) :
    Polynomial.aeval x (Polynomial.derivative (Polynomial.shiftedLegendre n)) =
      ∑ k ∈ Finset.range (n + 1), ((-1 : ℝ) ^ k * (n.choose k) * ((n + k).choose n)) * (k * x ^ (k - 1)) := by
  unfold Polynomial.shiftedLegendre
  rw [Polynomial.derivative_sum, map_sum]
  refine Finset.sum_congr rfl fun k _ => ?_
  rw [Polynomial.derivative_C_mul, Polynomial.derivative_X_pow]
  simp

theorem IsGll.distinct {ν : Nat → ℝ} {n : Nat} (h : IsGll ν n) : Qugar.Lagrange.Distinct ν n := by
  intro i hi j hj e
  rcases Nat.lt_trichotomy i j with h1 | h1 | h1
  · exact absurd e (h.increasing i j h1 hj).ne
  · exact h1
  · exact absurd e (h.increasing j i h1 hi).ne'

/-- Up to degree 2 the Gauss-Lobatto-Legendre nodes are equidistant; from degree 3 to degree 5 they are not. -/
theorem gll_equidistant (ν : Nat → ℝ) (n : Nat) (h1 : 1 < n) (h6 : n ≤ 6) (h : IsGll ν n) :
    (∀ i, i < n → (i : ℝ) / ((n - 1 : Nat) : ℝ) = ν i) ↔ n ≤ 3 := by
  constructor
  · intro hi
    by_contra hn
    have h4 : n = 4 ∨ n = 5 ∨ n = 6 := by omega
    have hz := h.inner 1 (by omega) (by omega)
    rw [← hi 1 (by omega), legendre_value] at hz
    rcases h4 with rfl | rfl | rfl <;> norm_num [Finset.sum_range_succ, Nat.choose] at hz
  · intro hn i hi
    have h2 : n = 2 ∨ n = 3 := by omega
    rcases h2 with rfl | rfl
    · rcases (show i = 0 ∨ i = 1 by omega) with rfl | rfl
      · rw [h.first]; norm_num
      · have := h.last; norm_num at this; rw [this]; norm_num
    · rcases (show i = 0 ∨ i = 1 ∨ i = 2 by omega) with rfl | rfl | rfl
      · rw [h.first]; norm_num
      · have hz := h.inner 1 (by omega) (by omega)
        rw [legendre_value] at hz
        norm_num [Finset.sum_range_succ, Nat.choose] at hz
        norm_num; linarith
      · have := h.last; norm_num at this; rw [this]; norm_num

/-- **C77** (full cells): add a full cell to any reparameterization of at most 6 points per direction, and create the mesh with the element
`gll_warped`. For degrees 1 and 2 the new cell is mapped affinely onto its box. For the degrees 3 (the default), 4 and 5 the map is not
affine in any direction in which the box is not flat: the points of the reparameterization are equidistant, those of the element are not. -/
theorem C77_full_cells_partial (E : Env ℝ) (hsrt : IsSort E.srt) (hE : IsEdgeSort E.srtE) (m : Mesh ℝ) (h : Built E m) (h6 : m.order ≤ 6)
    (box : Box ℝ) (hb : box.length = m.dim) (hne : m.points ≠ [] ∨ m.conn = []) (ν : Nat → ℝ) (hν : IsGll ν m.order) :
    ∃ m' rows, addFullCell E.cheb m box false = some m' ∧ createMesh m' false = some rows ∧
      rows.length = m.conn.length / m.order ^ m.dim + 1 ∧
      (m.order ≤ 3 → ∀ u, u.length = m.dim → ∀ c, c < m.dim →
        dolfinxMap ν m.dim m.order ((rows.getD (m.conn.length / m.order ^ m.dim) []).map fun n => m'.points.getD n []) u c =
          (box.getD c (0, 0)).1 + ((box.getD c (0, 0)).2 - (box.getD c (0, 0)).1) * u.getD c 0) ∧
      (3 < m.order → ∀ c, c < m.dim → (box.getD c (0, 0)).1 ≠ (box.getD c (0, 0)).2 →
        ∃ x ∈ Set.Icc (0 : ℝ) 1, ∀ u, u.length = m.dim → u.getD c 0 = x →
          dolfinxMap ν m.dim m.order ((rows.getD (m.conn.length / m.order ^ m.dim) []).map fun n => m'.points.getD n []) u c ≠
            (box.getD c (0, 0)).1 + ((box.getD c (0, 0)).2 - (box.getD c (0, 0)).1) * u.getD c 0) := by
  obtain ⟨m', a1, a2, a3, a4, a5, a6, -⟩ := C38_full_cell E hsrt hE m h box false (by simp) hne
  have hm' : Built E m' := Built.addFullCell box false h (by simp) a1
  obtain ⟨rows, r1, r2, r3⟩ := C77_geometry E hsrt hE m' hm' ν
  have hi := (built_inv E hsrt hE m h).1
  have hi' := (built_inv E hsrt hE m' hm').1
  have hlen : rows.length = m.conn.length / m.order ^ m.dim + 1 := by
    unfold numCells ppc at r2
    rw [if_pos hi'.whole, a2, a4, a5] at r2
    exact (Option.some.inj r2).symm
  have hmap : ∀ u, u.length = m.dim → ∀ c, c < m.dim →
      dolfinxMap ν m.dim m.order ((rows.getD (m.conn.length / m.order ^ m.dim) []).map fun n => m'.points.getD n []) u c =
        (box.getD c (0, 0)).1 + ((box.getD c (0, 0)).2 - (box.getD c (0, 0)).1) *
          interp ν (fun i => (i : ℝ) / ((m.order - 1 : Nat) : ℝ)) m.order (u.getD c 0) := by
    intro u hu c hc
    have := r3 (m.conn.length / m.order ^ m.dim) (by omega) u c
    rw [a2, a4] at this
    rw [this]
    refine C77_full_cell ν _ m.dim m.order hi.order hν.distinct box hb _ (fun t ht => ?_) u hu c hc
    rw [a6 t ht]
    refine congrArg (fun f => List.zipWith f box t) ?_
    funext iv i
    have hu : useChebyshev m.order = false := by unfold useChebyshev; exact decide_eq_false (by omega)
    unfold pointIn01
    rw [hu]; rfl
  refine ⟨m', rows, a1, r1, hlen, fun h3 u hu c hc => ?_, fun h3 c hc hbox => ?_⟩
  · rw [hmap u hu c hc]
    have heq := (gll_equidistant ν m.order hi.order h6 hν).2 h3
    have : interp ν (fun i => (i : ℝ) / ((m.order - 1 : Nat) : ℝ)) m.order (u.getD c 0) = interp ν ν m.order (u.getD c 0) :=
      Finset.sum_congr rfl fun i hi => by rw [← heq i (Finset.mem_range.1 hi)]
    rw [this, interp_id ν m.order hi.order hν.distinct]
  · have hno : ¬ ∀ i, i < m.order → (i : ℝ) / ((m.order - 1 : Nat) : ℝ) = ν i :=
      fun hh => by have := (gll_equidistant ν m.order hi.order h6 hν).1 hh; omega
    rw [← C77_affine_iff ν (fun i => (i : ℝ) / ((m.order - 1 : Nat) : ℝ)) m.order hi.order hν.distinct] at hno
    push Not at hno
    obtain ⟨x, hx, hxn⟩ := hno
    refine ⟨x, hx, fun u hu huc heq => hxn ?_⟩
    rw [hmap u hu c hc, huc] at heq
    have h1 : (box.getD c (0, 0)).2 - (box.getD c (0, 0)).1 ≠ 0 := sub_ne_zero.2 (Ne.symm hbox)
    exact mul_left_cancel₀ h1 (add_left_cancel heq)

/-- **C77** (curved cells, fails): take a cell of the default degree on the parabola y = x², with its points at equidistant abscissas. The
map with equidistant nodes follows the parabola; the map of the element `gll_warped` leaves it. -/
theorem C77_curved_cells_fail (ν : Nat → ℝ) (hν : IsGll ν 4) (vert : List Nat → List ℝ) (hv : ∀ i : Nat, i < 4 → vert [i] = [(i : ℝ) / 3, ((i : ℝ) / 3) ^ 2]) :
    (∀ x, cellMap (fun i => (i : ℝ) / 3) 1 4 vert [x] 1 = cellMap (fun i => (i : ℝ) / 3) 1 4 vert [x] 0 ^ 2) ∧
    ∃ x ∈ Set.Icc (0 : ℝ) 1, cellMap ν 1 4 vert [x] 1 ≠ cellMap ν 1 4 vert [x] 0 ^ 2 := by
  have hmap : ∀ (μ : Nat → ℝ) (x : ℝ), cellMap μ 1 4 vert [x] 0 = interp μ (fun i => (i : ℝ) / 3) 4 x ∧
      cellMap μ 1 4 vert [x] 1 = interp μ (fun i => ((i : ℝ) / 3) ^ 2) 4 x := by
    intro μ x
    have hidx : indices (List.replicate 1 4) = (List.range 4).map fun i => [i] := by decide +kernel
    have hs : ∀ c, cellMap μ 1 4 vert [x] c = ∑ i ∈ Finset.range 4, (vert [i]).getD c 0 * (_root_.Lagrange.basis (Finset.range 4) μ i).eval x := by
      intro c
      unfold cellMap
      rw [hidx, List.map_map, list_sum_range]
      refine Finset.sum_congr rfl fun i _ => ?_
      simp [basisProd]
    constructor
    · rw [hs]
      exact Finset.sum_congr rfl fun i hi => by rw [hv i (Finset.mem_range.1 hi)]; rfl
    · rw [hs]
      exact Finset.sum_congr rfl fun i hi => by rw [hv i (Finset.mem_range.1 hi)]; rfl
  have hed : Qugar.Lagrange.Distinct (fun i => (i : ℝ) / 3) 4 := by
    intro i _ j _ e
    have : (i : ℝ) = j := by
      have := congrArg (· * 3) e
      simpa using this
    exact_mod_cast this
  refine ⟨fun x => ?_, ?_⟩
  · rw [(hmap _ x).1, (hmap _ x).2, interp_id _ 4 (by norm_num) hed]
    have := Qugar.Lagrange.lag_reproduce (fun i => (i : ℝ) / 3) 4 hed (Polynomial.X ^ 2) (by rw [Polynomial.degree_X_pow]; norm_num) x
    simp only [Qugar.Lagrange.lag_eq_eval, Polynomial.eval_pow, Polynomial.eval_X] at this
    unfold interp
    exact (Finset.sum_congr rfl fun i _ => mul_comm _ _).trans this
  · by_contra hno
    push Not at hno
    obtain ⟨X, hX⟩ : ∃ X, X = ∑ i ∈ Finset.range 4, Polynomial.C ((i : ℝ) / 3) * _root_.Lagrange.basis (Finset.range 4) ν i := ⟨_, rfl⟩
    obtain ⟨Y, hY⟩ : ∃ Y, Y = ∑ i ∈ Finset.range 4, Polynomial.C (((i : ℝ) / 3) ^ 2) * _root_.Lagrange.basis (Finset.range 4) ν i := ⟨_, rfl⟩
    have eX : ∀ x, X.eval x = interp ν (fun i => (i : ℝ) / 3) 4 x := fun x => by
      rw [hX]; simp only [Polynomial.eval_finsetSum, Polynomial.eval_mul, Polynomial.eval_C]; rfl
    have eY : ∀ x, Y.eval x = interp ν (fun i => ((i : ℝ) / 3) ^ 2) 4 x := fun x => by
      rw [hY]; simp only [Polynomial.eval_finsetSum, Polynomial.eval_mul, Polynomial.eval_C]; rfl
    have hXY : Y = X ^ 2 := by
      refine Polynomial.eq_of_infinite_eval_eq _ _ (Set.Infinite.mono (s := Set.Icc (0 : ℝ) 1) ?_ (Set.Icc_infinite (by norm_num)))
      intro x hx
      have := hno x hx
      rw [(hmap ν x).1, (hmap ν x).2] at this
      simp only [Set.mem_setOf_eq, Polynomial.eval_pow, eX, eY]
      exact this
    have hdY : Y.natDegree ≤ 3 := by
      rw [hY]
      refine Polynomial.natDegree_sum_le_of_forall_le _ _ fun i hi => ?_
      refine (Polynomial.natDegree_C_mul_le _ _).trans ?_
      rw [_root_.Lagrange.natDegree_basis (Qugar.Lagrange.distinct_injOn hν.distinct) hi]
      simp
    have hdX : X.natDegree ≤ 1 := by
      rw [hXY, Polynomial.natDegree_pow] at hdY; omega
    obtain ⟨a, b, hab⟩ := Polynomial.exists_eq_X_add_C_of_natDegree_le_one hdX
    have hat : ∀ i, i < 4 → a * ν i + b = (i : ℝ) / 3 := by
      intro i hi
      rw [← interp_node ν (fun i => (i : ℝ) / 3) 4 hν.distinct i hi, ← eX, hab]
      simp
    have h0 := hat 0 (by norm_num)
    have h3 := hat 3 (by norm_num)
    have h1 := hat 1 (by norm_num)
    have l := hν.last
    norm_num at l
    rw [hν.first] at h0
    rw [l] at h3
    norm_num at h0 h3 h1
    rw [h0] at h1 h3
    norm_num at h3 h1
    rw [h3] at h1
    have hz := hν.inner 1 (by norm_num) (by norm_num)
    rw [legendre_value] at hz
    rw [one_mul] at h1
    rw [h1] at hz
    norm_num [Finset.sum_range_succ, Nat.choose] at hz

/-- The Gauss-Lobatto-Legendre nodes for 4 points. -/
noncomputable def gll4 : Nat → ℝ := fun i => if i = 0 then 0 else if i = 1 then (1 - √5 / 5) / 2 else if i = 2 then (1 + √5 / 5) / 2 else 1

theorem gll4_isGll : IsGll gll4 4 := by
  have h5 : √5 * √5 = 5 := Real.mul_self_sqrt (by norm_num)
  have hp : 0 < √5 := Real.sqrt_pos.2 (by norm_num)
  have hl : √5 < 5 := by nlinarith
  refine ⟨rfl, rfl, fun i h1 h2 => ?_, fun i j hij hj => ?_⟩
  · rw [legendre_value]
    rcases (show i = 1 ∨ i = 2 by omega) with rfl | rfl <;> norm_num [Finset.sum_range_succ, Nat.choose, gll4] <;> nlinarith
  · rcases (show (i = 0 ∧ j = 1) ∨ (i = 0 ∧ j = 2) ∨ (i = 0 ∧ j = 3) ∨ (i = 1 ∧ j = 2) ∨ (i = 1 ∧ j = 3) ∨ (i = 2 ∧ j = 3) by omega) with
      ⟨rfl, rfl⟩ | ⟨rfl, rfl⟩ | ⟨rfl, rfl⟩ | ⟨rfl, rfl⟩ | ⟨rfl, rfl⟩ | ⟨rfl, rfl⟩ <;> norm_num [gll4] <;> linarith

/-! ### Several processes -/

theorem dest_all (cells : List (List Nat)) (tdim rank : Nat) (h : ∀ c ∈ cells, 2 ^ tdim ≤ c.length) :
    identityPartitioner rank tdim (cells.flatMap fun c => c.take (2 ^ tdim)) = List.replicate cells.length rank := by
  unfold identityPartitioner
  have : (cells.flatMap fun c => c.take (2 ^ tdim)).length = cells.length * 2 ^ tdim := by
    induction cells with
    | nil => simp
    | cons c cells ih =>
      rw [List.flatMap_cons, List.length_append, ih fun d hd => h d (List.mem_cons_of_mem _ hd), List.length_take,
        Nat.min_eq_left (h c (List.mem_cons_self ..)), List.length_cons, Nat.succ_mul, Nat.add_comm]
  rw [this, Nat.mul_div_cancel _ (Nat.two_pow_pos _)]

theorem zip_replicate_filter (cells : List (List Nat)) (r rank : Nat) :
    (List.zip cells (List.replicate cells.length r)).filter (fun cd => decide (cd.2 = rank)) =
      if r = rank then cells.map fun c => (c, r) else [] := by
  induction cells with
  | nil => simp
  | cons c cells ih =>
    rw [List.length_cons, List.replicate_succ, List.zip_cons_cons, List.filter_cons, ih]
    by_cases h : r = rank <;> simp [h]

theorem flatMap_single {α : Type} (P r : Nat) (hr : r < P) (f : Nat → List α) (h : ∀ i, i < P → i ≠ r → f i = []) :
    (List.range P).flatMap f = f r := by
  induction P with
  | zero => omega
  | succ P ih =>
    rw [List.range_succ, List.flatMap_append, List.flatMap_singleton]
    by_cases hP : r = P
    · subst hP
      have : (List.range r).flatMap f = [] := by
        rw [List.flatMap_eq_nil_iff]
        intro i hi
        exact h i (by have := List.mem_range.1 hi; omega) (by have := List.mem_range.1 hi; omega)
      rw [this, List.nil_append]
    · rw [ih (by omega) fun i hi hne => h i (by omega) hne, h P (by omega) (fun e => hP e.symm), List.append_nil]

theorem getD_flatMap_const {α : Type} (P : Nat) (hP : 0 < P) (l : List (List α)) (n : Nat) (h : n < l.length ∨ l = []) :
    ((List.range P).flatMap fun _ => l).getD n [] = l.getD n [] := by
  obtain ⟨Q, rfl⟩ : ∃ Q, P = Q + 1 := ⟨P - 1, by omega⟩
  rw [List.range_succ_eq_map, List.flatMap_cons]
  rcases h with h | h
  · rw [List.getD_eq_getElem?_getD, List.getElem?_append_left h, List.getD_eq_getElem?_getD]
  · subst h
    have : ((List.map Nat.succ (List.range Q)).flatMap fun _ => ([] : List (List α))) = [] := by
      rw [List.flatMap_eq_nil_iff]; intros; rfl
    rw [this, List.nil_append]

/-- **C77** (processes): every process holds the whole reparameterization (the domain is not distributed) and asks to keep all its cells.
So with `P` processes every process owns a copy of all the cells: the mesh has every cell `P` times. With one process it is right. -/
theorem C77_processes_fail (E : Env K) (hsrt : IsSort E.srt) (hE : IsEdgeSort E.srtE) (m : Mesh K) (h : Built E m) (wb : Bool) (P : Nat) (hP : 0 < P) :
    ∃ rows inputs, createMesh m wb = some rows ∧ (List.range P).mapM (input m wb) = some inputs ∧
      (∀ r, r < P → dolfinxCells inputs r = rows.map fun row => row.map fun n => m.points.getD n []) ∧
      ((List.range P).flatMap (dolfinxCells inputs)).length = P * rows.length := by
  have hi := (built_inv E hsrt hE m h).1
  have ho := hi.order
  obtain ⟨rows, hrows, hlen, hid⟩ : ∃ rows, createMesh m wb = some rows ∧
      (∀ c ∈ rows, 2 ^ (if wb then 1 else m.dim) ≤ c.length) ∧ ∀ c ∈ rows, ∀ n ∈ c, n < m.points.length ∨ m.points = [] := by
    cases wb with
    | true =>
      obtain ⟨rows, r1, r2, r3⟩ := C77_wirebasket E hsrt hE m h
      refine ⟨rows, r1, fun c hc => ?_, fun c hc n hn => ?_⟩
      · obtain ⟨k, hk, rfl⟩ := List.mem_iff_getElem.1 hc
        have := (r3 k hk).2
        rw [List.getD_eq_getElem?_getD, List.getElem?_eq_getElem hk, Option.getD_some] at this
        rw [this]
        simp
      · obtain ⟨k, hk, rfl⟩ := List.mem_iff_getElem.1 hc
        have := (r3 k hk).1
        rw [List.getD_eq_getElem?_getD, List.getElem?_eq_getElem hk, Option.getD_some] at this
        exact Or.inl (this n hn)
    | false =>
      have hr := createRows m.conn m.dim m.order hi.dim hi.dim3 ho hi.whole
      have hd : m.order - 1 + 1 = m.order := by omega
      obtain ⟨-, pD, -⟩ := C61_node_numberings m.dim (m.order - 1) hi.dim hi.dim3 (by omega)
      rw [hd] at pD
      refine ⟨_, hr, fun c hc => ?_, fun c hc n hn => ?_⟩
      · obtain ⟨k, hk, rfl⟩ := List.mem_map.1 hc
        rw [List.length_map, pD.length_eq, length_indices, listProd_replicate]
        exact Nat.pow_le_pow_left (by omega) _
      · by_cases hpt : m.points = []
        · exact Or.inr hpt
        · left
          obtain ⟨k, hk, rfl⟩ := List.mem_map.1 hc
          obtain ⟨t, ht, rfl⟩ := List.mem_map.1 hn
          have hb := cell_bound (List.mem_range.1 hk) (pD.mem_iff.1 ht)
          rw [List.getD_eq_getElem?_getD, List.getElem?_eq_getElem hb, Option.getD_some]
          rcases hi.conn _ (List.getElem_mem hb) with h1 | h1
          · exact h1
          · rw [h1]; exact List.length_pos_iff.2 hpt
  have hin : ∀ r, input m wb r = some ⟨m.points, rows, List.replicate rows.length r⟩ := by
    intro r
    unfold input
    rw [hrows]
    show some _ = _
    rw [dest_all rows _ r hlen]
  have hcells : ∀ r, r < P → dolfinxCells ((List.range P).map fun r => (⟨m.points, rows, List.replicate rows.length r⟩ : Input K)) r =
      rows.map fun row => row.map fun n => m.points.getD n [] := by
    intro r hr
    unfold dolfinxCells
    dsimp only
    rw [List.flatMap_map, List.flatMap_map, flatMap_single P r hr]
    · rw [zip_replicate_filter, if_pos rfl, List.map_map]
      refine List.map_congr_left fun row hrow => List.map_congr_left fun n hn => ?_
      exact getD_flatMap_const P hP m.points n (hid row hrow n hn)
    · intro i _ hne
      rw [zip_replicate_filter, if_neg hne]; rfl
  refine ⟨rows, (List.range P).map fun r => ⟨m.points, rows, List.replicate rows.length r⟩, hrows, mapM_some _ _ _ fun r _ => hin r, hcells, ?_⟩
  rw [List.length_flatMap]
  have : (List.range P).map (fun r => (dolfinxCells ((List.range P).map fun r => (⟨m.points, rows, List.replicate rows.length r⟩ : Input K)) r).length) =
      (List.range P).map fun _ => rows.length :=
    List.map_congr_left fun r hr => by rw [hcells r (List.mem_range.1 hr), List.length_map]
  rw [this]
  simp

/-! ### Example -/

/-- A reparameterization with one square cell with 3 points per direction, and an edge. -/
def exMesh : Mesh ℚ := ⟨2, 2, 3, (List.range 9).map fun (i : Nat) => [((i % 3 : Nat) : ℚ) / 2, ((i / 3 : Nat) : ℚ) / 2], List.range 9, [0, 1, 2]⟩

example : createMesh exMesh false = some [[0, 2, 6, 8, 1, 3, 5, 7, 4]] ∧ createMesh exMesh true = some [[0, 2, 1]] := by decide +kernel

example : ((List.range 2).mapM (input exMesh false)).map (fun i => (dolfinxCells i 0 == dolfinxCells i 1, (dolfinxCells i 1).length)) = some (true, 1) := by
  decide +kernel

end Qugar.Py.Reparam
