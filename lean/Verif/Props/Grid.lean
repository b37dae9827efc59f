import Verif.Lemmas.Grid
import Mathlib.Data.List.Sort
/-
Property theorems C05, C06, C07 (Cartesian grids).
-/
set_option linter.unusedSectionVars false

namespace Qugar
open Spec
variable {K : Type} [Field K] [LinearOrder K]

namespace Grid

theorem valid_cons {bs : List K} {g : Grid K} : Valid (bs :: g) ↔ (1 < bs.length ∧ bs.Pairwise (· < ·)) ∧ Valid g := by
  simp [Valid]

theorem headD_eq (bs : List K) : bs.headD 0 = bs.getD 0 0 := by cases bs <;> simp
theorem getLastD_eq (bs : List K) : bs.getLastD 0 = bs.getD (bs.length - 1) 0 := by
  rw [List.getLastD_eq_getLast?, List.getLast?_eq_getElem?, List.getD_eq_getElem?_getD]

theorem domain_cons (bs : List K) (g : Grid K) :
    domain (bs :: g) = (bs.getD 0 0, bs.getD (bs.length - 1) 0) :: domain g := by
  rw [← headD_eq, ← getLastD_eq]; rfl

theorem numCellsDir_cons (bs : List K) (g : Grid K) :
    numCellsDir (bs :: g) = (bs.length - 1) :: numCellsDir g := rfl

theorem cellDomainTid_cons (bs : List K) (g : Grid K) (i : Nat) (t : List Nat) :
    cellDomainTid (bs :: g) (i :: t) = (bs.getD i 0, bs.getD (i + 1) 0) :: cellDomainTid g t := rfl

theorem numCells_pos {g : Grid K} (hv : g.Valid) : 0 < listProd g.numCellsDir := by
  induction g with
  | nil => simp [numCellsDir, listProd]
  | cons bs g ih =>
    rw [valid_cons] at hv
    rw [numCellsDir_cons]
    exact Nat.mul_pos (by omega) (ih hv.2)

theorem cellDomain_of_tid {g : Grid K} {tid : List Nat} {c : Nat} (ht : InSize g.numCellsDir tid)
    (hc : flat tid g.numCellsDir = some c) : cellDomain g c = some (cellDomainTid g tid) := by
  obtain ⟨fl, h1, _, h3⟩ := C01_tensor_flat_tensor _ _ ht
  rw [hc] at h1; cases h1
  simp [cellDomain, h3]

section
variable [IsStrictOrderedRing K]

theorem cellTid_spec (tol : K) (ht : 0 ≤ tol) (g : Grid K) (hv : g.Valid) (p : List K)
    (hp : InClosedBox tol g.domain p) :
    ∃ tid, cellTid tol g p = some tid ∧ List.Forall₂ (· < ·) tid g.numCellsDir ∧
      InClosedBox tol (cellDomainTid g tid) p := by
  induction g generalizing p with
  | nil =>
    cases hp
    exact ⟨[], rfl, .nil, .nil⟩
  | cons bs g ih =>
    rw [valid_cons] at hv
    rw [InClosedBox, domain_cons] at hp
    cases hp with
    | @cons _ x _ xs h hp =>
      obtain ⟨k, hk, hlt, hb⟩ := cellIdDir_spec tol ht bs hv.1.1 hv.1.2 x h.1 h.2
      obtain ⟨tid, h1, h2, h3⟩ := ih hv.2 xs hp
      refine ⟨k :: tid, by simp [cellTid, hk, h1], .cons hlt h2, ?_⟩
      rw [cellDomainTid_cons]
      exact .cons hb h3

/-- **C05** (the located cell contains the point). For every point of the grid domain (even `tol` outside of it) a
cell of the grid is returned, and its closed domain contains the point up to the tolerance in every direction. -/
theorem C05_located_cell_contains_point (g : Grid K) (hv : g.Valid) (tol : K) (ht : 0 ≤ tol) (p : List K)
    (hp : InClosedBox tol g.domain p) :
    ∃ c box, cellId g tol p = some c ∧ c < g.numCells ∧ cellDomain g c = some box ∧ InClosedBox tol box p := by
  obtain ⟨tid, h1, h2, h3⟩ := cellTid_spec tol ht g hv p hp
  have hin := forall2_lt_iff_inSize.1 h2
  obtain ⟨c, hc, hlt, _⟩ := C01_tensor_flat_tensor _ _ hin
  exact ⟨c, _, by simp [cellId, h1, hc], hlt, cellDomain_of_tid hin hc, h3⟩

/-- **C05** (interior points). A point of a cell that is farther than the tolerance from the cell's upper faces is
assigned to that cell. -/
theorem C05_interior_point_located (g : Grid K) (hv : g.Valid) (tol : K) (ht : 0 ≤ tol) (p : List K)
    (c : Nat) (box : Box K) (hb : cellDomain g c = some box) (hp : InLowerBox tol box p) :
    cellId g tol p = some c := by
  rw [cellDomain, Option.map_eq_some_iff] at hb
  obtain ⟨tid, hu, rfl⟩ := hb
  have hlt : c < tsize g.numCellsDir := ((C01_domain _).2 c).1 (by rw [hu]; rfl)
  obtain ⟨i, hi, hin, hf⟩ := C01_flat_tensor_flat _ _ hlt
  rw [hu] at hi; cases hi
  have key : cellTid tol g p = some tid := by
    have h2 := forall2_lt_iff_inSize.2 hin
    clear hu hlt hin hf
    induction g generalizing p tid with
    | nil =>
      cases h2
      cases hp
      rfl
    | cons bs g ih =>
      rw [valid_cons] at hv
      rw [numCellsDir_cons] at h2
      cases h2 with
      | @cons k _ ks _ hk hks =>
        rw [InLowerBox, cellDomainTid_cons] at hp
        cases hp with
        | @cons _ x _ xs h hp =>
          have e1 := cellIdDir_unique tol ht bs hv.1.2 x k hk h.1 h.2
          have e2 := ih hv.2 xs ks hp hks
          simp [cellTid, e1, e2]
  simp [cellId, key, hf]

/-- **C05** (last knots). The upper corner of the grid domain is assigned to the last cell. -/
theorem C05_upper_corner_is_last_cell (g : Grid K) (hv : g.Valid) (tol : K) (ht : 0 ≤ tol) :
    cellId g tol (g.domain.map Prod.snd) = some (g.numCells - 1) := by
  have key : cellTid tol g (g.domain.map Prod.snd) = some (g.numCellsDir.map (· - 1)) := by
    induction g with
    | nil => rfl
    | cons bs g ih =>
      rw [valid_cons] at hv
      have e1 := cellIdDir_last tol ht bs hv.1.1 hv.1.2
      have e2 := ih hv.2
      rw [domain_cons, List.map_cons, numCellsDir_cons, List.map_cons]
      simp only [cellTid, e1, e2]
      simp; omega
  have hin : InSize g.numCellsDir (g.numCellsDir.map (· - 1)) := by
    refine ⟨by simp, fun k hk => ?_⟩
    have h0 := listProd_pos.1 (numCells_pos hv) k hk
    simp only [List.getD_eq_getElem?_getD, List.getElem?_map, List.getElem?_eq_getElem hk] at h0 ⊢
    simp at h0 ⊢; omega
  have hpos := numCells_pos hv
  simp only [cellId, key, numCells, tsize_eq]
  change flat (g.numCellsDir.map (· - 1)) g.numCellsDir = _
  rw [flat_eq hin]
  congr 1
  generalize g.numCellsDir = n at hpos
  clear hin key
  induction n with
  | nil => simp [flatIndex, listProd]
  | cons a n ih =>
    simp only [listProd] at hpos
    have ha := Nat.pos_of_mul_pos_right hpos
    have hn := Nat.pos_of_mul_pos_left hpos
    simp only [List.map_cons, flatIndex, listProd, ih hn]
    obtain ⟨q, hq⟩ : ∃ q, listProd n = q + 1 := ⟨_, (Nat.succ_pred_eq_of_pos hn).symm⟩
    rw [hq, Nat.mul_add]
    simp; omega

/-- **C05** (documentation). The header promises the *lowest* index of the neighbour cells for a point shared by
several cells. The code returns the cell *above* an interior knot: for every grid direction `bs`, interior knot `k`
and tolerance smaller than the next span, the span `k` (not `k-1`) is returned. -/
theorem C05_interior_knot_goes_to_upper_cell (tol : K) (ht : 0 ≤ tol) (bs : List K) (hs : bs.Pairwise (· < ·))
    (k : Nat) (_hk : 0 < k) (hk' : k < bs.length - 1) (hgap : bs.getD k 0 + tol < bs.getD (k + 1) 0) :
    cellIdDir tol bs (bs.getD k 0) = some k :=
  cellIdDir_unique tol ht bs hs _ k hk' le_rfl hgap

end

/-- Witness for the documentation mismatch: the point `(1, 1/2)` belongs to the cells 0 and 1 of the 2x1 grid, the
lowest index is 0, and 1 is returned. -/
theorem C05_lowest_neighbour_fails :
    cellId ([[0, 1, 2], [0, 1]] : Grid ℚ) 0 [1, 1/2] = some 1 ∧
    cellDomain ([[0, 1, 2], [0, 1]] : Grid ℚ) 0 = some [(0, 1), (0, 1)] ∧
    InClosedBox (0 : ℚ) [(0, 1), (0, 1)] [1, 1/2] := by
  refine ⟨by decide +kernel, by decide +kernel, ?_⟩
  refine .cons (by norm_num) (.cons (by norm_num) .nil)

example : Grid.Valid ([[0, 1, 3], [0, 2]] : Grid ℚ) ∧ cellId ([[0, 1, 3], [0, 2]] : Grid ℚ) (1/100) [2, 1] = some 1 := by
  refine ⟨?_, by decide +kernel⟩
  intro bs hbs
  simp at hbs
  rcases hbs with rfl | rfl <;> exact ⟨by decide, by decide⟩


/-! ### C06 -/

theorem mapM_flat {l : List (List Nat)} {n : List Nat} (h : ∀ t ∈ l, InSize n t) :
    l.mapM (fun t => flat t n) = some (l.map fun t => flatIndex t n) := by
  induction l with
  | nil => rfl
  | cons t l ih =>
    have h1 := flat_eq (h t (by simp))
    have h2 := ih (fun t' ht' => h t' (by simp [ht']))
    simp [List.mapM_cons, h1, h2]

theorem getD_map_zero (n : List Nat) (k : Nat) : (n.map fun _ => 0).getD k 0 = 0 := by
  simp only [List.getD_eq_getElem?_getD, List.getElem?_map]
  cases n[k]? <;> rfl

theorem getD_numCellsDir (g : Grid K) (k : Nat) (hk : k < g.length) :
    g.numCellsDir.getD k 0 = (g.getD k []).length - 1 := by
  simp [numCellsDir, List.getD_eq_getElem?_getD, List.getElem?_eq_getElem hk]

/-- The slab is the set of in-range indices with the first (side 0) or last (side 1) component in the facet's
direction. -/
theorem inBox_boundaryRange {g : Grid K} (hv : g.Valid) {f : Nat} (hf : f < g.length * 2) (t : List Nat) :
    InBox (boundaryRange g f).lo (boundaryRange g f).up t ↔
      InSize g.numCellsDir t ∧
        t.getD (f / 2) 0 = (if f % 2 = 0 then 0 else g.numCellsDir.getD (f / 2) 0 - 1) := by
  have hlen : g.numCellsDir.length = g.length := by simp [numCellsDir]
  have hd : f / 2 < g.numCellsDir.length := by omega
  have hpos := listProd_pos.1 (numCells_pos hv)
  have hd0 := hpos (f/2) hd
  simp only [boundaryRange, InBox, InSize, List.length_set, List.length_map]
  constructor
  · rintro ⟨h1, _, h⟩
    have hdir := h (f/2) (by omega)
    rw [getD_set _ _ _ _ (by simpa using hd), getD_set _ _ _ _ hd, if_pos rfl, if_pos rfl] at hdir
    refine ⟨⟨h1, fun k hk => ?_⟩, ?_⟩
    · have := (h k (by omega)).2
      rw [getD_set _ _ _ _ hd] at this
      split at this
      · rename_i e; subst e; split at this <;> omega
      · exact this
    · by_cases hs : f % 2 = 0
      · simp only [hs, if_true] at hdir ⊢; omega
      · simp only [hs, if_false] at hdir ⊢; omega
  · rintro ⟨⟨h1, h⟩, he⟩
    refine ⟨h1, h1, fun k hk => ?_⟩
    rw [getD_set _ _ _ _ (by simpa using hd), getD_set _ _ _ _ hd]
    by_cases hk' : k = f / 2
    · subst hk'
      rw [if_pos rfl, if_pos rfl, he]
      by_cases hs : f % 2 = 0
      · simp only [hs, if_true]; omega
      · simp only [hs, if_false]; omega
    · rw [if_neg hk', if_neg hk', getD_map_zero]
      exact ⟨by omega, h k (by omega)⟩

theorem boundaryRange_nonempty {g : Grid K} (hv : g.Valid) {f : Nat} (hf : f < g.length * 2) :
    NonemptyBox (boundaryRange g f).lo (boundaryRange g f).up := by
  have hlen : g.numCellsDir.length = g.length := by simp [numCellsDir]
  have hd : f / 2 < g.numCellsDir.length := by omega
  have hpos := listProd_pos.1 (numCells_pos hv)
  rw [NonemptyBox, forall2_lt_iff_inSize]
  simp only [boundaryRange, InSize, List.length_set, List.length_map]
  refine ⟨trivial, fun k hk => ?_⟩
  rw [getD_set _ _ _ _ (by simpa using hd), getD_set _ _ _ _ hd]
  have := hpos k hk
  split
  · rename_i e; subst e; split <;> omega
  · rw [getD_map_zero]; exact this

/-- **C06** (lists and predicate agree). `get_boundary_cells(facet)` succeeds for each local facet id and lists, in
increasing order, exactly the cells of the grid for which `on_boundary(cell, facet)` answers true. -/
theorem C06_boundary_cells_eq_filter (g : Grid K) (hv : g.Valid) (f : Nat) (hf : f < g.length * 2) :
    boundaryCells g f =
      some ((List.range g.numCells).filter fun c => onBoundary g c f == some true) := by
  have hne := boundaryRange_nonempty hv hf
  have hlen : g.numCellsDir.length = g.length := by simp [numCellsDir]
  have hlo : (boundaryRange g f).lo ≠ [] := by
    intro h
    have := congrArg List.length h
    simp only [boundaryRange, List.length_set, List.length_map, List.length_nil] at this
    omega
  have hin : ∀ t ∈ rangeList (boundaryRange g f).lo (boundaryRange g f).up, InSize g.numCellsDir t := by
    intro t ht
    exact ((inBox_boundaryRange hv hf t).1 (mem_rangeList.1 ht)).1
  simp only [boundaryCells, hf, if_true]
  rw [visit_nonempty _ hne hlo _ (Nat.le_succ _)]
  change List.mapM (fun t => flat t g.numCellsDir) _ = _
  rw [mapM_flat hin]
  congr 1
  apply List.Pairwise.eq_of_mem_iff (r := (· < ·))
  · rw [List.pairwise_map]
    exact rangeList_pairwise_flat _ _ _ fun i hi => ((inBox_boundaryRange hv hf i).1 hi).1
  · exact List.Pairwise.filter _ List.pairwise_lt_range
  · intro c
    simp only [List.mem_map, List.mem_filter, List.mem_range, beq_iff_eq]
    constructor
    · rintro ⟨t, ht, rfl⟩
      obtain ⟨hs, he⟩ := (inBox_boundaryRange hv hf t).1 (mem_rangeList.1 ht)
      obtain ⟨fl, h1, h2, h3⟩ := C01_tensor_flat_tensor _ _ hs
      rw [flat_eq hs] at h1; cases h1
      refine ⟨h2, ?_⟩
      simp only [onBoundary, hf, if_true, h3, Option.bind_eq_bind, Option.bind_some, Option.pure_def,
        he, beq_self_eq_true]
    · rintro ⟨hc, hb⟩
      obtain ⟨t, h1, h2, h3⟩ := C01_flat_tensor_flat _ _ hc
      simp only [onBoundary, hf, if_true, h1, Option.bind_eq_bind, Option.bind_some, Option.pure_def,
        Option.some.injEq, beq_iff_eq] at hb
      refine ⟨t, mem_rangeList.2 ((inBox_boundaryRange hv hf t).2 ⟨h2, hb⟩), ?_⟩
      rw [flat_eq h2] at h3; exact Option.some.inj h3

theorem cellDomainTid_getElem? (g : Grid K) (t : List Nat) (k : Nat) (hk : k < g.length) (ht : t.length = g.length) :
    (cellDomainTid g t)[k]? =
      some ((g.getD k []).getD (t.getD k 0) 0, (g.getD k []).getD (t.getD k 0 + 1) 0) := by
  simp [cellDomainTid, List.getElem?_zipWith, spanDir, List.getD_eq_getElem?_getD, List.getElem?_eq_getElem hk,
    List.getElem?_eq_getElem (by omega : k < t.length)]

theorem domain_getElem? (g : Grid K) (k : Nat) (hk : k < g.length) :
    (domain g)[k]? = some ((g.getD k []).getD 0 0, (g.getD k []).getD ((g.getD k []).length - 1) 0) := by
  simp only [domain, List.getElem?_map, List.getElem?_eq_getElem hk, Option.map_some, headD_eq, getLastD_eq]
  simp [List.getD_eq_getElem?_getD, List.getElem?_eq_getElem hk]

/-- **C06** (geometric meaning of `on_boundary`). For each cell and local facet the query succeeds, and it answers true
iff the facet of the cell lies on the facet of the grid domain with the same direction and side. -/
theorem C06_on_boundary_geometric (g : Grid K) (hv : g.Valid) (c f : Nat) (hc : c < g.numCells)
    (hf : f < g.length * 2) :
    ∃ b box iv dv, onBoundary g c f = some b ∧ cellDomain g c = some box ∧
      box[f / 2]? = some iv ∧ (domain g)[f / 2]? = some dv ∧
      (b = true ↔ (if f % 2 = 0 then iv.1 = dv.1 else iv.2 = dv.2)) := by
  obtain ⟨t, h1, h2, h3⟩ := C01_flat_tensor_flat _ _ hc
  have hlen : g.numCellsDir.length = g.length := by simp [numCellsDir]
  have hd : f / 2 < g.length := by omega
  have hlt := h2.2 (f/2) (by omega)
  have htl : t.length = g.length := by rw [h2.1, hlen]
  have hmem : g.getD (f/2) [] ∈ g := by
    rw [List.getD_eq_getElem?_getD, List.getElem?_eq_getElem hd]; simp
  obtain ⟨hbl, hbs⟩ := hv _ hmem
  rw [getD_numCellsDir g _ hd] at hlt
  refine ⟨_, _, _, _, by simp only [onBoundary, hf, if_true, h1]; rfl, by simp only [cellDomain, h1]; rfl,
    cellDomainTid_getElem? g t _ hd htl, domain_getElem? g _ hd, ?_⟩
  rw [beq_iff_eq, getD_numCellsDir g _ hd]
  generalize g.getD (f/2) [] = bs at *
  generalize t.getD (f/2) 0 = i at *
  split
  · constructor
    · rintro rfl; rfl
    · intro h
      by_contra hne
      have := getD_lt_of_lt bs hbs (i := 0) (j := i) (by omega) (by omega)
      simp only at h
      rw [h] at this; exact lt_irrefl _ this
  · constructor
    · intro h; subst h
      have : bs.length - 1 - 1 + 1 = bs.length - 1 := by omega
      simp only [this]
    · intro h
      by_contra hne
      have := getD_lt_of_lt bs hbs (i := i + 1) (j := bs.length - 1) (by omega) (by omega)
      simp only at h
      rw [h] at this; exact lt_irrefl _ this

example : boundaryCells ([[0, 1, 2, 3], [0, 1, 2]] : Grid ℚ) 1 = some [2, 5] ∧
    boundaryCells ([[0, 1, 2, 3], [0, 1, 2]] : Grid ℚ) 2 = some [0, 1, 2] := by decide

/-! ### C07 -/

theorem volume_eq (b : Box K) : Box.volume b = boxVolume b := by
  have : ∀ (b : Box K) (a : K), b.foldl (fun v iv => v * (iv.2 - iv.1)) a = a * boxVolume b := by
    intro b
    induction b with
    | nil => intro a; simp [boxVolume]
    | cons iv b ih => intro a; simp only [List.foldl_cons, boxVolume, ih]; ring
  rw [Box.volume, this, one_mul]

/-- **C07** (cells are proper boxes inside the domain). -/
theorem C07_cell_domain_inside (g : Grid K) (hv : g.Valid) (c : Nat) (hc : c < g.numCells) :
    ∃ box, cellDomain g c = some box ∧ box.length = g.length ∧
      ∀ (k : Nat) (iv dv : K × K), box[k]? = some iv → (domain g)[k]? = some dv → dv.1 ≤ iv.1 ∧ iv.1 < iv.2 ∧ iv.2 ≤ dv.2 := by
  obtain ⟨t, h1, h2, h3⟩ := C01_flat_tensor_flat _ _ hc
  have hlen : g.numCellsDir.length = g.length := by simp [numCellsDir]
  have htl : t.length = g.length := by rw [h2.1, hlen]
  refine ⟨_, by simp only [cellDomain, h1]; rfl, by simp [cellDomainTid, htl], ?_⟩
  intro k iv dv hiv hdv
  have hd : k < g.length := by
    by_contra h
    rw [List.getElem?_eq_none (by simp [domain]; omega)] at hdv; simp at hdv
  rw [cellDomainTid_getElem? g t _ hd htl] at hiv
  rw [domain_getElem? g _ hd] at hdv
  cases hiv; cases hdv
  have hlt := h2.2 k (by omega)
  rw [getD_numCellsDir g _ hd] at hlt
  have hmem : g.getD k [] ∈ g := by
    rw [List.getD_eq_getElem?_getD, List.getElem?_eq_getElem hd]; simp
  obtain ⟨hbl, hbs⟩ := hv _ hmem
  exact ⟨getD_le_of_le _ hbs (by omega) (by omega), getD_lt_of_lt _ hbs (by omega) (by omega),
    getD_le_of_le _ hbs (by omega) (by omega)⟩

/-- **C07** (cells do not overlap). Two different cells have disjoint interiors. -/
theorem C07_cells_disjoint (g : Grid K) (hv : g.Valid) (c c' : Nat) (hc : c < g.numCells) (hc' : c' < g.numCells)
    (hne : c ≠ c') :
    ∃ box box', cellDomain g c = some box ∧ cellDomain g c' = some box' ∧ InteriorsDisjoint box box' := by
  obtain ⟨t, h1, h2, h3⟩ := C01_flat_tensor_flat _ _ hc
  obtain ⟨t', h1', h2', h3'⟩ := C01_flat_tensor_flat _ _ hc'
  have hlen : g.numCellsDir.length = g.length := by simp [numCellsDir]
  have htl : t.length = g.length := by rw [h2.1, hlen]
  have htl' : t'.length = g.length := by rw [h2'.1, hlen]
  refine ⟨_, _, by simp only [cellDomain, h1]; rfl, by simp only [cellDomain, h1']; rfl, ?_⟩
  have : ∃ k, k < g.length ∧ t.getD k 0 ≠ t'.getD k 0 := by
    by_contra hcon
    have hcon' : ∀ k, k < g.length → t.getD k 0 = t'.getD k 0 := fun k hk => by
      by_contra h; exact hcon ⟨k, hk, h⟩
    have : t = t' := by
      apply ext_getD (by omega)
      intro k
      by_cases hk : k < g.length
      · exact hcon' k hk
      · rw [List.getD_eq_default _ _ (by omega), List.getD_eq_default _ _ (by omega)]
    subst this
    rw [h3] at h3'; exact hne (Option.some.inj h3')
  obtain ⟨k, hk, hne'⟩ := this
  refine ⟨k, _, _, cellDomainTid_getElem? g t _ hk htl, cellDomainTid_getElem? g t' _ hk htl', ?_⟩
  have hmem : g.getD k [] ∈ g := by
    rw [List.getD_eq_getElem?_getD, List.getElem?_eq_getElem hk]; simp
  obtain ⟨hbl, hbs⟩ := hv _ hmem
  have l1 := h2.2 k (by omega)
  have l2 := h2'.2 k (by omega)
  rw [getD_numCellsDir g _ hk] at l1 l2
  rcases Nat.lt_or_gt_of_ne hne' with h | h
  · exact Or.inl (getD_le_of_le _ hbs (by omega) (by omega))
  · exact Or.inr (getD_le_of_le _ hbs (by omega) (by omega))

theorem sum_spans (bs : List K) (l n : Nat) :
    ((List.range' l n).map fun i => bs.getD (i + 1) 0 - bs.getD i 0).sum = bs.getD (l + n) 0 - bs.getD l 0 := by
  induction n generalizing l with
  | zero => simp
  | succ n ih =>
    rw [List.range'_succ, List.map_cons, List.sum_cons, ih]
    have : l + 1 + n = l + (n + 1) := by omega
    rw [this]; ring

theorem sum_map_flatMap {α β : Type} (L : List α) (f : α → List β) (v : β → K) :
    ((L.flatMap f).map v).sum = (L.map fun a => ((f a).map v).sum).sum := by
  induction L with
  | nil => simp
  | cons a L ih => simp [List.flatMap_cons, ih]

theorem sum_map_mul_left {α : Type} (L : List α) (c : K) (v : α → K) :
    (L.map fun a => c * v a).sum = c * (L.map v).sum := by
  induction L with
  | nil => simp
  | cons a L ih => simp [ih, mul_add]

theorem volumes_add_up (g : Grid K) (lo up : List Nat) (hl : lo.length = g.length) (hu : up.length = g.length)
    (hle : List.Forall₂ (· ≤ ·) lo up) :
    ((rangeList lo up).map fun t => Box.volume (cellDomainTid g t)).sum = Box.volume (subDomain g lo up) := by
  simp only [volume_eq]
  induction g generalizing lo up with
  | nil =>
    have h1 : lo = [] := by simpa using hl
    have h2 : up = [] := by simpa using hu
    subst h1 h2
    simp [rangeList, cellDomainTid, subDomain, boxVolume]
  | cons bs g ih =>
    cases hle with
    | nil => simp at hl
    | @cons l u ls us hlu hle =>
      have := ih ls us (by simpa using hl) (by simpa using hu) hle
      simp only [rangeList, subDomain, boxVolume, spanDir]
      rw [sum_map_flatMap]
      simp only [List.map_map, Function.comp_def, cellDomainTid_cons, boxVolume]
      have e : ∀ t : List Nat, ((List.range' l (u - l)).map fun i =>
          (bs.getD (i + 1) 0 - bs.getD i 0) * boxVolume (cellDomainTid g t)).sum
          = (bs.getD u 0 - bs.getD l 0) * boxVolume (cellDomainTid g t) := by
        intro t
        have h1 := sum_spans bs l (u - l)
        rw [show l + (u - l) = u by omega] at h1
        rw [← h1]
        rw [show (fun i => (bs.getD (i + 1) 0 - bs.getD i 0) * boxVolume (cellDomainTid g t)) =
          fun i => boxVolume (cellDomainTid g t) * (bs.getD (i + 1) 0 - bs.getD i 0) from
          funext fun i => mul_comm _ _]
        rw [sum_map_mul_left, mul_comm]
      simp only [e]
      rw [sum_map_mul_left, this]

/-- **C07** (volumes add up). For every sub-grid (a range of cells, non-empty in each direction) the loop over its cells
meets boxes whose volumes add up to the volume of the sub-grid's domain. -/
theorem C07_subgrid_volumes_add_up (g : Grid K) (hg : g ≠ []) (r : Range) (hl : r.lo.length = g.length)
    (hu : r.up.length = g.length) (hne : ∀ k, k < g.length → r.lo.getD k 0 < r.up.getD k 0) :
    ∃ cells, r.visit r.size = some cells ∧
      (cells.map fun t => Box.volume (cellDomainTid g t)).sum = Box.volume (subDomain g r.lo r.up) := by
  have hb : NonemptyBox r.lo r.up := forall2_lt_iff_inSize.2 ⟨by omega, fun k hk => hne k (by omega)⟩
  refine ⟨_, visit_nonempty r hb ?_ _ le_rfl, volumes_add_up g r.lo r.up hl hu (hb.imp fun _ _ h => le_of_lt h)⟩
  intro h
  rw [h] at hl
  exact hg (List.length_eq_zero_iff.1 hl.symm)

/-- **C07** (the full sub-grid is the grid): the domain of the sub-grid of all cells is the grid domain. -/
theorem C07_full_subgrid_domain (g : Grid K) :
    subDomain g (fullRange g).lo (fullRange g).up = domain g := by
  induction g with
  | nil => rfl
  | cons bs g ih =>
    rw [domain_cons, ← ih]; rfl

/-- **C07** (all cells). The volumes of the cells with ids `0 .. n-1` add up to the volume of the grid domain. -/
theorem C07_cell_volumes_sum_to_domain (g : Grid K) :
    ∃ boxes, (List.range g.numCells).mapM (cellDomain g) = some boxes ∧
      (boxes.map Box.volume).sum = Box.volume (domain g) := by
  have hlen : g.numCellsDir.length = g.length := by simp [numCellsDir]
  have hsum := volumes_add_up g (fullRange g).lo (fullRange g).up (by simp [fullRange, Range.ofUpper, numCellsDir])
    (by simp [fullRange, Range.ofUpper, numCellsDir]) (by
      simp only [fullRange, Range.ofUpper]
      generalize g.numCellsDir = n
      induction n with
      | nil => exact .nil
      | cons a n ih => exact .cons (Nat.zero_le _) ih)
  rw [C07_full_subgrid_domain] at hsum
  refine ⟨(rangeList (fullRange g).lo (fullRange g).up).map (cellDomainTid g), ?_, by
    rw [List.map_map]; exact hsum⟩
  have hbox : ∀ t, InBox (fullRange g).lo (fullRange g).up t ↔ InSize g.numCellsDir t := by
    intro t
    simp only [fullRange, Range.ofUpper, InBox, InSize, List.length_map]
    constructor
    · rintro ⟨h1, _, h⟩; exact ⟨h1, fun k hk => (h k (by omega)).2⟩
    · rintro ⟨h1, h⟩; exact ⟨h1, h1, fun k hk => ⟨by rw [getD_map_zero]; omega, h k (by omega)⟩⟩
  have hr : List.range g.numCells = (rangeList (fullRange g).lo (fullRange g).up).map fun t => flatIndex t g.numCellsDir := by
    apply List.Pairwise.eq_of_mem_iff (r := (· < ·)) List.pairwise_lt_range
    · rw [List.pairwise_map]
      exact rangeList_pairwise_flat _ _ _ fun i hi => (hbox i).1 hi
    · intro c
      simp only [List.mem_range, List.mem_map]
      constructor
      · intro hc
        obtain ⟨t, h1, h2, h3⟩ := C01_flat_tensor_flat _ _ hc
        exact ⟨t, mem_rangeList.2 ((hbox t).2 h2), by rw [flat_eq h2] at h3; exact Option.some.inj h3⟩
      · rintro ⟨t, ht, rfl⟩
        have h2 := (hbox t).1 (mem_rangeList.1 ht)
        have := flatIndex_lt (forall2_lt_iff_inSize.2 h2)
        rwa [numCells, tsize_eq]
  rw [hr]
  have hin : ∀ t ∈ rangeList (fullRange g).lo (fullRange g).up, InSize g.numCellsDir t := fun t ht =>
    (hbox t).1 (mem_rangeList.1 ht)
  revert hin
  generalize rangeList (fullRange g).lo (fullRange g).up = L
  intro hin
  induction L with
  | nil => rfl
  | cons t L ih =>
    have h1 := hin t (by simp)
    have := cellDomain_of_tid (g := g) h1 (flat_eq h1)
    simp [List.mapM_cons, this, ih fun t ht => hin t (by simp [ht])]

section
variable [IsStrictOrderedRing K]

/-- **C07** (equispaced grids). The breaks of an equispaced direction: `n + 1` of them, starting and ending at the
requested end points, with constant step, strictly increasing. -/
theorem C07_equispaced (x0 x1 : K) (hx : x0 < x1) (n : Nat) (hn : 0 < n) :
    let bs := equispacedDir x0 x1 n
    bs.length = n + 1 ∧ bs.getD 0 0 = x0 ∧ bs.getD n 0 = x1 ∧
      (∀ i, i < n → bs.getD (i + 1) 0 - bs.getD i 0 = (x1 - x0) / n) ∧
      1 < bs.length ∧ bs.Pairwise (· < ·) := by
  have hn' : (0 : K) < n := by exact_mod_cast hn
  have hg : ∀ i, i ≤ n → (equispacedDir x0 x1 n).getD i 0 = x0 + (x1 - x0) / n * i := by
    intro i hi
    simp only [equispacedDir, List.getD_eq_getElem?_getD, List.getElem?_map]
    rw [List.getElem?_range (by omega)]; rfl
  have hlen : (equispacedDir x0 x1 n).length = n + 1 := by simp [equispacedDir]
  refine ⟨hlen, by rw [hg 0 (by omega)]; simp, ?_, ?_, by omega, ?_⟩
  · rw [hg n le_rfl]; field_simp; ring
  · intro i hi
    rw [hg i (by omega), hg (i+1) (by omega)]; push_cast; ring
  · unfold equispacedDir
    rw [List.pairwise_map]
    refine List.Pairwise.imp ?_ List.pairwise_lt_range
    intro a b hab
    have h1 : (0 : K) < (x1 - x0) / n := div_pos (by linarith) hn'
    have h2 : (a : K) < b := by exact_mod_cast hab
    have := mul_lt_mul_of_pos_left h2 h1
    linarith

end

example : Grid.Valid ([[0, 1, 3], [0, 2]] : Grid ℚ) ∧ numCells ([[0, 1, 3], [0, 2]] : Grid ℚ) = 2 ∧
    cellDomain ([[0, 1, 3], [0, 2]] : Grid ℚ) 1 = some [(1, 3), (0, 2)] := by
  refine ⟨?_, by decide, by decide⟩
  intro bs hbs
  simp at hbs
  rcases hbs with rfl | rfl <;> exact ⟨by decide, by decide⟩

end Grid
end Qugar
