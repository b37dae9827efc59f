import Verif.Lemmas.PyNumbering
/-
Property theorems C61 (numberings of the nodes and of the facets of a cell, python/qugar/mesh/utils.py).
-/
namespace Qugar.Py
open Spec Spec.Cell TS

/-- `a[i] = b[p[i]]` for every position. -/
def Reorders {α : Type} (p : List Nat) (a b : List α) : Prop :=
  p.length = a.length ∧ ∀ i, i < a.length → ∃ j, p[i]? = some j ∧ j < b.length ∧ a[i]? = b[j]?

theorem indices_at {s t : List Nat} (h : t ∈ indices s) : (indices s)[flatIndex t s]? = some t := by
  obtain ⟨i, hi, rfl⟩ := List.mem_iff_getElem.1 h
  have h1 : ((indices s).map fun t => flatIndex t s)[i]? = (List.range (listProd s))[i]? := by rw [indices_flat]
  rw [List.getElem?_map, List.getElem?_eq_getElem hi, List.getElem?_range (by rw [← length_indices]; exact hi)] at h1
  have h2 : flatIndex (indices s)[i] s = i := Option.some.inj h1
  rw [h2, List.getElem?_eq_getElem hi]

theorem reorders_flat {s : List Nat} {L : List (List Nat)} (hL : L.Perm (indices s)) :
    Reorders (L.map fun t => flatIndex t s) L (indices s) := by
  refine ⟨List.length_map .., fun i hi => ⟨flatIndex L[i] s, ?_, ?_, ?_⟩⟩
  · rw [List.getElem?_map, List.getElem?_eq_getElem hi]; rfl
  · rw [length_indices]; exact flatIndex_lt' (hL.mem_iff.1 (List.getElem_mem hi))
  · rw [indices_at (hL.mem_iff.1 (List.getElem_mem hi)), List.getElem?_eq_getElem hi]

theorem perm_flat {s : List Nat} {L : List (List Nat)} (hL : L.Perm (indices s)) :
    (L.map fun t => flatIndex t s).Perm (List.range (listProd s)) := by
  have := hL.map fun t => flatIndex t s
  rwa [indices_flat] at this

theorem mapM_some {α β : Type} (l : List α) (f : α → Option β) (g : α → β) (h : ∀ a ∈ l, f a = some (g a)) :
    l.mapM f = some (l.map g) := by
  induction l with
  | nil => rfl
  | cons a l ih =>
    rw [List.mapM_cons, h a (List.mem_cons_self ..), ih fun b hb => h b (List.mem_cons_of_mem _ hb)]; rfl

theorem findIdx_perm {p : List Nat} {N : Nat} (hp : p.Perm (List.range N)) {i : Nat} (hi : i < N) :
    ∃ j, p.findIdx? (· == i) = some j ∧ p[j]? = some i := by
  have hm : i ∈ p := hp.mem_iff.2 (List.mem_range.2 hi)
  cases h : p.findIdx? (· == i) with
  | none =>
    rw [List.findIdx?_eq_none_iff] at h
    exact absurd (h i hm) (by simp)
  | some j =>
    refine ⟨j, rfl, ?_⟩
    obtain ⟨hj, h1, -⟩ := List.findIdx?_eq_some_iff_getElem.1 h
    rw [List.getElem?_eq_getElem hj]
    exact congrArg some (by simpa using h1)

/-- `_invert_map` of a permutation. -/
theorem invertMap_perm {p : List Nat} {N : Nat} (hp : p.Perm (List.range N)) :
    ∃ q, invertMap p = some q ∧ q.length = N ∧ ∀ i, i < N → ∃ j, q[i]? = some j ∧ p[j]? = some i := by
  have hl : p.length = N := by rw [hp.length_eq, List.length_range]
  have : ∀ i ∈ List.range p.length, p.findIdx? (· == i) = some ((p.findIdx? (· == i)).getD 0) := by
    intro i hi
    obtain ⟨j, h, -⟩ := findIdx_perm hp (i := i) (by rw [← hl]; exact List.mem_range.1 hi)
    rw [h]; rfl
  refine ⟨_, mapM_some _ _ _ this, by rw [List.length_map, List.length_range, hl], fun i hi => ?_⟩
  obtain ⟨j, h, h'⟩ := findIdx_perm hp hi
  refine ⟨j, ?_, h'⟩
  rw [List.getElem?_map, List.getElem?_range (by omega)]
  simp [h]

theorem reorders_inv {α : Type} {p q : List Nat} {a b : List α} (h : Reorders p a b) (hab : a.length = b.length)
    (hq : q.length = a.length) (hqp : ∀ i, i < a.length → ∃ j, q[i]? = some j ∧ p[j]? = some i) : Reorders q b a := by
  refine ⟨by omega, fun i hi => ?_⟩
  obtain ⟨j, h1, h2⟩ := hqp i (by omega)
  have hj : j < p.length := (List.getElem?_eq_some_iff.1 h2).1
  obtain ⟨k, h3, -, h5⟩ := h.2 j (by rw [← h.1]; exact hj)
  rw [h2] at h3
  obtain rfl := Option.some.inj h3
  exact ⟨j, h1, by rw [← h.1]; exact hj, h5.symm⟩

theorem reorders_comp {α : Type} {p r : List Nat} {a b c : List α} (h : Reorders p a b) (h' : Reorders r b c) :
    ∃ s, (p.mapM fun i => r[i]?) = some s ∧ Reorders s a c := by
  have hj : ∀ i ∈ p, i < b.length := by
    intro i hi
    obtain ⟨k, hk, rfl⟩ := List.mem_iff_getElem.1 hi
    obtain ⟨j, h1, h2, -⟩ := h.2 k (by rw [← h.1]; exact hk)
    rw [List.getElem?_eq_getElem hk] at h1
    obtain rfl := Option.some.inj h1
    exact h2
  refine ⟨_, mapM_some p _ (fun i => r.getD i 0) fun i hi => ?_, ?_, ?_⟩
  · obtain ⟨j, h1, -⟩ := h'.2 i (hj i hi)
    rw [h1, List.getD_eq_getElem?_getD, h1]; rfl
  · rw [List.length_map, h.1]
  · intro i hi
    obtain ⟨j, h1, h2, h3⟩ := h.2 i hi
    obtain ⟨k, h4, h5, h6⟩ := h'.2 j h2
    refine ⟨k, ?_, h5, h3.trans h6⟩
    rw [List.getElem?_map, h1, Option.map_some, List.getD_eq_getElem?_getD, h4]; rfl

theorem toLexicg_spec {dim d : Nat} (h1 : 1 ≤ dim) (h3 : dim ≤ 3) {L : List (List Nat)}
    (hL : L.Perm (indices (List.replicate dim (d + 1)))) :
    L.map (tensorToFlat d) = L.map fun t => flatIndex t (List.replicate dim (d + 1)) := by
  refine List.map_congr_left fun t ht => tensorToFlat_eq h1 h3 ?_
  exact (mem_indices_replicate.1 (hL.mem_iff.1 ht)).1

/-- **C61** (nodes): for every dimension and degree, the six permutation arrays exist, are permutations of all the
`(degree + 1) ^ dim` numbers, and relate the node orderings of VTK, basix and the lexicographical one as documented:
node `i` of the first ordering is node `perm[i]` of the second. -/
theorem C61_node_numberings (dim d : Nat) (h1 : 1 ≤ dim) (h3 : dim ≤ 3) (hd : 1 ≤ d) :
    let lexN := indices (List.replicate dim (d + 1))
    let vtkN := (vtk dim).nodes dim (d + 1)
    let dlfN := (basix dim).nodes dim (d + 1)
    vtkN.Perm lexN ∧ dlfN.Perm lexN ∧
    ∃ vl lv dl ld dv vd,
      vtkToLexicg dim d = some vl ∧ lexicgToVtk dim d = some lv ∧ dlfToLexicg dim d = some dl ∧
      lexicgToDlf dim d = some ld ∧ dlfToVtk dim d = some dv ∧ vtkToDlf dim d = some vd ∧
      Reorders vl vtkN lexN ∧ Reorders lv lexN vtkN ∧ Reorders dl dlfN lexN ∧ Reorders ld lexN dlfN ∧
      Reorders dv dlfN vtkN ∧ Reorders vd vtkN dlfN ∧
      vl.Perm (List.range ((d + 1) ^ dim)) ∧ dl.Perm (List.range ((d + 1) ^ dim)) := by
  intro lexN vtkN dlfN
  obtain ⟨V, eV, pV⟩ := vtkTids_perm h1 h3 hd
  obtain ⟨D, eD, pD⟩ := dlfTids_perm h1 h3 hd
  have hV : V = vtkN := by
    have := vtkTids_order h1 h3 hd; rw [eV] at this; exact Option.some.inj this
  have hD : D = dlfN := by
    have := dlfTids_order h1 h3 hd; rw [eD] at this; exact Option.some.inj this
  have e1 : vtkToLexicg dim d = some (V.map fun t => flatIndex t (List.replicate dim (d + 1))) := by
    unfold vtkToLexicg; rw [eV, Option.map_some, toLexicg_spec h1 h3 pV]
  have e2 : dlfToLexicg dim d = some (D.map fun t => flatIndex t (List.replicate dim (d + 1))) := by
    unfold dlfToLexicg; rw [eD, Option.map_some, toLexicg_spec h1 h3 pD]
  have rV := reorders_flat pV
  have rD := reorders_flat pD
  have qV := perm_flat pV
  have qD := perm_flat pD
  have lV : V.length = lexN.length := pV.length_eq
  have lD : D.length = lexN.length := pD.length_eq
  have lN : lexN.length = listProd (List.replicate dim (d + 1)) := length_indices _
  obtain ⟨lv, e3, l3, s3⟩ := invertMap_perm qV
  obtain ⟨ld, e4, l4, s4⟩ := invertMap_perm qD
  have rV' := reorders_inv rV lV (by omega) (fun i hi => s3 i (by omega))
  have rD' := reorders_inv rD lD (by omega) (fun i hi => s4 i (by omega))
  obtain ⟨dv, e5, r5⟩ := reorders_comp rD rV'
  obtain ⟨vd, e6, r6⟩ := reorders_comp rV rD'
  rw [listProd_replicate] at qV qD
  subst hV hD
  refine ⟨pV, pD, _, lv, _, ld, dv, vd, e1, ?_, e2, ?_, ?_, ?_, rV, rV', rD, rD', r5, r6, qV, qD⟩
  · unfold lexicgToVtk; rw [e1]; exact e3
  · unfold lexicgToDlf; rw [e2]; exact e4
  · unfold dlfToVtk lexicgToVtk; rw [e2, e1, Option.bind_some, Option.bind_some, e3]; exact e5
  · unfold vtkToDlf lexicgToDlf; rw [e1, e2, Option.bind_some, Option.bind_some, e4]; exact e6

/-- **C61** (values): nodal values given in one ordering are carried to the other ones by the same arrays. -/
theorem C61_nodal_values {α : Type} (p : List Nat) (a b : List (List Nat)) (h : Reorders p a b) (val : List Nat → α) :
    Reorders p (a.map val) (b.map val) := by
  refine ⟨by rw [List.length_map, h.1], fun i hi => ?_⟩
  rw [List.length_map] at hi
  obtain ⟨j, h1, h2, h3⟩ := h.2 i hi
  refine ⟨j, h1, by rw [List.length_map]; exact h2, ?_⟩
  rw [List.getElem?_map, List.getElem?_map, h3]

/-- The numbers of the corners on lexicographical facet `f`. -/
def lexFacetCorners (c : Numbering) (f : Nat) : List Nat :=
  (List.range c.corners.length).filter fun i => (c.corner i).getD (f / 2) 0 == f % 2

/-- The numbers of the corners on the entity spanned by two opposite corners. -/
def spanned (c : Numbering) (dim : Nat) (p : Nat × Nat) : List Nat :=
  (List.range c.corners.length).filter fun i => (List.range dim).all fun k =>
    (c.corner p.1).getD k 0 != (c.corner p.2).getD k 0 || (c.corner i).getD k 0 == (c.corner p.1).getD k 0

/-- Facet `i` of the numbering is lexicographical facet `table[i]` and the other table is its inverse. -/
def FacetTables (c : Numbering) (dim : Nat) (table inverse : List Nat) : Prop :=
  table.length = 2 * dim ∧ inverse.length = 2 * dim ∧
  (∀ i, i < 2 * dim → ∃ f p, table[i]? = some f ∧ (c.facets dim)[i]? = some p ∧
      lexFacetCorners c f = spanned c dim p) ∧
  ∀ f, f < 2 * dim → ∃ i, inverse[f]? = some i ∧ table[i]? = some f

instance (c : Numbering) (dim : Nat) (t u : List Nat) : Decidable (FacetTables c dim t u) :=
  decidable_of_iff (t.length = 2 * dim ∧ u.length = 2 * dim ∧
    (∀ i, i < 2 * dim → (t[i]?).any fun f => ((c.facets dim)[i]?).any fun p =>
      lexFacetCorners c f == spanned c dim p) ∧
    ∀ f, f < 2 * dim → (u[f]?).any fun i => t[i]? == some f) (by
    unfold FacetTables
    simp only [Option.any_eq_true, beq_iff_eq]
    refine and_congr Iff.rfl (and_congr Iff.rfl (and_congr (forall_congr' fun i => forall_congr' fun _ => ?_) ?_))
    · constructor
      · rintro ⟨f, a, p, b, e⟩; exact ⟨f, p, a, b, e⟩
      · rintro ⟨f, p, a, b, e⟩; exact ⟨f, a, p, b, e⟩
    · exact Iff.rfl)

/-- **C61** (facets): in every dimension, the facet tables between the lexicographical and the basix numberings are
right and inverse of each other. -/
theorem C61_dolfinx_facets (dim : Nat) (h1 : 1 ≤ dim) (h3 : dim ≤ 3) :
    ∃ t u, lexicgToDlfFaces dim = some t ∧ dlfToLexicgFaces dim = some u ∧ FacetTables (basix dim) dim t u := by
  rcases dims h1 h3 with rfl | rfl | rfl
  · exact ⟨_, _, rfl, rfl, by decide⟩
  · exact ⟨_, _, rfl, rfl, by decide⟩
  · exact ⟨_, _, rfl, rfl, by decide⟩

/-- **C61** (facets): in dimensions 1 and 2, so are the tables between the lexicographical and VTK's numberings. -/
theorem C61_vtk_facets_partial (dim : Nat) (h1 : 1 ≤ dim) (h3 : dim ≤ 2) :
    ∃ t u, lexicgToVtkFaces dim = some t ∧ vtkToLexicgFaces dim = some u ∧ FacetTables (vtk dim) dim t u := by
  rcases dims h1 (by omega : dim ≤ 3) with rfl | rfl | rfl
  · exact ⟨_, _, rfl, rfl, by decide⟩
  · exact ⟨_, _, rfl, rfl, by decide⟩
  · omega

/-- **C61** fails for VTK's facets of hexahedra: the tables are inverse of each other, but the facets they relate are
different (VTK's facets of the hexahedron come in lexicographical order). -/
theorem C61_vtk_facets_fail :
    ¬ (∃ t u, lexicgToVtkFaces 3 = some t ∧ vtkToLexicgFaces 3 = some u ∧ FacetTables (vtk 3) 3 t u) ∧
    FacetTables (vtk 3) 3 [0, 1, 2, 3, 4, 5] [0, 1, 2, 3, 4, 5] := by
  constructor
  · rintro ⟨t, u, ht, hu, h⟩
    obtain rfl := Option.some.inj ht
    obtain rfl := Option.some.inj hu
    exact absurd h (by decide)
  · decide

/-- Concrete cases (non-vacuity): degree 2. -/
example : dlfToLexicg 2 2 = some [0, 2, 6, 8, 1, 3, 5, 7, 4] ∧ vtkToLexicg 2 2 = some [0, 2, 8, 6, 1, 5, 7, 3, 4] ∧
    dlfToVtk 2 2 = some [0, 1, 3, 2, 4, 7, 5, 6, 8] := by decide

end Qugar.Py
