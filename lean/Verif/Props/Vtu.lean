import Verif.Model.VtuMask
import Verif.Spec.Vtu
import Verif.Lemmas.Tensor
import Mathlib.Data.List.Perm.Subperm
import Mathlib.Tactic.Ring
/-
Property theorems C39 (VTK node numbering).
-/
namespace Qugar.Vtu
open Spec

theorem mem_mid {n i : Nat} : i ∈ mid n ↔ 0 < i ∧ i < n - 1 := by
  unfold mid; rw [List.mem_range'_1]; omega

theorem dims {dim : Nat} (h1 : 0 < dim) (h3 : dim ≤ 3) : dim = 1 ∨ dim = 2 ∨ dim = 3 := by omega

theorem flatMap_sing {α β : Type} (l : List α) (f : α → β) : (l.flatMap fun a => [f a]) = l.map f := by
  induction l with
  | nil => rfl
  | cons a l ih => rw [List.flatMap_cons, ih]; rfl

set_option maxHeartbeats 4000000 in
/-- **C39** (order): the nodes are written in VTK's order. -/
theorem C39_vtk_order (dim n : Nat) (h1 : 0 < dim) (h3 : dim ≤ 3) : tids dim n = Vtk.nodes dim n := by
  rcases dims h1 h3 with rfl | rfl | rfl
  · simp [tids, tids1, Vtk.nodes, Vtk.entities, Vtk.corners, Vtk.edges, Vtk.faces, Vtk.inside, List.range_succ, mid]
  · simp [tids, tids2, Vtk.nodes, Vtk.entities, Vtk.corners, Vtk.edges, Vtk.faces, Vtk.inside, List.range_succ, mid,
      List.replicate, List.flatMap_map, flatMap_sing]
  · have h1 : vertices3 n = Vtk.entities 3 n ((List.range (Vtk.corners 3).length).map fun c => (c, c)) := by
      simp [vertices3, Vtk.entities, Vtk.corners, Vtk.inside, List.range_succ]
    have h2 : (edges3 n).flatten = Vtk.entities 3 n (Vtk.edges 3) := by
      simp [edges3, Vtk.entities, Vtk.corners, Vtk.edges, Vtk.inside, mid, List.flatMap_map, flatMap_sing]
    have h3 : (faces3 n).flatten = Vtk.entities 3 n (Vtk.faces 3) := by
      simp [faces3, Vtk.entities, Vtk.corners, Vtk.faces, Vtk.inside, mid, List.flatMap_map, flatMap_sing,
        List.flatMap_assoc, List.map_flatMap]
    have h4 : interior3 n = Vtk.inside n (List.replicate 3 0) (List.replicate 3 1) := by
      simp [interior3, Vtk.inside, mid, List.flatMap_map, List.flatMap_assoc, List.replicate]
    simp only [tids, tids3, Vtk.nodes, h1, h2, h3, h4]
    rfl

theorem length_flatMap_const {α β : Type} (l : List α) (f : α → List β) (c : Nat) (h : ∀ a ∈ l, (f a).length = c) :
    (l.flatMap f).length = l.length * c := by
  rw [List.length_flatMap]
  induction l with
  | nil => simp
  | cons a l ih =>
    rw [List.map_cons, List.sum_cons, ih fun b hb => h b (List.mem_cons_of_mem _ hb), h a (List.mem_cons_self ..),
      List.length_cons]
    ring

set_option maxHeartbeats 4000000 in
theorem tids_length (dim n : Nat) (h1 : 0 < dim) (h3 : dim ≤ 3) (hn : 1 < n) : (tids dim n).length = n ^ dim := by
  obtain ⟨m, rfl⟩ : ∃ m, n = m + 2 := ⟨n - 2, by omega⟩
  have hm : (mid (m + 2)).length = m := by simp [mid]
  rcases dims h1 h3 with rfl | rfl | rfl
  · simp [tids, tids1, hm]
  · simp [tids, tids2, hm]; ring
  · simp [tids, tids3, vertices3, edges3, faces3, interior3, hm]; ring

set_option maxHeartbeats 8000000 in
theorem mem_tids (dim n : Nat) (h1 : 0 < dim) (h3 : dim ≤ 3) (hn : 1 < n) (t : List Nat) (ht : t.length = dim)
    (hlt : ∀ k, k < dim → t.getD k 0 < n) : t ∈ tids dim n := by
  have key : ∀ i, i < n → i = 0 ∨ i = n - 1 ∨ i ∈ mid n := by
    intro i hi; rw [mem_mid]; omega
  rcases dims h1 h3 with rfl | rfl | rfl
  · match t, ht with
    | [a], _ =>
      have ha := hlt 0 (by omega)
      simp only [List.getD_cons_zero] at ha
      simp only [tids, tids1, if_true, List.mem_append, List.mem_cons, List.mem_map]
      rcases key a ha with rfl | rfl | ha
      · simp
      · simp
      · exact Or.inr ⟨a, ha, rfl⟩
  · match t, ht with
    | [a, b], _ =>
      have ha := hlt 0 (by omega)
      have hb := hlt 1 (by omega)
      simp only [List.getD_cons_zero, List.getD_cons_succ] at ha hb
      simp only [tids, tids2, if_true, List.mem_append, List.mem_cons, List.mem_map, List.mem_flatMap]
      rcases key a ha with rfl | rfl | ha <;> rcases key b hb with rfl | rfl | hb <;> simp [*]
  · match t, ht with
    | [a, b, c], _ =>
      have ha := hlt 0 (by omega)
      have hb := hlt 1 (by omega)
      have hc := hlt 2 (by omega)
      simp only [List.getD_cons_zero, List.getD_cons_succ] at ha hb hc
      rcases key a ha with rfl | rfl | ha <;> rcases key b hb with rfl | rfl | hb <;>
        rcases key c hc with rfl | rfl | hc <;>
          simp [*, tids, tids3, vertices3, edges3, faces3, interior3]

theorem tids_perm (dim n : Nat) (h1 : 0 < dim) (h3 : dim ≤ 3) (hn : 1 < n) :
    (tids dim n).Perm (rangeList (List.replicate dim 0) (List.replicate dim n)) := by
  refine ((List.Nodup.subperm (nodup_rangeList _ _) ?_).perm_of_length_le ?_).symm
  · intro t ht
    obtain ⟨e1, e2, h⟩ := mem_rangeList.1 ht
    rw [List.length_replicate] at e1
    refine mem_tids dim n h1 h3 hn t e1 fun k hk => ?_
    have := (h k (by omega)).2
    rwa [List.getD_replicate _ hk] at this
  · rw [tids_length dim n h1 h3 hn, length_rangeList _ _ (by simp)]
    rcases dims h1 h3 with rfl | rfl | rfl <;> simp [listProd, List.replicate] <;> ring_nf <;> rfl

theorem tids_inSize (dim n : Nat) (h1 : 0 < dim) (h3 : dim ≤ 3) (hn : 1 < n) (t : List Nat) (ht : t ∈ tids dim n) :
    InSize (List.replicate dim n) t := by
  have := mem_rangeList.1 ((tids_perm dim n h1 h3 hn).mem_iff.1 ht)
  refine ⟨this.2.1, fun k hk => (this.2.2 k (by rw [this.2.1]; exact hk)).2⟩

theorem listProd_replicate (dim n : Nat) : listProd (List.replicate dim n) = n ^ dim := by
  induction dim with
  | zero => rfl
  | succ d ih => rw [List.replicate_succ, listProd, ih]; ring

theorem mapM_flat (s : List Nat) (l : List (List Nat)) (h : ∀ t ∈ l, InSize s t) :
    l.mapM (fun t => flat t s) = some (l.map fun t => flatIndex t s) := by
  induction l with
  | nil => rfl
  | cons t l ih =>
    rw [List.mapM_cons, flat_eq (h t (List.mem_cons_self ..)), ih fun u hu => h u (List.mem_cons_of_mem _ hu)]
    rfl

theorem mask_eq (dim n : Nat) (h1 : 0 < dim) (h3 : dim ≤ 3) (hn : 1 < n) :
    mask dim n = some ((tids dim n).map fun t => flatIndex t (List.replicate dim n)) := by
  unfold mask
  rw [if_pos hn, mapM_flat _ _ (tids_inSize dim n h1 h3 hn)]

/-- **C39** (bijection): the mask exists for every order of at least 2, its entry `k` is the flat index of VTK's node `k`,
and it is a permutation of all the `order ^ dim` flat indices. -/
theorem C39_mask_permutation (dim n : Nat) (h1 : 0 < dim) (h3 : dim ≤ 3) (hn : 1 < n) :
    ∃ m, mask dim n = some m ∧ m = (Vtk.nodes dim n).map (fun t => flatIndex t (List.replicate dim n)) ∧
      m.Perm (List.range (n ^ dim)) := by
  refine ⟨_, mask_eq dim n h1 h3 hn, by rw [C39_vtk_order dim n h1 h3], ?_⟩
  have hlen : ((tids dim n).map fun t => flatIndex t (List.replicate dim n)).length = n ^ dim := by
    rw [List.length_map, tids_length dim n h1 h3 hn]
  refine ((List.Nodup.subperm List.nodup_range ?_).perm_of_length_le ?_).symm
  · intro k hk
    rw [List.mem_range, ← listProd_replicate] at hk
    refine List.mem_map.2 ⟨unflatRec (List.replicate dim n) k, ?_, flatIndex_unflatRec hk⟩
    obtain ⟨e, h⟩ := forall2_lt_iff_inSize.1 (unflatRec_lt (s := List.replicate dim n) (fl := k) (by omega))
    rw [List.length_replicate] at e h
    refine mem_tids dim n h1 h3 hn _ e fun j hj => ?_
    have := h j hj
    rwa [List.getD_replicate _ hj] at this
  · rw [hlen, List.length_range]

set_option maxHeartbeats 4000000 in
/-- **C39** (corners): the first `2 ^ dim` entries are the corners of the cell. -/
theorem C39_corners_first (dim n : Nat) (h1 : 0 < dim) (h3 : dim ≤ 3) (hn : 1 < n) (m : List Nat)
    (hm : mask dim n = some m) : (m.take (2 ^ dim)).Perm
      ((rangeList (List.replicate dim 0) (List.replicate dim 2)).map fun s =>
        flatIndex (s.map (· * (n - 1))) (List.replicate dim n)) := by
  rw [mask_eq dim n h1 h3 hn] at hm
  obtain rfl := Option.some.inj hm
  rcases dims h1 h3 with rfl | rfl | rfl
  · simp [tids, tids1, rangeList, List.replicate, List.range'_succ]
  · simp only [tids, tids2, rangeList, List.replicate, List.range'_succ]
    simp
    exact List.Perm.swap _ _ _
  · simp only [tids, tids3, vertices3, rangeList, List.replicate, List.range'_succ]
    simp
    exact (List.Perm.swap _ _ _).trans (List.Perm.cons _ (List.Perm.cons _ (List.Perm.cons _ (List.Perm.cons _
      (List.Perm.swap _ _ _)))))

/-- **C39** (cells): the connectivity written for a cell is a permutation of the cell's connectivity. -/
theorem C39_written_cell (dim n : Nat) (h1 : 0 < dim) (h3 : dim ≤ 3) (hn : 1 < n) (cell : List Nat)
    (hc : cell.length = n ^ dim) : ∃ w, writeCell dim n cell = some w ∧ w.Perm cell := by
  obtain ⟨m, hm, -, hp⟩ := C39_mask_permutation dim n h1 h3 hn
  have h : ∀ l : List Nat, (∀ k ∈ l, k < cell.length) → l.mapM (fun k => cell[k]?) = some (l.map fun k => cell.getD k 0) := by
    intro l
    induction l with
    | nil => intro _; rfl
    | cons k l ih =>
      intro hl
      rw [List.mapM_cons, ih fun j hj => hl j (List.mem_cons_of_mem _ hj),
        List.getElem?_eq_getElem (hl k (List.mem_cons_self ..))]
      simp [List.getD_eq_getElem?_getD, hl k (List.mem_cons_self ..)]
  refine ⟨m.map fun k => cell.getD k 0, ?_, (hp.map _).trans ?_⟩
  · unfold writeCell
    rw [hm]
    exact h m fun k hk => by rw [hc]; exact List.mem_range.1 (hp.mem_iff.1 hk)
  · rw [← hc]
    have : (List.range cell.length).map (fun k => cell.getD k 0) = cell := by
      apply List.ext_getElem
      · simp
      · intro i a b; simp [List.getD_eq_getElem?_getD, List.getElem?_eq_getElem b]
    rw [this]

/-- **C39** (types): the cell types are VTK's. -/
theorem C39_cell_type (dim n : Nat) (h1 : 0 < dim) (h3 : dim ≤ 3) (hn : 1 < n) :
    cellType dim n = (if n = 2 then Vtk.cellTypes.1 else Vtk.cellTypes.2)[dim - 1]? := by
  unfold cellType
  rw [if_pos hn]
  rcases dims h1 h3 with rfl | rfl | rfl <;> by_cases h : n = 2 <;> simp [h, Vtk.cellTypes]

/-- Concrete case (non-vacuity). -/
example : mask 2 4 = some [0, 3, 15, 12, 1, 2, 7, 11, 13, 14, 4, 8, 5, 6, 9, 10] := by decide

end Qugar.Vtu
