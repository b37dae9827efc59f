import Verif.Model.PyNumbering
import Verif.Spec.Numbering
import Verif.Lemmas.TensorSum
import Mathlib.Data.List.Perm.Subperm
import Mathlib.Tactic.Ring
/-
Lemmas on the node numberings (mesh/utils.py).
-/
namespace Qugar.Py
open Spec Spec.Cell TS

theorem mem_inner {d i : Nat} : i ∈ inner d ↔ 0 < i ∧ i < d := by
  unfold inner; rw [List.mem_range'_1]; omega

theorem dims {dim : Nat} (h1 : 1 ≤ dim) (h3 : dim ≤ 3) : dim = 1 ∨ dim = 2 ∨ dim = 3 := by omega

theorem inner_length (m : Nat) : (inner (m + 1)).length = m := by simp [inner]

theorem listProd_replicate (dim n : Nat) : listProd (List.replicate dim n) = n ^ dim := by
  induction dim with
  | zero => rfl
  | succ d ih => rw [List.replicate_succ, listProd, ih]; ring

theorem mem_indices_replicate {dim n : Nat} {t : List Nat} :
    t ∈ indices (List.replicate dim n) ↔ t.length = dim ∧ ∀ k, k < dim → t.getD k 0 < n := by
  rw [mem_indices, forall2_lt_iff_inSize]
  constructor
  · rintro ⟨h1, h2⟩
    rw [List.length_replicate] at h1 h2
    refine ⟨h1, fun k hk => ?_⟩
    have := h2 k hk
    rwa [List.getD_replicate _ hk] at this
  · rintro ⟨h1, h2⟩
    refine ⟨by rw [h1, List.length_replicate], fun k hk => ?_⟩
    rw [List.length_replicate] at hk
    rw [List.getD_replicate _ hk]
    exact h2 k hk

theorem length_indices (s : List Nat) : (indices s).length = listProd s := by
  have := congrArg List.length (indices_flat s)
  rwa [List.length_map, List.length_range] at this

/-- A list that has all the lattice points and as many entries as the lattice is a permutation of it. -/
theorem perm_lattice {dim n : Nat} {L : List (List Nat)} (hl : L.length = n ^ dim)
    (h : ∀ t : List Nat, t.length = dim → (∀ k, k < dim → t.getD k 0 < n) → t ∈ L) :
    L.Perm (indices (List.replicate dim n)) := by
  refine ((List.Nodup.subperm (nodup_indices _) ?_).perm_of_length_le ?_).symm
  · intro t ht
    obtain ⟨h1, h2⟩ := mem_indices_replicate.1 ht
    exact h t h1 h2
  · rw [hl, length_indices, listProd_replicate]

set_option maxHeartbeats 8000000 in
theorem vtkTids_perm {dim d : Nat} (h1 : 1 ≤ dim) (h3 : dim ≤ 3) (hd : 1 ≤ d) :
    ∃ L, vtkTids dim d = some L ∧ L.Perm (indices (List.replicate dim (d + 1))) := by
  have key : ∀ i, i < d + 1 → i = 0 ∨ i = d ∨ i ∈ inner d := by
    intro i hi; rw [mem_inner]; omega
  unfold vtkTids
  rw [if_neg (by omega)]
  obtain ⟨m, rfl⟩ : ∃ m, d = m + 1 := ⟨d - 1, by omega⟩
  have hm := inner_length m
  rcases dims h1 h3 with rfl | rfl | rfl
  · refine ⟨_, rfl, perm_lattice (by simp [vtk1, hm]) ?_⟩
    intro t ht hlt
    match t, ht with
    | [a], _ =>
      have ha := hlt 0 (by omega)
      simp only [List.getD_cons_zero] at ha
      rcases key a ha with rfl | rfl | ha <;> simp [vtk1, *]
  · refine ⟨_, rfl, perm_lattice (by simp [vtk2, hm]; ring) ?_⟩
    intro t ht hlt
    match t, ht with
    | [a, b], _ =>
      have ha := hlt 0 (by omega)
      have hb := hlt 1 (by omega)
      simp only [List.getD_cons_zero, List.getD_cons_succ] at ha hb
      rcases key a ha with rfl | rfl | ha <;> rcases key b hb with rfl | rfl | hb <;> simp [vtk2, *]
  · refine ⟨_, rfl, perm_lattice (by simp [vtk3, vtkVertices3, vtkEdges3, vtkFaces3, interior3, hm]; ring) ?_⟩
    intro t ht hlt
    match t, ht with
    | [a, b, c], _ =>
      have ha := hlt 0 (by omega)
      have hb := hlt 1 (by omega)
      have hc := hlt 2 (by omega)
      simp only [List.getD_cons_zero, List.getD_cons_succ] at ha hb hc
      rcases key a ha with rfl | rfl | ha <;> rcases key b hb with rfl | rfl | hb <;>
        rcases key c hc with rfl | rfl | hc <;>
          simp [*, vtk3, vtkVertices3, vtkEdges3, vtkFaces3, interior3]

set_option maxHeartbeats 8000000 in
theorem dlfTids_perm {dim d : Nat} (h1 : 1 ≤ dim) (h3 : dim ≤ 3) (hd : 1 ≤ d) :
    ∃ L, dlfTids dim d = some L ∧ L.Perm (indices (List.replicate dim (d + 1))) := by
  have key : ∀ i, i < d + 1 → i = 0 ∨ i = d ∨ i ∈ inner d := by
    intro i hi; rw [mem_inner]; omega
  unfold dlfTids
  rw [if_neg (by omega)]
  obtain ⟨m, rfl⟩ : ∃ m, d = m + 1 := ⟨d - 1, by omega⟩
  have hm := inner_length m
  rcases dims h1 h3 with rfl | rfl | rfl
  · refine ⟨_, rfl, perm_lattice (by simp [dlf1, hm]) ?_⟩
    intro t ht hlt
    match t, ht with
    | [a], _ =>
      have ha := hlt 0 (by omega)
      simp only [List.getD_cons_zero] at ha
      rcases key a ha with rfl | rfl | ha <;> simp [dlf1, *]
  · refine ⟨_, rfl, perm_lattice (by simp [dlf2, hm]; ring) ?_⟩
    intro t ht hlt
    match t, ht with
    | [a, b], _ =>
      have ha := hlt 0 (by omega)
      have hb := hlt 1 (by omega)
      simp only [List.getD_cons_zero, List.getD_cons_succ] at ha hb
      rcases key a ha with rfl | rfl | ha <;> rcases key b hb with rfl | rfl | hb <;> simp [dlf2, *]
  · refine ⟨_, rfl, perm_lattice (by simp [dlf3, dlfVertices3, dlfEdges3, dlfFaces3, interior3, hm]; ring) ?_⟩
    intro t ht hlt
    match t, ht with
    | [a, b, c], _ =>
      have ha := hlt 0 (by omega)
      have hb := hlt 1 (by omega)
      have hc := hlt 2 (by omega)
      simp only [List.getD_cons_zero, List.getD_cons_succ] at ha hb hc
      rcases key a ha with rfl | rfl | ha <;> rcases key b hb with rfl | rfl | hb <;>
        rcases key c hc with rfl | rfl | hc <;>
          simp [*, dlf3, dlfVertices3, dlfEdges3, dlfFaces3, interior3]

theorem flatMap_sing {α β : Type} (l : List α) (f : α → β) : (l.flatMap fun a => [f a]) = l.map f := by
  induction l with
  | nil => rfl
  | cons a l ih => rw [List.flatMap_cons, ih]; rfl

set_option maxHeartbeats 8000000 in
theorem vtkTids_order {dim d : Nat} (h1 : 1 ≤ dim) (h3 : dim ≤ 3) (hd : 1 ≤ d) :
    vtkTids dim d = some ((vtk dim).nodes dim (d + 1)) := by
  unfold vtkTids
  rw [if_neg (by omega)]
  have hi : List.range' 1 (d + 1 - 2) = inner d := rfl
  rcases dims h1 h3 with rfl | rfl | rfl <;> refine congrArg some ?_
  · simp [vtk1, Numbering.nodes, vtk, Numbering.corner, Vtk.inside, List.range_succ, inner, List.replicate]
  · simp [vtk2, Numbering.nodes, vtk, Numbering.corner, Vtk.inside, List.range_succ, inner, List.replicate, List.flatMap_map,
      flatMap_sing]
  · have e1 : vtkVertices3 d = (List.range (vtk 3).corners.length).flatMap
        (fun i => Vtk.inside (d + 1) ((vtk 3).corner i) ((vtk 3).corner i)) := by
      simp [vtkVertices3, vtk, Numbering.corner, Vtk.inside, List.range_succ]
    have e2 : (vtkEdges3 d).flatten = (vtk 3).edges.flatMap
        (fun p => Vtk.inside (d + 1) ((vtk 3).corner p.1) ((vtk 3).corner p.2)) := by
      simp [vtkEdges3, vtk, Numbering.corner, Vtk.inside, inner, List.flatMap_map, flatMap_sing]
    have e3 : (vtkFaces3 d).flatten = (vtk 3).faces.flatMap
        (fun p => Vtk.inside (d + 1) ((vtk 3).corner p.1) ((vtk 3).corner p.2)) := by
      simp [vtkFaces3, vtk, Numbering.corner, Vtk.inside, inner, List.flatMap_map, flatMap_sing, List.flatMap_assoc,
        List.map_flatMap]
    have e4 : interior3 d = Vtk.inside (d + 1) (List.replicate 3 0) (List.replicate 3 1) := by
      simp [interior3, Vtk.inside, inner, List.flatMap_map, List.flatMap_assoc, List.replicate]
    simp only [vtk3, Numbering.nodes, e1, e2, e3, e4]

set_option maxHeartbeats 8000000 in
theorem dlfTids_order {dim d : Nat} (h1 : 1 ≤ dim) (h3 : dim ≤ 3) (hd : 1 ≤ d) :
    dlfTids dim d = some ((basix dim).nodes dim (d + 1)) := by
  unfold dlfTids
  rw [if_neg (by omega)]
  rcases dims h1 h3 with rfl | rfl | rfl <;> refine congrArg some ?_
  · simp [dlf1, Numbering.nodes, basix, Numbering.corner, Vtk.inside, List.range_succ, inner, List.replicate]
  · simp [dlf2, Numbering.nodes, basix, Numbering.corner, Vtk.inside, List.range_succ, inner, List.replicate,
      List.flatMap_map, flatMap_sing]
  · have e1 : dlfVertices3 d = (List.range (basix 3).corners.length).flatMap
        (fun i => Vtk.inside (d + 1) ((basix 3).corner i) ((basix 3).corner i)) := by
      simp [dlfVertices3, basix, Numbering.corner, Vtk.inside, List.range_succ]
    have e2 : (dlfEdges3 d).flatten = (basix 3).edges.flatMap
        (fun p => Vtk.inside (d + 1) ((basix 3).corner p.1) ((basix 3).corner p.2)) := by
      simp [dlfEdges3, basix, Numbering.corner, Vtk.inside, inner, List.flatMap_map, flatMap_sing]
    have e3 : (dlfFaces3 d).flatten = (basix 3).faces.flatMap
        (fun p => Vtk.inside (d + 1) ((basix 3).corner p.1) ((basix 3).corner p.2)) := by
      simp [dlfFaces3, basix, Numbering.corner, Vtk.inside, inner, List.flatMap_map, flatMap_sing, List.flatMap_assoc,
        List.map_flatMap]
    have e4 : interior3 d = Vtk.inside (d + 1) (List.replicate 3 0) (List.replicate 3 1) := by
      simp [interior3, Vtk.inside, inner, List.flatMap_map, List.flatMap_assoc, List.replicate]
    simp only [dlf3, Numbering.nodes, e1, e2, e3, e4]

theorem tensorToFlat_eq {dim d : Nat} (h1 : 1 ≤ dim) (h3 : dim ≤ 3) {t : List Nat} (ht : t.length = dim) :
    tensorToFlat d t = flatIndex t (List.replicate dim (d + 1)) := by
  rcases dims h1 h3 with rfl | rfl | rfl
  · match t, ht with
    | [a], _ => simp [tensorToFlat, flatIndex, List.replicate]
  · match t, ht with
    | [a, b], _ => simp [tensorToFlat, flatIndex, List.replicate]; ring
  · match t, ht with
    | [a, b, c], _ => simp [tensorToFlat, flatIndex, List.replicate]; ring

end Qugar.Py
