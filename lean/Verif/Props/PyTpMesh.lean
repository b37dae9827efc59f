import Verif.Lemmas.PyTpMesh
import Mathlib.Algebra.Order.Field.Basic
import Mathlib.Tactic.Linarith
/-
Property theorems C63 (connectivity and nodes of tensor-product meshes, python/qugar/mesh/tp_mesh.py).
-/
namespace Qugar.Py
open Spec Spec.Cell TS

/-- Lattice index of node `t` (of the lattice with `d + 1` points per direction of the cell) of the cell with tensor
index `c`. -/
def nodeOf (d : Nat) (c t : List Nat) : List Nat := List.zipWith (fun ci ti => ci * d + ti) c t

/-- Number of lattice points per direction of a mesh of degree `d`. -/
def latticeSize (d : Nat) (nCells : List Nat) : List Nat := nCells.map fun n => n * d + 1

/-- The point of the cell `c` of the grid with the given breaks at the relative coordinates `t / d`. -/
def pointOf {K : Type} [Field K] (d : Nat) (breaks : List (List K)) (c t : List Nat) : List K :=
  (List.range breaks.length).map fun k =>
    let lo := (breaks.getD k []).getD (c.getD k 0) 0
    let up := (breaks.getD k []).getD (c.getD k 0 + 1) 0
    lo + (t.getD k 0 : K) / (d : K) * (up - lo)

/-- C63: connectivity. Row `flatIndex c` is that of the cell with tensor index `c`; its nodes are in the order of basix,
numbered lexicographically in the lattice of the mesh. -/
theorem C63_connectivity {d : Nat} {nCells : List Nat} (hd : 1 ≤ d) (h1 : 1 ≤ nCells.length) (h3 : nCells.length ≤ 3)
    (hpos : ∀ n ∈ nCells, 0 < n) :
    ∃ conn, meshConn d nCells = some conn ∧ conn.length = listProd nCells ∧
      ∀ c, InSize nCells c → ∃ row, conn[flatIndex c nCells]? = some row ∧ row.length = (d + 1) ^ nCells.length ∧
        ∀ (j : Nat) (t : List Nat), ((basix nCells.length).nodes nCells.length (d + 1))[j]? = some t →
          row[j]? = some (flatIndex (nodeOf d c t) (latticeSize d nCells)) := by
  refine ⟨_, meshConn_eq hd h1 h3 hpos, by rw [List.length_map, length_indices], fun c hc => ?_⟩
  have hm : c ∈ indices nCells := mem_indices.2 (forall2_lt_iff_inSize.2 hc)
  refine ⟨_, by rw [List.getElem?_map, indices_at hm]; rfl, ?_, ?_⟩
  · rw [List.length_map, (nodes_perm h1 h3 hd).length_eq, length_indices, listProd_replicate]
  · intro j t h
    rw [List.getElem?_map, h]
    rfl

theorem basix_node_mem {dim d : Nat} (h1 : 1 ≤ dim) (h3 : dim ≤ 3) (hd : 1 ≤ d) {t : List Nat}
    (ht : t ∈ (basix dim).nodes dim (d + 1)) : t.length = dim ∧ ∀ k, k < dim → t.getD k 0 ≤ d := by
  obtain ⟨h, h'⟩ := mem_indices_replicate.1 ((nodes_perm h1 h3 hd).mem_iff.1 ht)
  exact ⟨h, fun k hk => by have := h' k hk; omega⟩

theorem nodeOf_inSize {d : Nat} {nCells c t : List Nat} (hc : InSize nCells c) (ht : t.length = nCells.length)
    (htd : ∀ k, k < nCells.length → t.getD k 0 ≤ d) : InSize (latticeSize d nCells) (nodeOf d c t) := by
  have hl : (nodeOf d c t).length = nCells.length := by simp [nodeOf, hc.1, ht]
  refine ⟨by rw [hl]; simp [latticeSize], fun k hk => ?_⟩
  have hk : k < nCells.length := by simpa [latticeSize] using hk
  have h1 := hc.2 k hk
  have h2 := htd k hk
  have hkc : k < c.length := by rw [hc.1]; exact hk
  rw [List.getD_eq_getElem _ _ hkc, List.getD_eq_getElem _ _ hk] at h1
  rw [List.getD_eq_getElem _ _ (by omega)] at h2
  rw [List.getD_eq_getElem _ _ (by omega), List.getD_eq_getElem _ _ (by simpa [latticeSize] using hk)]
  simp only [nodeOf, latticeSize, List.getElem_zipWith, List.getElem_map]
  have : (c[k] + 1) * d ≤ nCells[k] * d := Nat.mul_le_mul_right d h1
  have e : (c[k] + 1) * d = c[k] * d + d := by ring
  omega

section Coordinates
variable {K : Type} [Field K]

/-- The two expressions of a point: by lattice index and by cell. -/
theorem pointAt_cell [CharZero K] {d : Nat} (hd : 1 ≤ d) (b : List K) (c t : Nat) (ht : t ≤ d) :
    pointAt d b (c * d + t) = b.getD c 0 + (t : K) / (d : K) * (b.getD (c + 1) 0 - b.getD c 0) := by
  have hd0 : (d : K) ≠ 0 := Nat.cast_ne_zero.2 (by omega)
  rcases Nat.lt_or_eq_of_le ht with h | rfl
  · unfold pointAt
    rw [Nat.mul_comm c d, Nat.mul_add_div (by omega), Nat.div_eq_of_lt h, Nat.add_zero, Nat.mul_add_mod,
      Nat.mod_eq_of_lt h]
  · unfold pointAt
    have e : c * t + t = (c + 1) * t := by ring
    rw [e, Nat.mul_div_cancel _ (by omega), Nat.mul_mod_left, div_self hd0]
    simp

/-- C63: nodes. The node of the lattice that is node `t` of cell `c` has the coordinates of the point of that cell at
relative coordinates `t / d`, whichever of the cells that have it is taken; the uninitialized values play no role. -/
theorem C63_nodes [CharZero K] {d : Nat} (hd : 1 ≤ d) {breaks : List (List K)} (h2 : 2 ≤ breaks.length)
    (h3 : breaks.length ≤ 3) (nCells : List Nat) (hb : breaks.map List.length = nCells.map (· + 1)) (junk : Nat → K) :
    ∃ nodes, nodesFromCells d breaks junk = some nodes ∧ nodes.length = listProd (latticeSize d nCells) ∧
      ∀ c t, InSize nCells c → t.length = nCells.length → (∀ k, k < nCells.length → t.getD k 0 ≤ d) →
        nodes[flatIndex (nodeOf d c t) (latticeSize d nCells)]? = some (pointOf d breaks c t) := by
  have hl : breaks.length = nCells.length := by simpa using congrArg List.length hb
  have hb1 : ∀ b ∈ breaks, 1 ≤ b.length := by
    intro b hbm
    have : b.length ∈ nCells.map (· + 1) := hb ▸ List.mem_map_of_mem hbm
    obtain ⟨n, -, hn⟩ := List.mem_map.1 this
    omega
  have hn : breaks.map (·.length - 1) = nCells := by
    have : (breaks.map List.length).map (· - 1) = (nCells.map (· + 1)).map (· - 1) := by rw [hb]
    simpa [Function.comp_def] using this
  refine ⟨_, nodesFromCells_eq hd h2 h3 hb1 junk, ?_, fun c t hc ht htd => ?_⟩
  · rw [List.length_map, length_indices, hn]; rfl
  · have hm : nodeOf d c t ∈ indices (numPts d nCells) :=
      mem_indices.2 (forall2_lt_iff_inSize.2 (nodeOf_inSize hc ht htd))
    rw [List.getElem?_map, hn]
    rw [show latticeSize d nCells = numPts d nCells from rfl, indices_at hm]
    refine congrArg some (List.ext_getElem ?_ fun k hk1 hk2 => ?_)
    · simp [pointOf, nodeOf, hc.1, ht, hl]
    · have hk : k < breaks.length := by simpa [pointOf] using hk2
      have hkc : k < c.length := by rw [hc.1]; omega
      have hkt : k < t.length := by omega
      have htk := htd k (by omega)
      rw [List.getD_eq_getElem _ _ hkt] at htk
      simp only [pointOf, nodeOf, List.getElem_zipWith, List.getElem_map, List.getElem_range]
      rw [pointAt_cell hd _ _ _ htk, List.getD_eq_getElem _ [] hk, List.getD_eq_getElem _ 0 hkc,
        List.getD_eq_getElem _ 0 hkt]

/-- C63: the geometry of the cells. Node `j` of the row of the cell `c` has the coordinates of the `j`-th node of the basix
element mapped to the box of that cell. -/
theorem C63_cells [CharZero K] {d : Nat} (hd : 1 ≤ d) {breaks : List (List K)} (h2 : 2 ≤ breaks.length)
    (h3 : breaks.length ≤ 3) (nCells : List Nat) (hpos : ∀ n ∈ nCells, 0 < n)
    (hb : breaks.map List.length = nCells.map (· + 1)) (junk : Nat → K) :
    ∃ conn nodes, meshConn d nCells = some conn ∧ nodesFromCells d breaks junk = some nodes ∧
      ∀ c, InSize nCells c → ∃ row, conn[flatIndex c nCells]? = some row ∧ row.length = (d + 1) ^ nCells.length ∧
        ∀ (j : Nat) (t : List Nat), ((basix nCells.length).nodes nCells.length (d + 1))[j]? = some t →
          ∃ id, row[j]? = some id ∧ nodes[id]? = some (pointOf d breaks c t) := by
  have hl : breaks.length = nCells.length := by simpa using congrArg List.length hb
  obtain ⟨conn, hc1, -, hc2⟩ := C63_connectivity (nCells := nCells) hd (by omega) (by omega) hpos
  obtain ⟨nodes, hn1, -, hn2⟩ := C63_nodes hd h2 h3 nCells hb junk
  refine ⟨conn, nodes, hc1, hn1, fun c hc => ?_⟩
  obtain ⟨row, hr1, hr2, hr3⟩ := hc2 c hc
  refine ⟨row, hr1, hr2, fun j t hj => ⟨_, hr3 j t hj, ?_⟩⟩
  obtain ⟨ht, htd⟩ := basix_node_mem (by omega) (by omega) hd (List.mem_of_getElem? hj)
  exact hn2 c t hc ht htd

end Coordinates

theorem flatIndex_inj {s a b : List Nat} (ha : InSize s a) (hb : InSize s b) (h : flatIndex a s = flatIndex b s) : a = b := by
  have e1 := indices_at (mem_indices.2 (forall2_lt_iff_inSize.2 ha))
  have e2 := indices_at (mem_indices.2 (forall2_lt_iff_inSize.2 hb))
  rw [h, e2] at e1
  exact (Option.some.inj e1).symm

section Ordered
variable {K : Type} [Field K] [LinearOrder K] [IsStrictOrderedRing K]

/-- Points of one direction are in increasing order. -/
theorem pointAt_succ {d n : Nat} (hd : 1 ≤ d) {b : List K} (hb : b.length = n + 1) (hs : b.Pairwise (· < ·)) {k : Nat}
    (hk : k + 1 < n * d + 1) : pointAt d b k < pointAt d b (k + 1) := by
  have hq : k / d < n := Nat.div_lt_of_lt_mul (by rw [Nat.mul_comm]; omega)
  have hr : k % d < d := Nat.mod_lt _ (by omega)
  have e : k = (k / d) * d + k % d := (Nat.div_add_mod' k d).symm
  have hlt : b.getD (k / d) 0 < b.getD (k / d + 1) 0 := by
    rw [List.getD_eq_getElem _ _ (by omega), List.getD_eq_getElem _ _ (by omega)]
    exact List.pairwise_iff_getElem.1 hs _ _ _ _ (by omega)
  have h1 := pointAt_cell hd b (k / d) (k % d) hr.le
  have h2 := pointAt_cell hd b (k / d) (k % d + 1) hr
  rw [← Nat.add_assoc] at h2
  rw [← e] at h1 h2
  rw [h1, h2]
  have hd0 : (0 : K) < d := Nat.cast_pos.2 (by omega)
  have : ((k % d : Nat) : K) / d < ((k % d + 1 : Nat) : K) / d := by
    apply div_lt_div_of_pos_right _ hd0
    exact_mod_cast Nat.lt_succ_self _
  nlinarith [mul_pos (sub_pos.2 this) (sub_pos.2 hlt)]

theorem pointAt_lt {d n : Nat} (hd : 1 ≤ d) {b : List K} (hb : b.length = n + 1) (hs : b.Pairwise (· < ·)) {k l : Nat}
    (hkl : k < l) (hl : l < n * d + 1) : pointAt d b k < pointAt d b l := by
  induction l, hkl using Nat.le_induction with
  | base => exact pointAt_succ hd hb hs hl
  | succ l hkl ih => exact (ih (by omega)).trans (pointAt_succ hd hb hs hl)

theorem pointOf_eq {d : Nat} (hd : 1 ≤ d) {breaks : List (List K)} {c t : List Nat} (hc : c.length = breaks.length)
    (ht : t.length = breaks.length) (htd : ∀ k, k < breaks.length → t.getD k 0 ≤ d) :
    pointOf d breaks c t = List.zipWith (pointAt d) breaks (nodeOf d c t) := by
  refine List.ext_getElem (by simp [pointOf, nodeOf, hc, ht]) fun k hk1 hk2 => ?_
  have hk : k < breaks.length := by simpa [pointOf] using hk1
  have htk := htd k hk
  rw [List.getD_eq_getElem _ _ (by omega)] at htk
  simp only [pointOf, nodeOf, List.getElem_zipWith, List.getElem_map, List.getElem_range]
  rw [pointAt_cell hd _ _ _ htk, List.getD_eq_getElem _ [] hk, List.getD_eq_getElem c 0 (by omega),
    List.getD_eq_getElem t 0 (by omega)]

/-- C63: the mesh is conforming. For increasing breaks, a node of one cell and a node of another (or the same) cell have the
same number if and only if they are the same point. -/
theorem C63_conforming {d : Nat} (hd : 1 ≤ d) {breaks : List (List K)} (nCells : List Nat)
    (hb : breaks.map List.length = nCells.map (· + 1)) (hs : ∀ b ∈ breaks, b.Pairwise (· < ·))
    {c c' t t' : List Nat} (hc : InSize nCells c) (hc' : InSize nCells c') (ht : t.length = nCells.length)
    (ht' : t'.length = nCells.length) (htd : ∀ k, k < nCells.length → t.getD k 0 ≤ d)
    (htd' : ∀ k, k < nCells.length → t'.getD k 0 ≤ d) :
    flatIndex (nodeOf d c t) (latticeSize d nCells) = flatIndex (nodeOf d c' t') (latticeSize d nCells) ↔
      pointOf d breaks c t = pointOf d breaks c' t' := by
  have hl : breaks.length = nCells.length := by simpa using congrArg List.length hb
  have i1 := nodeOf_inSize hc ht htd
  have i2 := nodeOf_inSize hc' ht' htd'
  rw [pointOf_eq hd (by rw [hc.1, hl]) (by rw [ht, hl]) (by rw [hl]; exact htd),
    pointOf_eq hd (by rw [hc'.1, hl]) (by rw [ht', hl]) (by rw [hl]; exact htd')]
  constructor
  · intro h
    rw [flatIndex_inj i1 i2 h]
  · intro h
    refine congrArg (flatIndex · _) (List.ext_getElem (by rw [i1.1, i2.1]) fun k hk1 hk2 => ?_)
    have hk : k < breaks.length := by rw [hl]; simpa [i1.1, latticeSize] using hk1
    have h1 : (List.zipWith (pointAt d) breaks (nodeOf d c t))[k]? = (List.zipWith (pointAt d) breaks (nodeOf d c' t'))[k]? := by
      rw [h]
    rw [List.getElem?_eq_getElem (by simp; omega), List.getElem?_eq_getElem (by simp; omega), List.getElem_zipWith,
      List.getElem_zipWith] at h1
    have h1 := Option.some.inj h1
    have hbk : breaks[k].length = nCells[k] + 1 := by
      have : (breaks.map List.length)[k]? = (nCells.map (· + 1))[k]? := by rw [hb]
      rw [List.getElem?_eq_getElem (by simpa using hk), List.getElem?_eq_getElem (by simp; omega), List.getElem_map,
        List.getElem_map] at this
      exact Option.some.inj this
    have l1 := i1.2 k (by simp [latticeSize]; omega)
    have l2 := i2.2 k (by simp [latticeSize]; omega)
    rw [List.getD_eq_getElem _ _ hk1, List.getD_eq_getElem _ _ (by simp [latticeSize]; omega)] at l1
    rw [List.getD_eq_getElem _ _ hk2, List.getD_eq_getElem _ _ (by simp [latticeSize]; omega)] at l2
    simp only [latticeSize, List.getElem_map] at l1 l2
    have hsk := hs _ (List.getElem_mem hk)
    rcases Nat.lt_trichotomy (nodeOf d c t)[k] (nodeOf d c' t')[k] with hlt | heq | hgt
    · exact absurd h1 (pointAt_lt hd hbk hsk hlt l2).ne
    · exact heq
    · exact absurd h1 (pointAt_lt hd hbk hsk hgt l1).ne'

end Ordered

/-- C63 non-vacuity: a mesh of 2 x 1 biquadratic cells; the second cell. -/
example : ∃ conn nodes, meshConn 2 [2, 1] = some conn ∧
    nodesFromCells 2 [[(0 : ℚ), 1, 3], [0, 4]] (fun _ => 77) = some nodes ∧
    conn[1]? = some [2, 4, 12, 14, 3, 7, 9, 13, 8] ∧ nodes[8]? = some [2, 2] ∧ nodes.length = 15 := by
  refine ⟨_, _, rfl, rfl, ?_⟩
  decide +kernel

/-- C63 non-vacuity of `C63_cells` and `C63_conforming`. -/
example := C63_cells (K := ℚ) (d := 2) (by omega) (breaks := [[(0 : ℚ), 1, 3], [0, 4]]) (by decide) (by decide) [2, 1] (by decide) rfl
  (fun _ => 77)
example := (C63_conforming (K := ℚ) (d := 2) (by omega) (breaks := [[(0 : ℚ), 1, 3], [0, 4]]) [2, 1] rfl (by decide +kernel)
  (c := [0, 0]) (c' := [1, 0]) (t := [2, 1]) (t' := [0, 1]) ⟨rfl, by decide⟩ ⟨rfl, by decide⟩ rfl rfl (by decide) (by decide)).1 rfl

end Qugar.Py
