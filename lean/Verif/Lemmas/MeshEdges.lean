import Verif.Lemmas.MeshOrient
import Verif.Props.Wirebasket
import Mathlib.Tactic.IntervalCases
/-
Lemmas on `get_edge_points`.
-/
namespace Qugar.Mesh
open Spec Poly TS
variable {K : Type} [Field K] [LinearOrder K]

theorem flatMap_single {α β : Type} (l : List α) (f : α → β) : (l.flatMap fun a => [f a]) = l.map f := by
  induction l with
  | nil => rfl
  | cons a l ih => rw [List.flatMap_cons, ih]; rfl

/-- The indices visited by `get_edge_points`. -/
theorem visit_edge (dim order edge : Nat) (hd : dim = 2 ∨ dim = 3) (ho : 1 < order) (he : edge < numEdges dim) :
    ∃ dirs sides, Ids.edgeConstantDirs dim edge = some dirs ∧ Ids.edgeSides dim edge = some sides ∧
      visitAll (edgeRange dim order dirs sides) = (List.range order).map (edgeIndex dim order edge) := by
  have h1 : order - (order - 1) = 1 := by omega
  have h2 : order - 1 < order := by omega
  have h3 : 0 < order := by omega
  rcases hd with rfl | rfl
  · have he' : edge < 4 := he
    interval_cases edge
    all_goals
      refine ⟨_, _, rfl, rfl, ?_⟩
      rw [visitAll_box _ (by simp [edgeRange, NonemptyBox, List.replicate, h2, h3]) (by simp [edgeRange, List.replicate])]
      simp [edgeRange, rangeList, List.replicate, h1, List.range_eq_range', flatMap_single]
      exact fun a _ => rfl
  · have he' : edge < 12 := he
    interval_cases edge
    all_goals
      refine ⟨_, _, rfl, rfl, ?_⟩
      rw [visitAll_box _ (by simp [edgeRange, NonemptyBox, List.replicate, h2, h3]) (by simp [edgeRange, List.replicate])]
      simp [edgeRange, rangeList, List.replicate, h1, List.range_eq_range', flatMap_single]
      exact fun a _ => rfl

theorem edgeIndex_mem (dim order edge i : Nat) (hd : dim = 2 ∨ dim = 3) (ho : 1 < order) (hi : i < order) :
    edgeIndex dim order edge i ∈ indices (List.replicate dim order) := by
  rw [mem_indices]
  have h2 : order - 1 < order := by omega
  have h3 : 0 < order := by omega
  unfold edgeIndex
  dsimp only
  rcases hd with rfl | rfl
  · rw [if_pos rfl]
    split_ifs <;> simp [List.replicate, h2, h3, hi]
  · rw [if_neg (by omega)]
    split_ifs <;> simp [List.replicate, h2, h3, hi]

/-- The connectivity entries of an edge, in increasing order of the index. -/
def rawEdge (m : Mesh K) (cell edge : Nat) : List Nat :=
  (List.range m.order).map fun i => m.conn.getD (cell * m.order ^ m.dim + flatIndex (edgeIndex m.dim m.order edge i) (List.replicate m.dim m.order)) 0

theorem cell_bound {m : Mesh K} {cell : Nat} (hc : cell < m.conn.length / m.order ^ m.dim) {t : List Nat}
    (ht : t ∈ indices (List.replicate m.dim m.order)) :
    cell * m.order ^ m.dim + flatIndex t (List.replicate m.dim m.order) < m.conn.length := by
  have hlt := flatIndex_lt' ht
  rw [Vtu.listProd_replicate] at hlt
  calc cell * m.order ^ m.dim + flatIndex t (List.replicate m.dim m.order) < cell * m.order ^ m.dim + m.order ^ m.dim := by omega
    _ = (cell + 1) * m.order ^ m.dim := by ring
    _ ≤ (m.conn.length / m.order ^ m.dim) * m.order ^ m.dim := Nat.mul_le_mul_right _ hc
    _ ≤ m.conn.length := Nat.div_mul_le_self _ _

theorem mapM_some {α β : Type} (l : List α) (f : α → Option β) (g : α → β) (h : ∀ a ∈ l, f a = some (g a)) : l.mapM f = some (l.map g) := by
  induction l with
  | nil => rfl
  | cons a l ih =>
    rw [List.mapM_cons, h a (List.mem_cons_self ..), ih fun b hb => h b (List.mem_cons_of_mem _ hb)]; rfl

theorem edgePoints_eq (m : Mesh K) (cell edge : Nat) (hd : m.dim = 2 ∨ m.dim = 3) (ho : 1 < m.order) (he : edge < numEdges m.dim)
    (hc : cell < m.conn.length / m.order ^ m.dim) : edgePoints m cell edge = some (sortEdge m.order (rawEdge m cell edge)) := by
  obtain ⟨dirs, sides, h1, h2, h3⟩ := visit_edge m.dim m.order edge hd ho he
  unfold edgePoints
  rw [h1, h2]
  simp only [Option.bind_eq_bind, Option.bind_some]
  rw [h3, mapM_some _ _ (fun t => m.conn.getD (cell * m.order ^ m.dim + flatIndex t (List.replicate m.dim m.order)) 0)]
  · simp only [Option.bind_some, List.map_map]; rfl
  · intro t ht
    obtain ⟨i, hi, rfl⟩ := List.mem_map.1 ht
    have hm := edgeIndex_mem m.dim m.order edge i hd ho (List.mem_range.1 hi)
    rw [flat_eq (mem_indices_replicate.1 hm), Option.bind_some]
    have := cell_bound hc hm
    unfold ppc
    rw [List.getElem?_eq_getElem this, List.getD_eq_getElem?_getD, List.getElem?_eq_getElem this]; rfl

end Qugar.Mesh
