import Verif.Spec.Column
import Verif.Lemmas.GeneralPlaneCtor
/-
Cells of a mesh that stand for columns.
-/
namespace Qugar.General
open Roots Mesh Poly Reparam Spec TS
variable {K : Type} [Field K] [LinearOrder K]

/-- `m'` is `m` with one cell appended for each column: its vertices are the lattice of the column. -/
def Columned (ν : Nat → K) (cols : List (Column K)) (m m' : Mesh K) : Prop :=
  ∃ (P : List (List K)) (C : List Nat), m' = { m with points := m.points ++ P, conn := m.conn ++ C } ∧
    C.length = cols.length * m.order ^ 2 ∧ (∀ i ∈ C, i < m.points.length + P.length) ∧
    ∀ k (hk : k < cols.length), ∀ t ∈ indices [m.order, m.order],
      vertex 2 m.order (m.points ++ P) (m.conn ++ C) (m.conn.length / m.order ^ 2 + k) t = (cols[k]).lattice ν t

theorem columned_nil (ν : Nat → K) (m : Mesh K) : Columned ν [] m m := ⟨[], [], by simp, by simp, by simp, by simp⟩

theorem idx_lt {o : Nat} {t : List Nat} (h : t ∈ indices [o, o]) : flatIndex t [o, o] < o ^ 2 := by
  have := flatIndex_lt' h
  have e : listProd [o, o] = o ^ 2 := by simp [listProd, pow_two]
  rwa [e] at this

theorem block_lt {o k n x : Nat} (hk : k < n) (hx : x < o ^ 2) : k * o ^ 2 + x < n * o ^ 2 := by
  calc k * o ^ 2 + x < k * o ^ 2 + o ^ 2 := by omega
    _ = (k + 1) * o ^ 2 := by ring
    _ ≤ n * o ^ 2 := Nat.mul_le_mul_right _ hk

/-- The vertices of the cells do not change when points and cells are appended. -/
theorem vertex_append {o : Nat} {pts pts' : List (List K)} {conn conn' : List Nat} {c : Nat} {t : List Nat} (ht : t ∈ indices [o, o])
    (hc : (c + 1) * o ^ 2 ≤ conn.length) (hi : ∀ k, c * o ^ 2 ≤ k → k < conn.length → conn.getD k 0 < pts.length) :
    vertex 2 o (pts ++ pts') (conn ++ conn') c t = vertex 2 o pts conn c t := by
  have hl : c * o ^ 2 + flatIndex t [o, o] < conn.length := by
    have := idx_lt ht
    have : (c + 1) * o ^ 2 = c * o ^ 2 + o ^ 2 := by ring
    omega
  have h2 := hi _ (Nat.le_add_right _ (flatIndex t [o, o])) hl
  unfold vertex
  show (pts ++ pts').getD ((conn ++ conn').getD (c * o ^ 2 + flatIndex t [o, o]) 0) [] = pts.getD (conn.getD (c * o ^ 2 + flatIndex t [o, o]) 0) []
  rw [List.getD_append _ _ _ _ hl, List.getD_append _ _ _ _ h2]

theorem columned_trans {ν : Nat → K} {c1 c2 : List (Column K)} {m m1 m2 : Mesh K} (hw : m.conn.length % m.order ^ 2 = 0)
    (h1 : Columned ν c1 m m1) (h2 : Columned ν c2 m1 m2) : Columned ν (c1 ++ c2) m m2 := by
  obtain ⟨P, C, rfl, l1, i1, v1⟩ := h1
  obtain ⟨P', C', rfl, l2, i2, v2⟩ := h2
  dsimp only at *
  obtain ⟨n0, hn0⟩ : ∃ n0, n0 = m.conn.length / m.order ^ 2 := ⟨_, rfl⟩
  have hn : m.conn.length = n0 * m.order ^ 2 := by rw [hn0]; exact (Nat.div_mul_cancel (Nat.dvd_of_mod_eq_zero hw)).symm
  refine ⟨P ++ P', C ++ C', by simp, by rw [List.length_append, List.length_append, l1, l2, Nat.add_mul], ?_, ?_⟩
  · intro i hi
    rw [List.length_append]
    rcases List.mem_append.1 hi with h | h
    · have := i1 i h; omega
    · have := i2 i h; rw [List.length_append] at this; omega
  · intro k hk t ht
    rw [← List.append_assoc, ← List.append_assoc]
    by_cases hk1 : k < c1.length
    · rw [List.getElem_append_left hk1, ← v1 k hk1 t ht, ← hn0]
      refine vertex_append ht ?_ ?_
      · rw [List.length_append, hn, l1, ← Nat.add_mul]
        exact Nat.mul_le_mul_right _ (by omega)
      · intro j hj1 hj2
        have : m.conn.length ≤ j := by
          rw [hn]; exact le_trans (Nat.mul_le_mul_right _ (Nat.le_add_right _ _)) hj1
        rw [List.getD_append_right _ _ _ _ this, List.length_append]
        rw [List.length_append] at hj2
        rw [List.getD_eq_getElem _ _ (by omega)]
        exact i1 _ (List.getElem_mem _)
    · rw [List.getElem_append_right (by omega)]
      rw [List.length_append] at hk
      have := v2 (k - c1.length) (by omega) t ht
      rw [← this]
      congr 1
      rw [List.length_append, hn, l1, ← Nat.add_mul]
      by_cases ho : 0 < m.order ^ 2
      · rw [Nat.mul_div_cancel _ ho, Nat.mul_div_cancel _ ho]; omega
      · exfalso
        have h0 : m.order ^ 2 = 0 := by omega
        have := idx_lt ht
        omega

/-- The full cell. -/
theorem columned_full (cheb : Nat → Nat → K) {m : Mesh K} {st : List (List Nat × Nat)} {box : Box K} (hb : box.length = 2) (hd : m.dim = 2)
    (ho : 1 < m.order) (hw : m.conn.length % m.order ^ 2 = 0) :
    ∃ st', [Action.full box].foldlM (act cheb) (m, st) = some st' ∧
      Columned (pointIn01 cheb m.order) [⟨1, (box.getD 0 (0, 0)).1, (box.getD 0 (0, 0)).2, fun _ => (box.getD 1 (0, 0)).1, fun _ => (box.getD 1 (0, 0)).2⟩] m st'.1 := by
  have hpe := pushFullCell_eq cheb m box (by omega) ho
  rw [hd] at hpe
  have hfull : addFullCell cheb m box false = some (pushFullCell cheb m box) := by
    unfold addFullCell numCells ppc
    rw [hpe]
    simp only [Bool.false_eq_true, if_false]
    rw [if_pos (by rw [List.length_append, List.length_range', Nat.add_mod_right]; exact hw)]
    rfl
  refine ⟨(pushFullCell cheb m box, st), ?_, ?_⟩
  · have : act cheb (m, st) (Action.full box) = some (pushFullCell cheb m box, st) := by
      show (addFullCell cheb m box false).map _ = _
      rw [hfull]; rfl
    rw [List.foldlM_cons, this]
    rfl
  · obtain ⟨P, hP⟩ : ∃ P, P = (indices (List.replicate 2 m.order)).map (fullCellPoint cheb m.order box) := ⟨_, rfl⟩
    have hPl : P.length = m.order ^ 2 := by
      rw [hP, List.length_map]
      have := congrArg List.length (indices_flat (List.replicate 2 m.order))
      rw [List.length_map, List.length_range, listProd_replicate] at this
      exact this
    rw [← hP] at hpe
    refine ⟨P, List.range' m.points.length (m.order ^ 2), by rw [hd]; exact hpe, by simp, ?_, ?_⟩
    · intro i hi
      rw [List.mem_range'_1] at hi
      omega
    · intro k hk t ht
      have hk0 : k = 0 := by simpa using hk
      subst hk0
      have hn : m.conn.length / m.order ^ 2 * m.order ^ 2 = m.conn.length := Nat.div_mul_cancel (Nat.dvd_of_mod_eq_zero hw)
      unfold vertex
      rw [Nat.add_zero, hn]
      show (m.points ++ P).getD ((m.conn ++ _).getD (m.conn.length + flatIndex t [m.order, m.order]) 0) [] = _
      have hx := idx_lt ht
      have hcn : (m.conn ++ List.range' m.points.length (m.order ^ 2)).getD (m.conn.length + flatIndex t [m.order, m.order]) 0 =
          m.points.length + flatIndex t [m.order, m.order] := by
        rw [List.getD_append_right _ _ _ _ (by omega), Nat.add_sub_cancel_left, List.getD_eq_getElem _ _ (by simpa using hx), List.getElem_range',
          Nat.one_mul]
      rw [hcn, List.getD_append_right _ _ _ _ (by omega), Nat.add_sub_cancel_left, List.getD_eq_getElem _ _ (by omega)]
      have hpt : P[flatIndex t [m.order, m.order]]'(by omega) = fullCellPoint cheb m.order box t := by
        have hf := indices_flat (List.replicate 2 m.order)
        have hil : (indices (List.replicate 2 m.order)).length = m.order ^ 2 := by
          have := congrArg List.length hf
          rwa [List.length_map, List.length_range, listProd_replicate] at this
        obtain ⟨j, hj, hjt⟩ := List.getElem_of_mem (show t ∈ indices (List.replicate 2 m.order) from ht)
        have h1 : ((indices (List.replicate 2 m.order)).map fun t => flatIndex t (List.replicate 2 m.order))[j]'(by simpa using hj) = j := by
          have : ∀ (l : List Nat) (h : l = List.range (listProd (List.replicate 2 m.order))) (hj : j < l.length), l[j] = j := by
            intro l h hj; subst h; simp
          exact this _ hf _
        rw [List.getElem_map, hjt] at h1
        have h1 : flatIndex t [m.order, m.order] = j := h1
        subst h1
        have : ∀ (l : List (List K)) (h : l = (indices (List.replicate 2 m.order)).map (fullCellPoint cheb m.order box))
            (hj : flatIndex t [m.order, m.order] < l.length), l[flatIndex t [m.order, m.order]] = fullCellPoint cheb m.order box t := by
          intro l h hj
          subst h
          rw [List.getElem_map, hjt]
        exact this P hP _
      rw [hpt]
      match box, hb with
      | [a, b], _ =>
        have e : ∃ i j, t = [i, j] := by
          have := mem_indices.1 ht
          cases this with
          | cons h1 h2 => cases h2 with
            | cons h3 h4 => cases h4; exact ⟨_, _, rfl⟩
        obtain ⟨i, j, rfl⟩ := e
        rfl

/-- Inserting every index of every cell once, when the cells are columns. -/
theorem columned_events (cheb : Nat → Nat → K) (ν : Nat → K) {m : Mesh K} (hd : m.dim = 2) (ho : 1 < m.order)
    (hw : m.conn.length % m.order ^ 2 = 0) {evs : List (Event K)} {cs : List (List Nat)} (hcs : cs.Nodup)
    (hnd : (evs.map fun e => (e.cell, e.pt)).Nodup)
    (hall : ∀ c t, (c, t) ∈ (evs.map fun e => (e.cell, e.pt)) ↔ c ∈ cs ∧ t ∈ indices [m.order, m.order])
    (col : List Nat → Column K) (hcol : ∀ e ∈ evs, e.point = (col e.cell).lattice ν e.pt) :
    ∃ st cols, (evs.map Action.ins).foldlM (act cheb) (m, []) = some st ∧ Columned ν cols m st.1 ∧ cols.Perm (cs.map col) := by
  have hrep : List.replicate m.dim m.order = [m.order, m.order] := by rw [hd]; rfl
  obtain ⟨evs', hevs'⟩ : ∃ evs' : List (Event K), evs' = evs.map fun e => { e with point := e.point.reverse } := ⟨_, rfl⟩
  have hk : (evs'.map fun e => (e.cell, e.pt)) = evs.map fun e => (e.cell, e.pt) := by
    rw [hevs', List.map_map]; rfl
  rw [← hk] at hnd hall
  rw [← hrep] at hall
  have hw' : m.conn.length % m.order ^ m.dim = 0 := by rw [hd]; exact hw
  have hpt : ∀ e ∈ evs', e.pt ∈ indices (List.replicate m.dim m.order) := fun e hee =>
    ((hall e.cell e.pt).1 (List.mem_map.2 ⟨e, hee, rfl⟩)).2
  obtain ⟨st, hst, C, hA⟩ := insert_all m ho hw' evs' hpt hnd
  obtain ⟨p1, p2⟩ := after_perm ho hw' hpt hnd hcs hall hA
  have hpe : evs'.map (fun e => e.point.reverse) = evs.map (·.point) := by
    rw [hevs', List.map_map]
    apply List.map_congr_left
    intro e _
    exact List.reverse_reverse _
  have hrun : (evs.map Action.ins).foldlM (act cheb) (m, []) = some st := by
    rw [← hst, hevs', List.foldlM_map, List.foldlM_map]
    congr 1
    funext s e
    exact insertAt_eq s e
  have hl : evs'.length = (evs.map (·.point)).length := by rw [hevs']; simp
  have hl' : evs'.length = evs.length := by rw [hevs']; simp
  have hz : [0, 0] ∈ indices (List.replicate m.dim m.order) := by
    rw [hrep, mem_indices]; exact .cons (by omega) (.cons (by omega) .nil)
  have hcell : ∀ t, t ∈ st.2.map (·.1) ↔ t ∈ cs := by
    intro t
    rw [hA.mem]
    constructor
    · rintro ⟨e, he, rfl⟩
      exact ((hall e.cell e.pt).1 (List.mem_map.2 ⟨e, he, rfl⟩)).1
    · intro h
      obtain ⟨e, he, h'⟩ := List.mem_map.1 ((hall t _).2 ⟨h, hz⟩)
      exact ⟨e, he, congrArg Prod.fst h'⟩
  have hperm : (st.2.map (·.1)).Perm cs := (List.perm_ext_iff_of_nodup hA.nodup hcs).2 hcell
  refine ⟨st, (st.2.map (·.1)).reverse.map col, hrun, ⟨evs.map (·.point), C, by rw [hA.mesh, hpe], ?_, ?_, ?_⟩,
    ((List.reverse_perm _).trans hperm).map col⟩
  · rw [hA.len, hd]; simp
  · intro i hi
    have := p1.mem_iff.1 hi
    rw [List.mem_range'_1, hl] at this
    exact this.2
  · intro k hk t ht
    have hks : k < st.2.length := by simpa using hk
    obtain ⟨key, hkey⟩ : ∃ key, (st.2.map (·.1)).reverse[k]? = some key := ⟨_, List.getElem?_eq_getElem (by simpa using hks)⟩
    have hmem : (key, m.conn.length / m.order ^ 2 + k) ∈ st.2 := by
      have hr : st.2.length - 1 - k < st.2.length := by omega
      have h1 : st.2[st.2.length - 1 - k].1 = key := by
        rw [List.getElem?_reverse (by simpa using hks), List.length_map, List.getElem?_map, List.getElem?_eq_getElem hr] at hkey
        simpa using hkey
      have h2 : st.2[st.2.length - 1 - k].2 = m.conn.length / m.order ^ 2 + k := by
        have h3 : (st.2.map (·.2))[st.2.length - 1 - k]? = some (m.conn.length / m.order ^ 2 + k) := by
          rw [hA.ids, List.getElem?_reverse (by rw [List.length_range']; exact hr), List.length_range',
            show st.2.length - 1 - (st.2.length - 1 - k) = k by omega, List.getElem?_range' hks, hd, Nat.one_mul]
        rw [List.getElem?_map, List.getElem?_eq_getElem hr] at h3
        simpa using h3
      have := List.getElem_mem hr
      rwa [show st.2[st.2.length - 1 - k] = (key, m.conn.length / m.order ^ 2 + k) from Prod.ext h1 h2] at this
    have hkc : key ∈ cs := (hcell key).1 (List.mem_map.2 ⟨_, hmem, rfl⟩)
    obtain ⟨e, he, hek⟩ := List.mem_map.1 ((hall key t).2 ⟨hkc, by rw [hrep]; exact ht⟩)
    obtain ⟨j, hj, hje⟩ := List.getElem_of_mem he
    obtain ⟨id, i1, i2⟩ := hA.entry j hj
    have hc1 : evs'[j].cell = key := by rw [hje]; exact congrArg Prod.fst hek
    have hc2 : evs'[j].pt = t := by rw [hje]; exact congrArg Prod.snd hek
    have hid : id = m.conn.length / m.order ^ 2 + k := by
      have a := lookup_of_mem st.2 hA.nodup _ _ i1
      have b := lookup_of_mem st.2 hA.nodup _ _ hmem
      rw [hc1, b] at a
      exact (Option.some.inj a).symm
    rw [hid, hc2, hrep, hd] at i2
    unfold vertex
    show (m.points ++ _).getD ((m.conn ++ C).getD ((m.conn.length / m.order ^ 2 + k) * m.order ^ 2 + flatIndex t [m.order, m.order]) 0) [] = _
    rw [show (m.conn ++ C).getD ((m.conn.length / m.order ^ 2 + k) * m.order ^ 2 + flatIndex t [m.order, m.order]) 0 = m.points.length + j by
      rw [List.getD_eq_getElem?_getD, i2]; rfl]
    rw [List.getD_append_right _ _ _ _ (by omega), Nat.add_sub_cancel_left, List.getD_eq_getElem _ _ (by simp; omega), List.getElem_map,
      List.getElem_map]
    have hje' : j < evs.length := by omega
    have hee : evs[j].cell = key ∧ evs[j].pt = t := by
      have : evs'[j] = { evs[j] with point := evs[j].point.reverse } := by
        have : ∀ (l : List (Event K)) (h : l = evs.map fun e => { e with point := e.point.reverse }) (hj : j < l.length),
            l[j] = { evs[j] with point := evs[j].point.reverse } := by
          intro l h hj; subst h; rw [List.getElem_map]
        exact this evs' hevs' hj
      rw [this] at hc1 hc2
      exact ⟨hc1, hc2⟩
    rw [hcol _ (List.getElem_mem hje'), hee.1, hee.2]
    congr 2
    rw [List.getElem?_eq_getElem (by simpa using hks)] at hkey
    exact (Option.some.inj hkey).symm

end Qugar.General
