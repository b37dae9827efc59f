import Verif.Lemmas.ReparamKeys
/-
`insert_point_reparam`: what a list of calls does to the mesh.
-/
namespace Qugar.Reparam
open Roots Mesh Poly Spec TS
variable {K : Type} [Field K] [LinearOrder K]

theorem foldlM_prefix {α β : Type} (P : List α → β → Prop) (f : β → α → Option β) (l : List α) (b : β) (h0 : P [] b)
    (hstep : ∀ pre a post b, l = pre ++ a :: post → P pre b → ∃ b', f b a = some b' ∧ P (pre ++ [a]) b') :
    ∃ b', l.foldlM f b = some b' ∧ P l b' := by
  suffices h : ∀ (post pre : List α) (b : β), l = pre ++ post → P pre b → ∃ b', post.foldlM f b = some b' ∧ P l b' from
    h l [] b rfl h0
  intro post
  induction post with
  | nil => intro pre b hl hp; rw [List.append_nil] at hl; subst hl; exact ⟨b, rfl, hp⟩
  | cons a post ih =>
    intro pre b hl hp
    obtain ⟨b1, h1, p1⟩ := hstep pre a post b hl hp
    obtain ⟨b2, h2, p2⟩ := ih (pre ++ [a]) b1 (by rw [hl]; simp) p1
    exact ⟨b2, by rw [List.foldlM_cons, h1]; exact h2, p2⟩

/-- State of the mesh `m` after the calls `evs`. -/
structure After (m : Mesh K) (evs : List (Event K)) (st : Mesh K × List (List Nat × Nat)) (C : List Nat) : Prop where
  mesh : st.1 = { m with points := m.points ++ evs.map (fun e => e.point.reverse), conn := m.conn ++ C }
  len : C.length = st.2.length * m.order ^ m.dim
  nodup : (st.2.map (·.1)).Nodup
  mem : ∀ t, t ∈ st.2.map (·.1) ↔ ∃ e ∈ evs, e.cell = t
  ids : st.2.map (·.2) = (List.range' (m.conn.length / m.order ^ m.dim) st.2.length).reverse
  entry : ∀ k (hk : k < evs.length), ∃ id, (evs[k].cell, id) ∈ st.2 ∧
    (m.conn ++ C)[id * m.order ^ m.dim + flatIndex evs[k].pt (List.replicate m.dim m.order)]? = some (m.points.length + k)

theorem lookup_of_mem {α β : Type} [BEq α] [LawfulBEq α] : ∀ (l : List (α × β)), (l.map (·.1)).Nodup → ∀ a b, (a, b) ∈ l → l.lookup a = some b := by
  intro l
  induction l with
  | nil => intro _ a b h; simp at h
  | cons x l ih =>
    intro hn a b h
    rw [List.map_cons, List.nodup_cons] at hn
    obtain ⟨x1, x2⟩ := x
    rw [List.lookup_cons]
    rcases List.mem_cons.1 h with h' | h'
    · cases h'; simp
    · have : a ≠ x1 := by
        rintro rfl
        exact hn.1 (List.mem_map.2 ⟨_, h', rfl⟩)
      rw [beq_eq_false_iff_ne.2 this]
      exact ih hn.2 a b h'

theorem mem_of_lookup {α β : Type} [BEq α] [LawfulBEq α] : ∀ (l : List (α × β)) a b, l.lookup a = some b → (a, b) ∈ l := by
  intro l
  induction l with
  | nil => intro a b h; simp at h
  | cons x l ih =>
    intro a b h
    obtain ⟨x1, x2⟩ := x
    rw [List.lookup_cons] at h
    split at h
    · rename_i he
      cases h
      rw [eq_of_beq he]
      simp
    · exact List.mem_cons_of_mem _ (ih a b h)

theorem listProd_replicate (d n : Nat) : listProd (List.replicate d n) = n ^ d := by
  induction d with
  | zero => rfl
  | succ d ih => rw [List.replicate_succ, listProd, ih, Nat.pow_succ]; ring

/-- Distinct cells have disjoint ranges of entries. -/
theorem entry_ne {P i j x y : Nat} (hx : x < P) (hy : y < P) (h : i * P + x = j * P + y) : i = j ∧ x = y := by
  have hP : 0 < P := by omega
  have h1 : (i * P + x) / P = i := by rw [Nat.mul_comm, Nat.mul_add_div hP, Nat.div_eq_of_lt hx]; omega
  have h2 : (j * P + y) / P = j := by rw [Nat.mul_comm, Nat.mul_add_div hP, Nat.div_eq_of_lt hy]; omega
  have : i = j := by rw [← h1, ← h2, h]
  subst this
  exact ⟨rfl, by omega⟩

theorem insert_all (m : Mesh K) (ho : 1 < m.order) (hlen : m.conn.length % m.order ^ m.dim = 0)
    (evs : List (Event K)) (hpt : ∀ e ∈ evs, e.pt ∈ indices (List.replicate m.dim m.order))
    (hnd : (evs.map fun e => (e.cell, e.pt)).Nodup) :
    ∃ st, evs.foldlM insertPoint (m, []) = some st ∧ ∃ C, After m evs st C := by
  obtain ⟨P, hP⟩ : ∃ P, P = m.order ^ m.dim := ⟨_, rfl⟩
  have hP0 : 0 < P := by rw [hP]; exact Nat.pow_pos (by omega)
  rw [← hP] at hlen
  obtain ⟨n0, hn0⟩ : ∃ n0, n0 = m.conn.length / P := ⟨_, rfl⟩
  have hn0P : m.conn.length = n0 * P := by rw [hn0]; exact (Nat.div_mul_cancel (Nat.dvd_of_mod_eq_zero hlen)).symm
  refine foldlM_prefix (P := fun pre st => ∃ C, After m pre st C) insertPoint evs (m, []) ⟨[], ?_⟩ ?_
  · exact ⟨by simp, by simp, by simp, by simp, by simp, by intro k hk; simp at hk⟩
  · rintro pre e post ⟨m1, map1⟩ hl ⟨C, hA⟩
    obtain ⟨hmesh, hCl, hnodup, hmem, hids, hent⟩ := hA
    rw [← hP] at hCl hids
    rw [← hn0] at hids
    simp only [← hP] at hent
    dsimp only at hmesh hCl hnodup hmem hids hent
    have hidlt : ∀ t id, (t, id) ∈ map1 → id < n0 + map1.length ∧ n0 ≤ id := by
      intro t id h
      have : id ∈ map1.map (·.2) := List.mem_map.2 ⟨_, h, rfl⟩
      rw [hids, List.mem_reverse, List.mem_range'_1] at this
      omega
    have hidinj : ∀ t t' id, (t, id) ∈ map1 → (t', id) ∈ map1 → t = t' := by
      intro t t' id h h'
      have hn : (map1.map (·.2)).Nodup := by rw [hids, List.nodup_reverse]; exact List.nodup_range'
      have := List.inj_on_of_nodup_map hn h h' rfl
      exact congrArg Prod.fst this
    have hin : e.pt ∈ indices (List.replicate m.dim m.order) := hpt e (by rw [hl]; simp)
    have hfl : flat e.pt (List.replicate m.dim m.order) = some (flatIndex e.pt (List.replicate m.dim m.order)) :=
      flat_eq (forall2_lt_iff_inSize.1 (mem_indices.1 hin))
    obtain ⟨x, hx⟩ : ∃ x, x = flatIndex e.pt (List.replicate m.dim m.order) := ⟨_, rfl⟩
    have hxP : x < P := by
      rw [hx, hP, ← listProd_replicate]
      exact flatIndex_lt' hin
    -- the cell
    obtain ⟨id, map2, C1, hcase, hC1, hm2, hkeep, hnew⟩ : ∃ id map2 C1,
        cellId (m1, map1) e.cell = ({ m with points := m.points ++ pre.map (fun e => e.point.reverse), conn := m.conn ++ C1 }, map2, id) ∧
        C1.length = map2.length * P ∧ ((map2.map (·.1)).Nodup ∧ (∀ t, t ∈ map2.map (·.1) ↔ ∃ e' ∈ pre ++ [e], e'.cell = t) ∧
          map2.map (·.2) = (List.range' n0 map2.length).reverse) ∧
        (∀ j v, (m.conn ++ C)[j]? = some v → (m.conn ++ C1)[j]? = some v) ∧ (e.cell, id) ∈ map2 ∧ (∀ y ∈ map1, y ∈ map2) := by
      unfold cellId
      dsimp only
      cases hlk : map1.lookup e.cell with
      | some c =>
        have hc := mem_of_lookup _ _ _ hlk
        refine ⟨c, map1, C, by rw [← hmesh], hCl, ⟨hnodup, ?_, hids⟩, fun _ _ h => h, hc, fun _ h => h⟩
        intro t
        rw [hmem]
        constructor
        · rintro ⟨e', he', h⟩; exact ⟨e', by simp [he'], h⟩
        · rintro ⟨e', he', h⟩
          rcases List.mem_append.1 he' with he' | he'
          · exact ⟨e', he', h⟩
          · rw [List.mem_singleton] at he'
            subst he'
            rw [← hmem, ← h]
            exact List.mem_map.2 ⟨_, hc, rfl⟩
      | none =>
        have hnot : e.cell ∉ map1.map (·.1) := by
          intro h
          obtain ⟨y, hy, hye⟩ := List.mem_map.1 h
          have := lookup_of_mem map1 hnodup y.1 y.2 hy
          rw [hye, hlk] at this
          simp at this
        have hall : allocateCells m1 1 = ({ m with points := m.points ++ pre.map (fun e => e.point.reverse), conn := m.conn ++ (C ++ List.replicate P 0) }, n0 + map1.length) := by
          have h1 : m1.conn.length = (n0 + map1.length) * P := by
            rw [hmesh]
            simp only [List.length_append]
            rw [hn0P, hCl, Nat.add_mul]
          have h2 : ppc m1 = P := by rw [hmesh, hP]; rfl
          unfold allocateCells
          rw [h1, h2, Nat.mul_div_cancel _ hP0, hmesh]
          simp
        refine ⟨n0 + map1.length, (e.cell, n0 + map1.length) :: map1, C ++ List.replicate P 0, ?_, ?_, ⟨?_, ?_, ?_⟩, ?_, ?_, ?_⟩
        · rw [hall]
        · simp only [List.length_append, List.length_replicate, List.length_cons, hCl]; ring
        · rw [List.map_cons, List.nodup_cons]; exact ⟨hnot, hnodup⟩
        · intro t
          rw [List.map_cons, List.mem_cons, hmem]
          constructor
          · rintro (rfl | ⟨e', he', h⟩)
            · exact ⟨e, by simp, rfl⟩
            · exact ⟨e', by simp [he'], h⟩
          · rintro ⟨e', he', h⟩
            rcases List.mem_append.1 he' with he' | he'
            · exact Or.inr ⟨e', he', h⟩
            · rw [List.mem_singleton] at he'
              subst he'
              exact Or.inl h.symm
        · rw [List.map_cons, hids, List.length_cons, List.range'_concat, List.reverse_append]
          simp
        · intro j v h
          rw [← List.append_assoc, List.getElem?_append_left]
          · exact h
          · exact (List.getElem?_eq_some_iff.1 h).1
        · simp
        · intro y hy; exact List.mem_cons_of_mem _ hy
    have hidlt2 : id < n0 + map2.length := by
      have : id ∈ map2.map (·.2) := List.mem_map.2 ⟨_, hnew.1, rfl⟩
      rw [hm2.2.2, List.mem_reverse, List.mem_range'_1] at this
      omega
    have hidge2 : n0 ≤ id := by
      have : id ∈ map2.map (·.2) := List.mem_map.2 ⟨_, hnew.1, rfl⟩
      rw [hm2.2.2, List.mem_reverse, List.mem_range'_1] at this
      omega
    have hpos : id * P + x < (m.conn ++ C1).length := by
      rw [List.length_append, hC1, hn0P, ← Nat.add_mul]
      have := Nat.mul_le_mul_right P (show id + 1 ≤ n0 + map2.length by omega)
      rw [Nat.add_mul, Nat.one_mul] at this
      omega
    have hge : m.conn.length ≤ id * P + x := by
      rw [hn0P]
      have := Nat.mul_le_mul_right P hidge2
      omega
    have hset : (m.conn ++ C1).set (id * P + x) (m.points.length + pre.length) =
        m.conn ++ C1.set (id * P + x - m.conn.length) (m.points.length + pre.length) := List.set_append_right _ _ hge
    refine ⟨(⟨m.dim, m.range, m.order, m.points ++ (pre ++ [e]).map (fun e => e.point.reverse), m.conn ++ C1.set (id * P + x - m.conn.length) (m.points.length + pre.length), m.wires⟩, map2), ?_,
      C1.set (id * P + x - m.conn.length) (m.points.length + pre.length), rfl, ?_, hm2.1, hm2.2.1, ?_, ?_⟩
    · unfold insertPoint
      dsimp only
      rw [hcase]
      dsimp only
      rw [hfl, ← hx]
      simp only [Option.bind_eq_bind, Option.bind_some]
      unfold insertCellPoint
      have hppc : ppc ({ m with points := m.points ++ pre.map (fun e => e.point.reverse), conn := m.conn ++ C1 } : Mesh K) = P := hP.symm
      rw [hppc, if_pos hpos]
      simp only [Option.bind_some, List.length_append, List.length_map, List.map_append, List.map_cons, List.map_nil, ← List.append_assoc]
      rw [hset]
    · simpa [← hP] using hC1
    · rw [← hP, ← hn0]; exact hm2.2.2
    · intro k hk
      rw [← hP]
      rw [← hset]
      by_cases hkl : k < pre.length
      · obtain ⟨id', h1, h2⟩ := hent k hkl
        have hek : (pre ++ [e])[k] = pre[k] := List.getElem_append_left hkl
        rw [hek]
        refine ⟨id', hnew.2 _ h1, ?_⟩
        rw [List.getElem?_set_ne]
        · exact hkeep _ _ h2
        · intro heq
          have hin' : pre[k].pt ∈ indices (List.replicate m.dim m.order) := hpt _ (by rw [hl]; simp)
          have hlt' : flatIndex pre[k].pt (List.replicate m.dim m.order) < P := by
            rw [hP, ← listProd_replicate]
            exact flatIndex_lt' hin'
          obtain ⟨e1, e2⟩ := entry_ne hxP hlt' heq
          rw [hx] at e2
          have e3 := flatIndex_inj hin hin' e2
          subst e1
          have e4 : pre[k].cell = e.cell := by
            have hn : (map2.map (·.2)).Nodup := by rw [hm2.2.2, List.nodup_reverse]; exact List.nodup_range'
            have := List.inj_on_of_nodup_map hn (hnew.2 _ h1) hnew.1 rfl
            exact congrArg Prod.fst this
          rw [hl, List.map_append, List.map_cons, List.nodup_append] at hnd
          refine hnd.2.2 (pre[k].cell, pre[k].pt) (List.mem_map.2 ⟨pre[k], List.getElem_mem hkl, rfl⟩) (e.cell, e.pt) (by simp) ?_
          rw [e4, e3]
      · have hk' : k = pre.length := by simp at hk; omega
        subst hk'
        have hek : (pre ++ [e])[pre.length] = e := by simp
        rw [hek]
        refine ⟨id, hnew.1, ?_⟩
        rw [← hx, List.getElem?_set_self hpos]

/-- The new entries are the ids of the new points, each once, when the calls are all the pairs of a cell and an index. -/
theorem after_perm {m : Mesh K} (ho : 1 < m.order) (hlen : m.conn.length % m.order ^ m.dim = 0) {evs : List (Event K)}
    (hpt : ∀ e ∈ evs, e.pt ∈ indices (List.replicate m.dim m.order)) {cs : List (List Nat)}
    (hnd : (evs.map fun e => (e.cell, e.pt)).Nodup) (hcs : cs.Nodup)
    (hall : ∀ c t, (c, t) ∈ (evs.map fun e => (e.cell, e.pt)) ↔ c ∈ cs ∧ t ∈ indices (List.replicate m.dim m.order))
    {st : Mesh K × List (List Nat × Nat)} {C : List Nat} (hA : After m evs st C) :
    C.Perm (List.range' m.points.length evs.length) ∧ st.2.length = cs.length := by
  obtain ⟨hmesh, hCl, hnodup, hmem, hids, hent⟩ := hA
  obtain ⟨P, hP⟩ : ∃ P, P = m.order ^ m.dim := ⟨_, rfl⟩
  have hP0 : 0 < P := by rw [hP]; exact Nat.pow_pos (by omega)
  simp only [← hP] at hlen hCl hids hent
  obtain ⟨n0, hn0⟩ : ∃ n0, n0 = m.conn.length / P := ⟨_, rfl⟩
  have hn0P : m.conn.length = n0 * P := by rw [hn0]; exact (Nat.div_mul_cancel (Nat.dvd_of_mod_eq_zero hlen)).symm
  rw [← hn0] at hids
  have hz : List.replicate m.dim 0 ∈ indices (List.replicate m.dim m.order) := by
    rw [mem_indices]
    generalize m.dim = d
    induction d with
    | zero => exact .nil
    | succ d ih => exact .cons (by omega) ih
  have hcell : ∀ t, t ∈ st.2.map (·.1) ↔ t ∈ cs := by
    intro t
    rw [hmem]
    constructor
    · rintro ⟨e, he, rfl⟩
      exact ((hall e.cell e.pt).1 (List.mem_map.2 ⟨e, he, rfl⟩)).1
    · intro h
      obtain ⟨e, he, h'⟩ := List.mem_map.1 ((hall t _).2 ⟨h, hz⟩)
      exact ⟨e, he, congrArg Prod.fst h'⟩
  have hnc : st.2.length = cs.length := by
    have := ((List.perm_ext_iff_of_nodup hnodup hcs).2 hcell).length_eq
    simpa using this
  refine ⟨?_, hnc⟩
  -- every place holds the id of an event
  have hidn : (st.2.map (·.2)).Nodup := by rw [hids, List.nodup_reverse]; exact List.nodup_range'
  have hplace : ∀ x (hx : x < C.length), ∃ k, ∃ hk : k < evs.length, C[x] = m.points.length + k ∧
      (evs[k].cell, n0 + x / P) ∈ st.2 ∧ flatIndex evs[k].pt (List.replicate m.dim m.order) = x % P := by
    intro x hx
    have hxl : x / P < st.2.length := by
      rw [hCl] at hx
      exact Nat.div_lt_of_lt_mul (by rw [Nat.mul_comm]; exact hx)
    have hid : n0 + x / P ∈ st.2.map (·.2) := by
      rw [hids, List.mem_reverse, List.mem_range'_1]
      exact ⟨Nat.le_add_right _ _, Nat.add_lt_add_left hxl n0⟩
    obtain ⟨⟨t, id⟩, hti, hid'⟩ := List.mem_map.1 hid
    dsimp only at hid'
    subst hid'
    have htc : t ∈ cs := (hcell t).1 (List.mem_map.2 ⟨_, hti, rfl⟩)
    have hxm : x % P < listProd (List.replicate m.dim m.order) := by
      rw [listProd_replicate, ← hP]; exact Nat.mod_lt _ hP0
    obtain ⟨s, hs, hsx⟩ : ∃ s ∈ indices (List.replicate m.dim m.order), flatIndex s (List.replicate m.dim m.order) = x % P := by
      have h1 := indices_flat (List.replicate m.dim m.order)
      have h2 : x % P ∈ List.range (listProd (List.replicate m.dim m.order)) := List.mem_range.2 hxm
      rw [← h1] at h2
      obtain ⟨s, hs, h⟩ := List.mem_map.1 h2
      exact ⟨s, hs, h⟩
    obtain ⟨e, he, hek⟩ := List.mem_map.1 ((hall t s).2 ⟨htc, hs⟩)
    obtain ⟨k, hk, rfl⟩ := List.getElem_of_mem he
    obtain ⟨id', h1, h2⟩ := hent k hk
    have hc1 : evs[k].cell = t := congrArg Prod.fst hek
    have hc2 : evs[k].pt = s := congrArg Prod.snd hek
    have hid2 : id' = n0 + x / P := by
      have a := lookup_of_mem st.2 hnodup _ _ h1
      have b := lookup_of_mem st.2 hnodup _ _ hti
      rw [hc1, b] at a
      exact (Option.some.inj a).symm
    refine ⟨k, hk, ?_, by rw [hc1]; exact hti, by rw [hc2]; exact hsx⟩
    rw [hid2, hc2, hsx] at h2
    have hpos : (n0 + x / P) * P + x % P = m.conn.length + x := by
      rw [Nat.add_mul, ← hn0P]
      have := Nat.div_add_mod x P
      rw [Nat.mul_comm] at this
      omega
    rw [hpos, List.getElem?_append_right (by omega), Nat.add_sub_cancel_left, List.getElem?_eq_getElem hx] at h2
    exact Option.some.inj h2
  have hCn : C.Nodup := by
    rw [List.nodup_iff_injective_getElem]
    rintro ⟨x, hx⟩ ⟨y, hy⟩ hxy
    dsimp only at hxy
    obtain ⟨k, hk, h1, h2, h3⟩ := hplace x hx
    obtain ⟨k', hk', h1', h2', h3'⟩ := hplace y hy
    have hkk : k = k' := by omega
    subst hkk
    have a := lookup_of_mem st.2 hnodup _ _ h2
    have b := lookup_of_mem st.2 hnodup _ _ h2'
    rw [a] at b
    have b' := Option.some.inj b
    have hd : x / P = y / P := by omega
    have hm : x % P = y % P := by omega
    have h5 := Nat.div_add_mod x P
    have h6 := Nat.div_add_mod y P
    rw [hd, hm] at h5
    exact Fin.ext (by simp only; omega)
  refine (List.perm_ext_iff_of_nodup hCn List.nodup_range').2 ?_
  intro v
  rw [List.mem_range'_1]
  constructor
  · intro hv
    obtain ⟨x, hx, rfl⟩ := List.getElem_of_mem hv
    obtain ⟨k, hk, h1, _⟩ := hplace x hx
    omega
  · intro hv
    obtain ⟨k, rfl⟩ : ∃ k, v = m.points.length + k := ⟨v - m.points.length, by omega⟩
    have hk : k < evs.length := by omega
    obtain ⟨id, h1, h2⟩ := hent k hk
    have hge : n0 ≤ id := by
      have : id ∈ st.2.map (·.2) := List.mem_map.2 ⟨_, h1, rfl⟩
      rw [hids, List.mem_reverse, List.mem_range'_1] at this
      omega
    have hge' : m.conn.length ≤ id * P + flatIndex evs[k].pt (List.replicate m.dim m.order) := by
      rw [hn0P]
      have := Nat.mul_le_mul_right P hge
      omega
    rw [List.getElem?_append_right hge'] at h2
    exact List.mem_of_getElem? h2

end Qugar.Reparam
