import Verif.Lemmas.Partition
/-
Property theorems C08, C09, C10, C11: the spatial partition of an unfitted domain.
`n` is the number of cells per direction of the grid, all positive (guaranteed by the grid constructor), at least one
direction; `listProd n` is the number of cells.
-/
namespace Qugar
open Spec Tree

/-- A grid shape: at least one direction and at least one cell per direction. -/
abbrev GridShape (n : List Nat) : Prop := n ≠ [] ∧ ∀ k, k < n.length → 0 < n.getD k 0

/-- **C08**. After any history of calls on the partition: each grid cell lies in exactly one leaf (exactly one
position of the list of leaves), looking the cell up returns that leaf, ids beyond the grid are rejected, the leaves'
sizes add up to the number of cells, and leaves that are cut are single cells. -/
theorem C08_leaves_tile_the_grid (n : List Nat) (hn : GridShape n) (t : Tree) (ht : Reachable n t) :
    (∀ c, c < listProd n →
      ∃ pre r s post, leavesOf t = pre ++ (r, s) :: post ∧ CellIn n r c ∧
        (∀ x ∈ pre ++ post, ¬ CellIn n x.1 c) ∧ findLeaf n t c = some (leaf r s)) ∧
    (∀ c, listProd n ≤ c → findLeaf n t c = none ∧ ∀ x ∈ leavesOf t, ¬ CellIn n x.1 c) ∧
    ((leavesOf t).map fun x => x.1.size).sum = listProd n ∧
    (∀ r, (r, Status.cut) ∈ leavesOf t → r.size = 1) := by
  obtain ⟨hw, hr⟩ := WF.of_reachable hn.2 ht
  refine ⟨?_, ?_, ?_, ?_⟩
  · intro c hc
    exact hw.unique_leaf (by rw [hr]; exact cellIn_root.2 hc)
  · intro c hc
    refine ⟨hw.findLeaf_none (fun h => ?_), fun x _ h => ?_⟩
    · have := cellIn_lt h; omega
    · have := cellIn_lt h; omega
  · rw [hw.size_leaves, hr, ← length_cellsOf (InBounds.root hn.2)]
    have : cellsOf n (Range.ofUpper n) = List.range (listProd n) := by
      refine List.Pairwise.eq_of_mem_iff (r := (· < ·)) (cellsOf_sorted _ _) (range_pairwise_lt _) ?_
      intro c
      rw [mem_cellsOf (InBounds.root hn.2), cellIn_root, List.mem_range]
    rw [this, List.length_range]
  · clear ht hr
    induction t with
    | leaf r s =>
      intro r' h
      simp only [leavesOf, List.mem_singleton, Prod.mk.injEq] at h
      obtain ⟨rfl, rfl⟩ := h
      exact hw.2 rfl
    | node r s a b iha ihb =>
      obtain ⟨_, _, _, _, h5, h6⟩ := hw
      intro r' h
      rw [leavesOf, List.mem_append] at h
      rcases h with h | h
      · exact iha h5 r' h
      · exact ihb h6 r' h

/-- A history on a 3 x 2 grid whose tree has three leaves. -/
example : ∃ t, (root [3, 2]).run [.branch [], .setStatus [false] .empty, .branch [true],
    .setStatus [true, false] .full] = some t ∧ (leavesOf t).length = 3 := ⟨_, rfl, rfl⟩

/-- **C08** (progress). Calls meeting the documented preconditions never fail: an unknown leaf with more than one
cell can be branched, and an unknown leaf can be given any status (`cut` only if it is a single cell). -/
theorem C08_operations_do_not_get_stuck (n : List Nat) (hn : GridShape n) (t : Tree) (ht : Reachable n t)
    (p : List Bool) (r : Range) (hp : atPath (fun l => if l = leaf r .unknown then some l else none) p t ≠ none) :
    (1 < r.size → ∃ t', step t (.branch p) = some t') ∧
    (∀ st, (st = .cut → r.size = 1) → ∃ t', step t (.setStatus p st) = some t') ∧ 0 < r.size := by
  obtain ⟨hw, hr⟩ := WF.of_reachable hn.2 ht
  clear ht hr
  simp only [step]
  induction p generalizing t with
  | nil =>
    simp only [atPath, ne_eq, ite_eq_right_iff, reduceCtorEq, imp_false, not_not] at hp
    subst hp
    refine ⟨fun h => ?_, fun st hst => ?_, hw.1.size_pos⟩
    · obtain ⟨a, b, hs, _⟩ := hw.1.split h
      have : Grid.isUniqueCell r = false := by simp [Grid.isUniqueCell]; omega
      simp [atPath, Tree.branch, this, hs]
    · have : st = .cut → Grid.isUniqueCell r = true := fun h => by simp [Grid.isUniqueCell, hst h]
      refine ⟨leaf r st, ?_⟩
      simp only [atPath, Tree.setStatus]
      rw [if_pos ⟨trivial, this⟩]
  | cons x p ih =>
    cases t with
    | leaf => cases x <;> simp [atPath] at hp
    | node r' s a b =>
      obtain ⟨_, _, _, _, h5, h6⟩ := hw
      cases x with
      | false =>
        simp only [atPath, ne_eq, Option.map_eq_none_iff] at hp
        obtain ⟨h1, h2, h3⟩ := ih a hp h5
        refine ⟨fun h => ?_, fun st hst => ?_, h3⟩
        · obtain ⟨t', e⟩ := h1 h; exact ⟨_, by simp only [atPath, e]; rfl⟩
        · obtain ⟨t', e⟩ := h2 st hst; exact ⟨_, by simp only [atPath, e]; rfl⟩
      | true =>
        simp only [atPath, ne_eq, Option.map_eq_none_iff] at hp
        obtain ⟨h1, h2, h3⟩ := ih b hp h6
        refine ⟨fun h => ?_, fun st hst => ?_, h3⟩
        · obtain ⟨t', e⟩ := h1 h; exact ⟨_, by simp only [atPath, e]; rfl⟩
        · obtain ⟨t', e⟩ := h2 st hst; exact ⟨_, by simp only [atPath, e]; rfl⟩

theorem getCellIds_eq {n : List Nat} (hne : n ≠ []) {t : Tree} (hw : WF n t) (st : Status) (m : List Nat)
    (hm : m.Pairwise (· < ·)) (h : ∀ c, c ∈ m ↔ HasStatus n t c st) : getCellIds n st t = some m := by
  rw [getCellIds, traverse_push hne hw]
  simp only [List.nil_append, Option.map_some, Option.some.injEq]
  have hb : ∀ x ∈ (leavesOf t).filter (fun x => decide (x.2 = st)), InBounds n x.1 :=
    fun x hx => hw.leaf_inBounds x (List.mem_filter.1 hx).1
  refine sortIds_eq_of_mem (flatMap_cells_nodup hb (hw.leaves_disjoint.filter _)) hm ?_
  intro c
  rw [h]
  simp only [List.mem_flatMap, List.mem_filter, decide_eq_true_eq, HasStatus]
  constructor
  · rintro ⟨⟨r, s⟩, ⟨h1, h2⟩, h3⟩
    simp only at h2 h3; subst h2
    exact ⟨r, h1, (mem_cellsOf (hw.leaf_inBounds _ h1) c).1 h3⟩
  · rintro ⟨r, h1, h2⟩
    exact ⟨(r, st), ⟨h1, rfl⟩, (mem_cellsOf (hw.leaf_inBounds _ h1) c).2 h2⟩

/-- **C09**. For every reachable partition and status: the query succeeds and returns a strictly increasing list
which contains exactly the cells of that status; the per-cell predicate and the cell count agree with it; the leaf
count is right; and each cell of the grid is in exactly one of the four lists. -/
theorem C09_cells_by_status (n : List Nat) (hn : GridShape n) (t : Tree) (ht : Reachable n t) :
    (∀ st, ∃ ids, getCellIds n st t = some ids ∧ ids.Pairwise (· < ·) ∧
      (∀ c, c ∈ ids ↔ HasStatus n t c st) ∧
      (∀ c, c ∈ ids ↔ isCell n st t c = some true) ∧
      getNumCells st t = ids.length ∧
      (∃ ls, getLeaves st t = some ls ∧ ls.length = getNumLeaves st t ∧
        ls.map (fun l => (l.range, l.status)) = (leavesOf t).filter fun x => decide (x.2 = st))) ∧
    (∀ c, c < listProd n → ∃! st, ∃ ids, getCellIds n st t = some ids ∧ c ∈ ids) ∧
    (∀ st ids c, getCellIds n st t = some ids → c ∈ ids → c < listProd n) ∧
    getNumCells .full t + getNumCells .empty t + getNumCells .cut t + getNumCells .unknown t = listProd n := by
  obtain ⟨hw, hr⟩ := WF.of_reachable hn.2 ht
  have main : ∀ st, ∃ ids, getCellIds n st t = some ids ∧ ids.Pairwise (· < ·) ∧
      (∀ c, c ∈ ids ↔ HasStatus n t c st) ∧ getNumCells st t = ids.length := by
    intro st
    refine ⟨(List.range (listProd n)).filter (fun c => decide (isCell n st t c = some true)),
      ?_, (range_pairwise_lt _).filter _, ?_, ?_⟩
    · refine getCellIds_eq hn.1 hw st _ ((range_pairwise_lt _).filter _) ?_
      intro c
      simp only [List.mem_filter, List.mem_range, decide_eq_true_eq, hw.isCell_iff]
      exact ⟨fun h => h.2, fun h => ⟨cellIn_lt h.choose_spec.2, h⟩⟩
    · intro c
      simp only [List.mem_filter, List.mem_range, decide_eq_true_eq, hw.isCell_iff]
      exact ⟨fun h => h.2, fun h => ⟨cellIn_lt h.choose_spec.2, h⟩⟩
    · have hb : ∀ x ∈ (leavesOf t).filter (fun x => decide (x.2 = st)), InBounds n x.1 :=
        fun x hx => hw.leaf_inBounds x (List.mem_filter.1 hx).1
      have hnd := flatMap_cells_nodup hb (hw.leaves_disjoint.filter _)
      have e : (((leavesOf t).filter (fun x => decide (x.2 = st))).map fun x => x.1.size).sum =
          (((leavesOf t).filter (fun x => decide (x.2 = st))).flatMap fun x => cellsOf n x.1).length := by
        rw [List.length_flatMap]
        congr 1
        apply List.map_congr_left
        intro x hx
        rw [length_cellsOf (hb x hx)]
      rw [getNumCells_eq, e]
      apply List.Perm.length_eq
      rw [List.perm_ext_iff_of_nodup hnd ((range_pairwise_lt _).filter _ |>.imp (fun h => ne_of_lt h))]
      intro c
      simp only [List.mem_filter, List.mem_range, decide_eq_true_eq, hw.isCell_iff, List.mem_flatMap]
      constructor
      · rintro ⟨⟨r, s⟩, ⟨h1, h2⟩, h3⟩
        simp only at h2 h3; subst h2
        have h3 := (mem_cellsOf (hw.leaf_inBounds _ h1) c).1 h3
        exact ⟨cellIn_lt h3, r, h1, h3⟩
      · rintro ⟨_, r, h1, h2⟩
        exact ⟨(r, st), ⟨h1, rfl⟩, (mem_cellsOf (hw.leaf_inBounds _ h1) c).2 h2⟩
  have hleaf : ∀ st (t : Tree) acc, ∃ ls, traverse (leafChecker st) (fun l acc => some (acc ++ [l])) t acc =
      some (acc ++ ls) ∧
      ls.map (fun l => (l.range, l.status)) = (leavesOf t).filter fun x => decide (x.2 = st) := by
    intro st t
    induction t with
    | leaf r s =>
      intro acc
      simp only [traverse, leafChecker, status, leavesOf]
      by_cases h : s = st
      · exact ⟨[leaf r s], by simp [h], by simp [h, range, status]⟩
      · exact ⟨[], by simp [h], by simp [h]⟩
    | node r s a b iha ihb =>
      intro acc
      obtain ⟨l1, e1, f1⟩ := iha acc
      obtain ⟨l2, e2, f2⟩ := ihb (acc ++ l1)
      refine ⟨l1 ++ l2, ?_, ?_⟩
      · simp only [traverse, e1, Option.bind_some, e2, List.append_assoc]
      · rw [List.map_append, f1, f2, leavesOf, List.filter_append]
  refine ⟨?_, ?_, ?_, ?_⟩
  · intro st
    obtain ⟨ids, h1, h2, h3, h4⟩ := main st
    obtain ⟨ls, e1, e2⟩ := hleaf st t []
    refine ⟨ids, h1, h2, h3, fun c => by rw [h3, hw.isCell_iff], h4, ls, by simpa [getLeaves] using e1, ?_, e2⟩
    rw [getNumLeaves_eq, ← e2, List.length_map]
  · intro c hc
    obtain ⟨s, hs⟩ := hw.hasStatus_exists (c := c) (by rw [hr]; exact cellIn_root.2 hc)
    refine ⟨s, ?_, ?_⟩
    · obtain ⟨ids, h1, _, h3, _⟩ := main s
      exact ⟨ids, h1, (h3 c).2 hs⟩
    · rintro s' ⟨ids, h1, h2⟩
      obtain ⟨ids', h1', _, h3, _⟩ := main s'
      rw [h1] at h1'; cases h1'
      exact hw.hasStatus_unique ((h3 c).1 h2) hs
  · intro st ids c h1 h2
    obtain ⟨ids', h1', _, h3, _⟩ := main st
    rw [h1] at h1'; cases h1'
    exact cellIn_lt ((h3 c).1 h2).choose_spec.2
  · have h8 := (C08_leaves_tile_the_grid n hn t ht).2.2.1
    rw [← h8]
    simp only [getNumCells_eq]
    clear main hleaf h8 hw hr ht
    induction leavesOf t with
    | nil => simp
    | cons x xs ih =>
      obtain ⟨r, s⟩ := x
      cases s <;> simp <;> omega

/-- The lists for a 3 x 2 grid after a short history. -/
example : ∃ t, (root [3, 2]).run [.branch [], .setStatus [false] .empty, .branch [true],
    .setStatus [true, false] .full] = some t ∧ getCellIds [3, 2] .empty t = some [0, 3] ∧
    getCellIds [3, 2] .full t = some [1, 4] ∧ getCellIds [3, 2] .unknown t = some [2, 5] :=
  ⟨_, rfl, by decide +kernel, by decide +kernel, by decide +kernel⟩

/-- **C10**. Among target cells of the grid, the query returns exactly the targets with the requested status
(with the multiplicity they have in the target list), sorted; a target outside of the grid is rejected. -/
theorem C10_target_queries (n : List Nat) (hn : GridShape n) (t : Tree) (ht : Reachable n t) (st : Status)
    (targets : List Nat) :
    ((∀ c ∈ targets, c < listProd n) →
      ∃ ids, getCellIdsTarget n st t targets = some ids ∧ ids.Pairwise (· ≤ ·) ∧
        (∀ c, HasStatus n t c st → ids.count c = targets.count c) ∧
        (∀ c, ¬ HasStatus n t c st → c ∉ ids)) ∧
    ((∃ c ∈ targets, listProd n ≤ c) → getCellIdsTarget n st t targets = none) := by
  obtain ⟨hw, hr⟩ := WF.of_reachable hn.2 ht
  constructor
  · intro hc
    have key : ∃ l, targetLoop n st t targets = some l ∧
        (∀ c, HasStatus n t c st → l.count c = targets.count c) ∧ (∀ c, ¬ HasStatus n t c st → c ∉ l) := by
      induction targets with
      | nil => exact ⟨[], rfl, by simp, by simp⟩
      | cons x xs ih =>
        obtain ⟨l, e, h1, h2⟩ := ih (fun c h => hc c (by simp [h]))
        have hcx : CellIn n t.range x := by rw [hr]; exact cellIn_root.2 (hc x (by simp))
        have hin : isInTree n t x = true := (mem_iff_cellIn hw.inBounds x).2 hcx
        obtain ⟨pre, r, s, post, e1, e2, e3, e4⟩ := hw.unique_leaf hcx
        have hsx : HasStatus n t x s := ⟨r, by rw [e1]; simp, e2⟩
        by_cases hs : s = st
        · subst hs
          refine ⟨x :: l, ?_, ?_, ?_⟩
          · simp [targetLoop, hin, e4, e, leafChecker, status]
          · intro c h; simp only [List.count_cons, h1 c h]
          · intro c h
            simp only [List.mem_cons, not_or]
            exact ⟨fun e => h (e ▸ hsx), h2 c h⟩
        · refine ⟨l, ?_, ?_, h2⟩
          · simp [targetLoop, hin, e4, e, leafChecker, status, hs]
          · intro c h
            have : x ≠ c := fun e => hs (hw.hasStatus_unique hsx (e ▸ h))
            simp [List.count_cons, this, h1 c h]
    obtain ⟨l, e, h1, h2⟩ := key
    obtain ⟨p1, p2⟩ := sortIds_spec l
    refine ⟨sortIds l, by simp [getCellIdsTarget, e], p2, ?_, ?_⟩
    · intro c h; rw [p1.count_eq, h1 c h]
    · intro c h; rw [p1.mem_iff]; exact h2 c h
  · rintro ⟨c, hc, hle⟩
    have : targetLoop n st t targets = none := by
      induction targets with
      | nil => simp at hc
      | cons x xs ih =>
        simp only [List.mem_cons] at hc
        rcases hc with rfl | hc
        · have : ¬ isInTree n t c = true := fun h => by
            have := cellIn_lt ((mem_iff_cellIn hw.inBounds c).1 h); omega
          simp [targetLoop, this]
        · simp only [targetLoop, ih hc]
          split <;> simp
    simp [getCellIdsTarget, this]

example : ∃ t, (root [3, 2]).run [.branch [], .setStatus [false] .empty] = some t ∧
    getCellIdsTarget [3, 2] .empty t [5, 3, 1, 0, 3] = some [0, 3, 3] := ⟨_, rfl, by decide +kernel⟩

theorem leavesOf_atPath {f : Tree → Option Tree} (p : List Bool) {t t' : Tree} (h : atPath f p t = some t') :
    ∃ pre post l l', leavesOf t = pre ++ leavesOf l ++ post ∧ leavesOf t' = pre ++ leavesOf l' ++ post ∧
      f l = some l' := by
  induction p generalizing t t' with
  | nil => exact ⟨[], [], t, t', by simp, by simp, h⟩
  | cons x p ih =>
    cases t with
    | leaf => cases x <;> simp [atPath] at h
    | node r s a b =>
      cases x with
      | false =>
        simp only [atPath, Option.map_eq_some_iff] at h
        obtain ⟨a', ha, rfl⟩ := h
        obtain ⟨pre, post, l, l', e1, e2, e3⟩ := ih ha
        exact ⟨pre, post ++ leavesOf b, l, l', by simp [leavesOf, e1], by simp [leavesOf, e2], e3⟩
      | true =>
        simp only [atPath, Option.map_eq_some_iff] at h
        obtain ⟨a', ha, rfl⟩ := h
        obtain ⟨pre, post, l, l', e1, e2, e3⟩ := ih ha
        exact ⟨leavesOf a ++ pre, post, l, l', by simp [leavesOf, e1], by simp [leavesOf, e2], e3⟩

/-- **C11** (branching is invisible, statuses are final). Branching a node changes the status of no cell, so that
all the lists and counts stay the same; assigning a status changes only cells that were unknown; and no sequence of
calls ever changes a status already assigned. -/
theorem C11_history_monotone (n : List Nat) (hn : GridShape n) (t : Tree) (ht : Reachable n t) :
    (∀ p t', step t (.branch p) = some t' →
      (∀ c s, HasStatus n t c s ↔ HasStatus n t' c s) ∧
      (∀ st, getCellIds n st t' = getCellIds n st t ∧ getNumCells st t' = getNumCells st t)) ∧
    (∀ p st t', step t (.setStatus p st) = some t' → ∀ c, c < listProd n →
      (HasStatus n t c .unknown ∧ HasStatus n t' c st) ∨ (∀ s, HasStatus n t c s ↔ HasStatus n t' c s)) ∧
    (∀ ops t', run t ops = some t' → ∀ c s, s ≠ .unknown → HasStatus n t c s → HasStatus n t' c s) := by
  have hstep : ∀ t, Reachable n t → ∀ o t', step t o = some t' → Reachable n t' := by
    rintro t ⟨ops, h⟩ o t' h'
    refine ⟨ops ++ [o], ?_⟩
    have : ∀ (ops : List Op) (t0 : Tree), run t0 ops = some t → run t0 (ops ++ [o]) = some t' := by
      intro ops
      induction ops with
      | nil =>
        intro t0 h0
        simp only [run, Option.some.injEq] at h0
        subst h0
        simp [run, h']
      | cons o' os ih =>
        intro t0 h0
        simp only [run, Option.bind_eq_some_iff] at h0
        obtain ⟨t1, h1, h2⟩ := h0
        simp only [List.cons_append, run, h1, Option.bind_some, ih t1 h2]
    exact this ops _ h
  have hbr : ∀ t, Reachable n t → ∀ p t', step t (.branch p) = some t' →
      ∀ c s, HasStatus n t c s ↔ HasStatus n t' c s := by
    intro t ht p t' h c s
    obtain ⟨hw, hr⟩ := WF.of_reachable hn.2 ht
    obtain ⟨pre, post, l, l', e1, e2, e3⟩ := leavesOf_atPath p h
    obtain ⟨r, a, b, rfl, hs, rfl⟩ := branch_some e3
    have hb : InBounds n r := hw.leaf_inBounds (r, .unknown) (by rw [e1]; simp [leavesOf])
    obtain ⟨a', b', hs', _, _, _, hu, _⟩ := hb.split (split_some_size hs)
    rw [hs] at hs'; cases hs'
    simp only [HasStatus, e1, e2, leavesOf, List.mem_append, List.mem_cons, List.not_mem_nil, or_false,
      Prod.mk.injEq]
    constructor
    · rintro ⟨r', (h | ⟨rfl, rfl⟩) | h, hc⟩
      · exact ⟨r', Or.inl (Or.inl h), hc⟩
      · rcases (hu c).1 hc with hc | hc
        · exact ⟨a, Or.inl (Or.inr (Or.inl ⟨rfl, rfl⟩)), hc⟩
        · exact ⟨b, Or.inl (Or.inr (Or.inr ⟨rfl, rfl⟩)), hc⟩
      · exact ⟨r', Or.inr h, hc⟩
    · rintro ⟨r', (h | ⟨rfl, rfl⟩ | ⟨rfl, rfl⟩) | h, hc⟩
      · exact ⟨r', Or.inl (Or.inl h), hc⟩
      · exact ⟨r, Or.inl (Or.inr ⟨rfl, rfl⟩), (hu c).2 (Or.inl hc)⟩
      · exact ⟨r, Or.inl (Or.inr ⟨rfl, rfl⟩), (hu c).2 (Or.inr hc)⟩
      · exact ⟨r', Or.inr h, hc⟩
  have hset : ∀ t, Reachable n t → ∀ p st t', step t (.setStatus p st) = some t' → ∀ c, c < listProd n →
      (HasStatus n t c .unknown ∧ HasStatus n t' c st) ∨ (∀ s, HasStatus n t c s ↔ HasStatus n t' c s) := by
    intro t ht p st t' h c hc
    obtain ⟨pre, post, l, l', e1, e2, e3⟩ := leavesOf_atPath p h
    obtain ⟨r, rfl, rfl, _⟩ := setStatus_some e3
    by_cases hcr : CellIn n r c
    · left
      exact ⟨⟨r, by rw [e1]; simp [leavesOf], hcr⟩, ⟨r, by rw [e2]; simp [leavesOf], hcr⟩⟩
    · right
      intro s
      simp only [HasStatus, e1, e2, leavesOf, List.mem_append, List.mem_cons, List.not_mem_nil, or_false,
        Prod.mk.injEq]
      constructor
      · rintro ⟨r', (h | ⟨rfl, rfl⟩) | h, hc⟩
        · exact ⟨r', Or.inl (Or.inl h), hc⟩
        · exact absurd hc hcr
        · exact ⟨r', Or.inr h, hc⟩
      · rintro ⟨r', (h | ⟨rfl, rfl⟩) | h, hc⟩
        · exact ⟨r', Or.inl (Or.inl h), hc⟩
        · exact absurd hc hcr
        · exact ⟨r', Or.inr h, hc⟩
  refine ⟨?_, hset t ht, ?_⟩
  · intro p t' h
    refine ⟨hbr t ht p t' h, fun st => ?_⟩
    obtain ⟨ids, h1, h2, h3, _, h5, _⟩ := (C09_cells_by_status n hn t ht).1 st
    obtain ⟨ids', h1', h2', h3', _, h5', _⟩ := (C09_cells_by_status n hn t' (hstep t ht _ t' h)).1 st
    have : ids' = ids := List.Pairwise.eq_of_mem_iff (r := (· < ·)) h2' h2
      (fun c => by rw [h3', h3, hbr t ht p t' h])
    rw [h1, h1', h5, h5', this]
    exact ⟨rfl, rfl⟩
  · intro ops
    induction ops generalizing t with
    | nil =>
      intro t' h c s _ hs
      simp only [run, Option.some.injEq] at h
      subst h; exact hs
    | cons o os ih =>
      intro t' h c s hne hs
      simp only [run, Option.bind_eq_some_iff] at h
      obtain ⟨t1, h1, h2⟩ := h
      refine ih t1 (hstep t ht o t1 h1) t' h2 c s hne ?_
      cases o with
      | branch p => exact (hbr t ht p t1 h1 c s).1 hs
      | setStatus p st =>
        obtain ⟨hw, _⟩ := WF.of_reachable hn.2 ht
        rcases hset t ht p st t1 h1 c (cellIn_lt hs.choose_spec.2) with ⟨hu, _⟩ | he
        · exact absurd (hw.hasStatus_unique hs hu) hne
        · exact (he s).1 hs

theorem atPath_leafOnly {f : Tree → Option Tree} (hf : ∀ r s a b, f (node r s a b) = none) (x : Bool) (p : List Bool)
    {g : Tree → Option Tree} {t t' : Tree} (h : atPath g (x :: p) t = some t') : f t = none ∧ f t' = none := by
  cases t with
  | leaf => cases x <;> simp [atPath] at h
  | node r s a b =>
    refine ⟨hf _ _ _ _, ?_⟩
    cases x <;> simp only [atPath, Option.map_eq_some_iff] at h <;> obtain ⟨_, _, rfl⟩ := h <;> exact hf _ _ _ _

theorem atPath_comm {f g : Tree → Option Tree} (hf : ∀ r s a b, f (node r s a b) = none)
    (hg : ∀ r s a b, g (node r s a b) = none)
    (hl : ∀ t x y u v, f t = some x → g x = some y → g t = some u → f u = some v → y = v)
    (p q : List Bool) {t x y u v : Tree} (h1 : atPath f p t = some x) (h2 : atPath g q x = some y)
    (h3 : atPath g q t = some u) (h4 : atPath f p u = some v) : y = v := by
  induction p generalizing q t x y u v with
  | nil =>
    cases q with
    | nil => exact hl t x y u v h1 h2 h3 h4
    | cons b q =>
      have := (atPath_leafOnly hf b q h3).1
      simp only [atPath] at h1
      rw [this] at h1; simp at h1
  | cons a p ih =>
    cases q with
    | nil =>
      have := (atPath_leafOnly hg a p h1).1
      simp only [atPath] at h3
      rw [this] at h3; simp at h3
    | cons b q =>
      cases t with
      | leaf => cases a <;> simp [atPath] at h1
      | node r s l m =>
        cases a <;> cases b <;> simp only [atPath, Option.map_eq_some_iff] at h1 h3 <;>
          obtain ⟨x', hx, rfl⟩ := h1 <;> obtain ⟨u', hu, rfl⟩ := h3 <;>
          simp only [atPath, Option.map_eq_some_iff] at h2 h4 <;>
          obtain ⟨y', hy, rfl⟩ := h2 <;> obtain ⟨v', hv, rfl⟩ := h4
        · rw [ih q hx hy hu hv]
        · rw [hx] at hv; rw [hy] at hu; cases hv; cases hu; rfl
        · rw [hx] at hv; rw [hy] at hu; cases hv; cases hu; rfl
        · rw [ih q hx hy hu hv]

/-- **C11** (confluence). Whenever two calls can be made in either order, the order does not matter. -/
theorem C11_operations_commute (t : Tree) (o₁ o₂ : Op) (y v : Tree) (h1 : run t [o₁, o₂] = some y)
    (h2 : run t [o₂, o₁] = some v) : y = v := by
  simp only [run, Option.bind_eq_some_iff, Option.some.injEq] at h1 h2
  obtain ⟨x, a1, y', a2, rfl⟩ := h1
  obtain ⟨u, b1, v', b2, rfl⟩ := h2
  have nb : ∀ r s a b, branch (node r s a b) = none := fun _ _ _ _ => rfl
  have ns : ∀ st r s a b, setStatus st (node r s a b) = none := fun _ _ _ _ _ => rfl
  cases o₁ with
  | branch p =>
    cases o₂ with
    | branch q =>
      refine atPath_comm nb nb ?_ p q a1 a2 b1 b2
      intro t x y u v h1 h2 h3 h4
      obtain ⟨_, _, _, rfl, _, rfl⟩ := branch_some h1
      simp [branch] at h2
    | setStatus q st =>
      refine atPath_comm nb (ns st) ?_ p q a1 a2 b1 b2
      intro t x y u v h1 h2 h3 h4
      obtain ⟨_, _, _, rfl, _, rfl⟩ := branch_some h1
      simp [setStatus] at h2
  | setStatus p st =>
    cases o₂ with
    | branch q =>
      refine atPath_comm (ns st) nb ?_ p q a1 a2 b1 b2
      intro t x y u v h1 h2 h3 h4
      obtain ⟨_, _, _, rfl, _, rfl⟩ := branch_some h3
      simp [setStatus] at h4
    | setStatus q st' =>
      refine atPath_comm (ns st) (ns st') ?_ p q a1 a2 b1 b2
      intro t x y u v h1 h2 h3 h4
      obtain ⟨r, rfl, rfl, _⟩ := setStatus_some h1
      obtain ⟨r2, e, rfl, _⟩ := setStatus_some h2
      obtain ⟨r3, e', rfl, _⟩ := setStatus_some h3
      obtain ⟨r4, e'', rfl, _⟩ := setStatus_some h4
      simp only [leaf.injEq] at e e' e''
      obtain ⟨rfl, rfl⟩ := e
      obtain ⟨rfl, _⟩ := e'
      obtain ⟨rfl, rfl⟩ := e''
      rfl

/-- Both orders are possible for calls on different leaves. -/
example : ∃ t y, (root [3, 2]).run [.branch []] = some t ∧
    run t [.branch [true], .setStatus [false] .empty] = some y ∧
    run t [.setStatus [false] .empty, .branch [true]] = some y := ⟨_, _, rfl, rfl, rfl⟩

/-- The accessor `get_status` fails on every leaf, whatever its status, i.e. on exactly the nodes that carry a
meaningful status: its assertion is inverted (unfitted_domain_binary_part.cpp:65). -/
theorem C08_get_status_fails_on_leaves (r : Range) (s : Status) : getStatus (leaf r s) = none := rfl

end Qugar
