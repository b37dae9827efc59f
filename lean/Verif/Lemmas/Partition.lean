import Verif.Spec.Partition
import Verif.Lemmas.Grid
import Mathlib.Data.List.Sort
/-
Lemmas on partition trees.
-/
namespace Qugar
open Spec

/-- A non-empty index box within the grid. -/
def InBounds (n : List Nat) (r : Range) : Prop :=
  r.lo.length = n.length ∧ r.up.length = n.length ∧
    ∀ k, k < n.length → r.lo.getD k 0 < r.up.getD k 0 ∧ r.up.getD k 0 ≤ n.getD k 0

theorem getD_ge {l : List Nat} {k : Nat} (h : l.length ≤ k) : l.getD k 0 = 0 := by
  simp [List.getD_eq_getElem?_getD, List.getElem?_eq_none h]

theorem InBounds.valid {n : List Nat} {r : Range} (h : InBounds n r) : r.Valid := by
  refine ⟨by rw [h.1, h.2.1], fun k => ?_⟩
  by_cases hk : k < n.length
  · exact le_of_lt (h.2.2 k hk).1
  · rw [getD_ge (by have := h.1; omega)]; omega

theorem InBounds.inSize {n : List Nat} {r : Range} (h : InBounds n r) {i : List Nat} (hi : InBox r.lo r.up i) :
    InSize n i := by
  refine ⟨by rw [hi.2.1, h.2.1], fun k hk => ?_⟩
  have := (h.2.2 k hk).2
  have := (hi.2.2 k (by rw [hi.2.1, h.2.1]; exact hk)).2
  omega

theorem InBounds.nonemptyBox {n : List Nat} {r : Range} (h : InBounds n r) : NonemptyBox r.lo r.up := by
  obtain ⟨h1, h2, h3⟩ := h
  rw [NonemptyBox, List.forall₂_iff_get]
  refine ⟨by omega, fun k hk1 hk2 => ?_⟩
  have := (h3 k (by omega)).1
  simpa [List.getD_eq_getElem?_getD, hk1, hk2] using this

theorem InBounds.size_pos {n : List Nat} {r : Range} (h : InBounds n r) : 0 < r.size := by
  rw [Range.size, tsize_eq, listProd_pos]
  intro k hk
  rw [sizes_getD _ h.valid.1]
  rw [sizes_length _ h.valid.1, h.2.1] at hk
  have := (h.2.2 k hk).1
  omega

theorem mem_iff_cellIn {n : List Nat} {r : Range} (h : InBounds n r) (c : Nat) :
    r.isInRangeFlat c n = true ↔ CellIn n r c := by
  rw [(C04_membership_and_size r h.valid).2.2 c n h.1.symm]
  constructor
  · rintro ⟨i, h1, h2, h3⟩
    rw [flat_eq h1] at h2
    exact ⟨i, h1, by simpa using h2, h3⟩
  · rintro ⟨i, h1, h2, h3⟩
    exact ⟨i, h1, by rw [flat_eq h1, h2], h3⟩

theorem cellIn_lt {n : List Nat} {r : Range} {c : Nat} (h : CellIn n r c) : c < listProd n := by
  obtain ⟨i, h1, h2, _⟩ := h
  rw [← h2]
  exact flatIndex_lt (forall2_lt_iff_inSize.2 h1)

theorem InBounds.split {n : List Nat} {r : Range} (h : InBounds n r) (hs : 1 < r.size) :
    ∃ a b, r.split = some (a, b) ∧ InBounds n a ∧ InBounds n b ∧ a.size + b.size = r.size ∧
      (∀ c, CellIn n r c ↔ (CellIn n a c ∨ CellIn n b c)) ∧
      (∀ c, ¬ (CellIn n a c ∧ CellIn n b c)) := by
  obtain ⟨a, b, hab, va, vb, hu, hd, pa, pb, hsz⟩ := C03_split_bipartition r h.valid hs
  obtain ⟨hd1, hd2, hm, hpos⟩ := split_dir_facts r h.valid hs
  have hab' := hab
  simp only [Range.split, hs, if_true, Option.some.injEq, Prod.mk.injEq] at hab'
  obtain ⟨ha, hb⟩ := hab'
  refine ⟨a, b, hab, ?_, ?_, hsz, ?_, ?_⟩
  · subst ha
    refine ⟨h.1, by simpa using h.2.1, fun k hk => ?_⟩
    simp only
    rw [getD_set _ _ _ _ hd2]
    have := h.2.2 k hk
    split
    · rename_i e; subst e; omega
    · exact this
  · subst hb
    refine ⟨by simpa using h.1, h.2.1, fun k hk => ?_⟩
    simp only
    rw [getD_set _ _ _ _ hd1]
    have := h.2.2 k hk
    split
    · rename_i e; subst e; omega
    · exact this
  · intro c
    simp only [CellIn, hu]
    constructor
    · rintro ⟨i, h1, h2, h3 | h3⟩
      · exact Or.inl ⟨i, h1, h2, h3⟩
      · exact Or.inr ⟨i, h1, h2, h3⟩
    · rintro (⟨i, h1, h2, h3⟩ | ⟨i, h1, h2, h3⟩)
      · exact ⟨i, h1, h2, Or.inl h3⟩
      · exact ⟨i, h1, h2, Or.inr h3⟩
  · rintro c ⟨⟨i, h1, h2, h3⟩, ⟨j, k1, k2, k3⟩⟩
    have e1 := unflatRec_flatIndex (forall2_lt_iff_inSize.2 h1)
    have e2 := unflatRec_flatIndex (forall2_lt_iff_inSize.2 k1)
    rw [h2] at e1; rw [k2] at e2
    rw [e1] at e2; subst e2
    exact hd _ ⟨h3, k3⟩

theorem InBounds.root {n : List Nat} (hn : ∀ k, k < n.length → 0 < n.getD k 0) :
    InBounds n (Range.ofUpper n) := by
  refine ⟨by simp [Range.ofUpper], by simp [Range.ofUpper], fun k hk => ⟨?_, le_refl _⟩⟩
  have e : ((Range.ofUpper n).lo).getD k 0 = 0 := by
    simp [Range.ofUpper, List.getD_eq_getElem?_getD, hk]
  rw [e]
  exact hn k hk

theorem cellIn_root {n : List Nat} {c : Nat} : CellIn n (Range.ofUpper n) c ↔ c < listProd n := by
  constructor
  · exact cellIn_lt
  · intro h
    have hl := unflatRec_lt (s := n) (fl := c) (by omega)
    have hs := forall2_lt_iff_inSize.1 hl
    refine ⟨_, hs, flatIndex_unflatRec h, ?_, ?_, ?_⟩
    · simp [Range.ofUpper, hs.1]
    · simp [Range.ofUpper, hs.1]
    · intro k hk
      rw [hs.1] at hk
      refine ⟨?_, hs.2 k hk⟩
      simp [Range.ofUpper, List.getD_eq_getElem?_getD, hk]

/-- The increasing list of the cells of a range. -/
def cellsOf (n : List Nat) (r : Range) : List Nat :=
  (List.range (listProd n)).filter fun c => r.isInRangeFlat c n

theorem mem_cellsOf {n : List Nat} {r : Range} (h : InBounds n r) (c : Nat) :
    c ∈ cellsOf n r ↔ CellIn n r c := by
  simp only [cellsOf, List.mem_filter, List.mem_range, mem_iff_cellIn h]
  exact ⟨fun h => h.2, fun h => ⟨cellIn_lt h, h⟩⟩

theorem range_pairwise_lt (N : Nat) : (List.range N).Pairwise (· < ·) := by
  rw [List.pairwise_iff_getElem]; intro i j _ _ h; simpa using h

theorem cellsOf_sorted (n : List Nat) (r : Range) : (cellsOf n r).Pairwise (· < ·) :=
  List.Pairwise.filter _ (range_pairwise_lt _)

theorem mapM_flat {n : List Nat} (L : List (List Nat)) (h : ∀ i ∈ L, InSize n i) :
    L.mapM (fun t => flat t n) = some (L.map fun t => flatIndex t n) := by
  induction L with
  | nil => simp
  | cons a as ih =>
    rw [List.mapM_cons, flat_eq (h a (by simp)), ih (fun i hi => h i (by simp [hi]))]
    simp

theorem rangeList_flat_eq {n : List Nat} {r : Range} (h : InBounds n r) :
    (rangeList r.lo r.up).map (fun t => flatIndex t n) = cellsOf n r := by
  refine List.Pairwise.eq_of_mem_iff (r := (· < ·)) ?_ (cellsOf_sorted n r) ?_
  · rw [List.pairwise_map]
    exact rangeList_pairwise_flat _ _ _ (fun i hi => h.inSize hi)
  · intro c
    rw [mem_cellsOf h, List.mem_map]
    constructor
    · rintro ⟨i, hi, rfl⟩
      rw [mem_rangeList] at hi
      exact ⟨i, h.inSize hi, rfl, hi⟩
    · rintro ⟨i, _, h2, h3⟩
      exact ⟨i, mem_rangeList.2 h3, h2⟩

theorem length_cellsOf {n : List Nat} {r : Range} (h : InBounds n r) : (cellsOf n r).length = r.size := by
  rw [← rangeList_flat_eq h, List.length_map, size_eq_length r h.valid.1]

namespace Tree

theorem pushCells_eq {n : List Nat} (hn : n ≠ []) {t : Tree} (h : InBounds n t.range) (acc : List Nat) :
    pushCells n t acc = some (acc ++ cellsOf n t.range) := by
  have hlo : t.range.lo ≠ [] := by
    intro e; have := h.1; rw [e] at this; simp at this; exact hn (List.length_eq_zero_iff.1 this.symm)
  rw [pushCells, visit_nonempty _ h.nonemptyBox hlo _ (by omega)]
  simp only [Option.bind_eq_bind, Option.bind_some]
  rw [mapM_flat _ (fun i hi => h.inSize (mem_rangeList.1 hi)), rangeList_flat_eq h]
  rfl

/-- Invariant of reachable trees. -/
def WF (n : List Nat) : Tree → Prop
  | leaf r s => InBounds n r ∧ (s = .cut → r.size = 1)
  | node r s a b => s = .unknown ∧ InBounds n r ∧ 1 < r.size ∧ r.split = some (a.range, b.range) ∧ WF n a ∧ WF n b

theorem WF.inBounds {n : List Nat} {t : Tree} (h : WF n t) : InBounds n t.range := by
  cases t with
  | leaf r s => exact h.1
  | node r s a b => exact h.2.1

theorem WF.root {n : List Nat} (hn : ∀ k, k < n.length → 0 < n.getD k 0) : WF n (root n) :=
  ⟨InBounds.root hn, by simp⟩

theorem setStatus_some {st : Status} {t t' : Tree} (h : setStatus st t = some t') :
    ∃ r, t = leaf r .unknown ∧ t' = leaf r st ∧ (st = .cut → r.size = 1) := by
  cases t with
  | node => simp [setStatus] at h
  | leaf r s =>
    simp only [setStatus] at h
    split at h
    · rename_i hc
      obtain ⟨rfl, hc⟩ := hc
      refine ⟨r, rfl, by simpa using h.symm, fun e => ?_⟩
      simpa [Grid.isUniqueCell] using hc e
    · simp at h

theorem branch_some {t t' : Tree} (h : branch t = some t') :
    ∃ r a b, t = leaf r .unknown ∧ r.split = some (a, b) ∧
      t' = node r .unknown (leaf a .unknown) (leaf b .unknown) := by
  cases t with
  | node => simp [branch] at h
  | leaf r s =>
    simp only [branch] at h
    split at h
    · rename_i hc
      obtain ⟨rfl, hc⟩ := hc
      rw [Option.map_eq_some_iff] at h
      obtain ⟨⟨a, b⟩, h1, h2⟩ := h
      exact ⟨r, a, b, rfl, h1, h2.symm⟩
    · simp at h

theorem split_some_size {r : Range} {x : Range × Range} (h : r.split = some x) : 1 < r.size := by
  unfold Range.split at h
  split at h
  · assumption
  · simp at h

theorem WF.branch {n : List Nat} {t t' : Tree} (hw : WF n t) (h : branch t = some t') : WF n t' ∧ t'.range = t.range := by
  obtain ⟨r, a, b, rfl, hs, rfl⟩ := branch_some h
  obtain ⟨a', b', hs', ha, hb, _⟩ := hw.1.split (split_some_size hs)
  rw [hs] at hs'; cases hs'
  exact ⟨⟨rfl, hw.1, split_some_size hs, hs, ⟨ha, by simp⟩, ⟨hb, by simp⟩⟩, rfl⟩

theorem WF.setStatus {n : List Nat} {st : Status} {t t' : Tree} (hw : WF n t) (h : setStatus st t = some t') :
    WF n t' ∧ t'.range = t.range := by
  obtain ⟨r, rfl, rfl, hc⟩ := setStatus_some h
  exact ⟨⟨hw.1, hc⟩, rfl⟩

theorem WF.atPath {n : List Nat} {f : Tree → Option Tree}
    (hf : ∀ t t', WF n t → f t = some t' → WF n t' ∧ t'.range = t.range) (p : List Bool) {t t' : Tree}
    (hw : WF n t) (h : atPath f p t = some t') : WF n t' ∧ t'.range = t.range := by
  induction p generalizing t t' with
  | nil => exact hf _ _ hw h
  | cons x p ih =>
    cases t with
    | leaf => cases x <;> simp [Tree.atPath] at h
    | node r s a b =>
      obtain ⟨h1, h2, h3, h4, h5, h6⟩ := hw
      cases x with
      | false =>
        simp only [Tree.atPath, Option.map_eq_some_iff] at h
        obtain ⟨a', ha, rfl⟩ := h
        obtain ⟨wa, ra⟩ := ih h5 ha
        exact ⟨⟨h1, h2, h3, by rw [ra]; exact h4, wa, h6⟩, rfl⟩
      | true =>
        simp only [Tree.atPath, Option.map_eq_some_iff] at h
        obtain ⟨a', ha, rfl⟩ := h
        obtain ⟨wa, ra⟩ := ih h6 ha
        exact ⟨⟨h1, h2, h3, by rw [ra]; exact h4, h5, wa⟩, rfl⟩

theorem WF.step {n : List Nat} {t t' : Tree} {o : Op} (hw : WF n t) (h : step t o = some t') :
    WF n t' ∧ t'.range = t.range := by
  cases o with
  | branch p => exact WF.atPath (fun _ _ h1 h2 => h1.branch h2) p hw h
  | setStatus p st => exact WF.atPath (fun _ _ h1 h2 => h1.setStatus h2) p hw h

theorem WF.run {n : List Nat} (ops : List Op) {t t' : Tree} (hw : WF n t) (h : run t ops = some t') :
    WF n t' ∧ t'.range = t.range := by
  induction ops generalizing t with
  | nil => simp only [Tree.run, Option.some.injEq] at h; subst h; exact ⟨hw, rfl⟩
  | cons o os ih =>
    simp only [Tree.run, Option.bind_eq_some_iff] at h
    obtain ⟨t1, h1, h2⟩ := h
    obtain ⟨w1, r1⟩ := hw.step h1
    obtain ⟨w2, r2⟩ := ih w1 h2
    exact ⟨w2, r2.trans r1⟩

theorem WF.of_reachable {n : List Nat} (hn : ∀ k, k < n.length → 0 < n.getD k 0) {t : Tree} (h : Reachable n t) :
    WF n t ∧ t.range = Range.ofUpper n := by
  obtain ⟨ops, h⟩ := h
  exact (WF.root hn).run ops h

/-! ### leaves -/

theorem WF.leaf_inBounds {n : List Nat} {t : Tree} (hw : WF n t) : ∀ x ∈ leavesOf t, InBounds n x.1 := by
  induction t with
  | leaf r s => simp [leavesOf]; exact hw.1
  | node r s a b iha ihb =>
    obtain ⟨_, _, _, _, h5, h6⟩ := hw
    intro x hx
    rw [leavesOf, List.mem_append] at hx
    rcases hx with hx | hx
    · exact iha h5 x hx
    · exact ihb h6 x hx

theorem WF.children {n : List Nat} {r : Range} {s : Status} {a b : Tree} (hw : WF n (node r s a b)) :
    (∀ c, CellIn n r c ↔ (CellIn n a.range c ∨ CellIn n b.range c)) ∧
      (∀ c, ¬ (CellIn n a.range c ∧ CellIn n b.range c)) ∧ a.range.size + b.range.size = r.size := by
  obtain ⟨_, h2, h3, h4, _, _⟩ := hw
  obtain ⟨a', b', hs', _, _, h1, h2, h3⟩ := h2.split h3
  rw [h4] at hs'; cases hs'
  exact ⟨h2, h3, h1⟩

theorem WF.leaf_sub {n : List Nat} {t : Tree} (hw : WF n t) {c : Nat} :
    ∀ x ∈ leavesOf t, CellIn n x.1 c → CellIn n t.range c := by
  induction t with
  | leaf r s => simp [leavesOf, range]
  | node r s a b iha ihb =>
    have hc := hw.children
    obtain ⟨_, _, _, _, h5, h6⟩ := hw
    intro x hx hcx
    rw [leavesOf, List.mem_append] at hx
    rw [range, hc.1]
    rcases hx with hx | hx
    · exact Or.inl (iha h5 x hx hcx)
    · exact Or.inr (ihb h6 x hx hcx)

/-- Main lemma: exactly one leaf holds a cell of the tree and `find_leaf` returns it. -/
theorem WF.unique_leaf {n : List Nat} {t : Tree} (hw : WF n t) {c : Nat} (hc : CellIn n t.range c) :
    ∃ pre r s post, leavesOf t = pre ++ (r, s) :: post ∧ CellIn n r c ∧
      (∀ x ∈ pre ++ post, ¬ CellIn n x.1 c) ∧ findLeaf n t c = some (leaf r s) := by
  induction t with
  | leaf r s =>
    refine ⟨[], r, s, [], rfl, hc, by simp, ?_⟩
    simp [findLeaf, isInTree, range, (mem_iff_cellIn hw.1 c).2 hc]
  | node r s a b iha ihb =>
    have hch := hw.children
    obtain ⟨_, h2, _, _, h5, h6⟩ := hw
    simp only [range] at hc
    have hin : isInTree n (node r s a b) c = true := (mem_iff_cellIn h2 c).2 hc
    rcases (hch.1 c).1 hc with hca | hcb
    · obtain ⟨pre, r', s', post, e1, e2, e3, e4⟩ := iha h5 hca
      refine ⟨pre, r', s', post ++ leavesOf b, by simp [leavesOf, e1], e2, ?_, ?_⟩
      · intro x hx hcx
        rw [← List.append_assoc, List.mem_append] at hx
        rcases hx with hx | hx
        · exact e3 x hx hcx
        · exact hch.2.1 c ⟨hca, h6.leaf_sub x hx hcx⟩
      · have : isInTree n a c = true := (mem_iff_cellIn h5.inBounds c).2 hca
        rw [findLeaf, if_pos hin, if_pos this, e4]
    · obtain ⟨pre, r', s', post, e1, e2, e3, e4⟩ := ihb h6 hcb
      refine ⟨leavesOf a ++ pre, r', s', post, by simp [leavesOf, e1], e2, ?_, ?_⟩
      · intro x hx hcx
        rw [List.append_assoc, List.mem_append] at hx
        rcases hx with hx | hx
        · exact hch.2.1 c ⟨h5.leaf_sub x hx hcx, hcb⟩
        · exact e3 x hx hcx
      · have : ¬ isInTree n a c = true := fun h => hch.2.1 c ⟨(mem_iff_cellIn h5.inBounds c).1 h, hcb⟩
        rw [findLeaf, if_pos hin, if_neg this, e4]

theorem WF.findLeaf_none {n : List Nat} {t : Tree} (hw : WF n t) {c : Nat} (hc : ¬ CellIn n t.range c) :
    findLeaf n t c = none := by
  have : ¬ isInTree n t c = true := fun h => hc ((mem_iff_cellIn hw.inBounds c).1 h)
  cases t <;> simp [findLeaf, this]

theorem WF.isCell_iff {n : List Nat} {t : Tree} (hw : WF n t) (c : Nat) (s : Status) :
    isCell n s t c = some true ↔ HasStatus n t c s := by
  constructor
  · intro h
    simp only [isCell, Option.map_eq_some_iff, decide_eq_true_eq] at h
    obtain ⟨l, hl, hs⟩ := h
    by_cases hc : CellIn n t.range c
    · obtain ⟨pre, r, s', post, e1, e2, _, e4⟩ := hw.unique_leaf hc
      rw [hl] at e4; cases e4
      simp only [status] at hs; subst hs
      exact ⟨r, by rw [e1]; simp, e2⟩
    · rw [hw.findLeaf_none hc] at hl; simp at hl
  · rintro ⟨r, hr, hc⟩
    obtain ⟨pre, r', s', post, e1, e2, e3, e4⟩ := hw.unique_leaf (hw.leaf_sub _ hr hc)
    rw [e1] at hr
    have : (r, s) = (r', s') := by
      simp only [List.mem_append, List.mem_cons] at hr
      rcases hr with hr | hr | hr
      · exact absurd hc (e3 (r, s) (by simp [hr]))
      · exact hr
      · exact absurd hc (e3 (r, s) (by simp [hr]))
    cases this
    simp [isCell, e4, status]

theorem WF.isCell_false {n : List Nat} {t : Tree} (hw : WF n t) {c : Nat} (hc : CellIn n t.range c) (s : Status)
    (h : ¬ HasStatus n t c s) : isCell n s t c = some false := by
  obtain ⟨pre, r', s', post, e1, e2, e3, e4⟩ := hw.unique_leaf hc
  rw [isCell, e4, Option.map_some, Option.some.injEq, decide_eq_false_iff_not]
  intro e
  change s' = s at e
  subst e
  exact h ⟨r', by rw [e1]; simp, e2⟩

theorem WF.hasStatus_unique {n : List Nat} {t : Tree} (hw : WF n t) {c : Nat} {s s' : Status}
    (h : HasStatus n t c s) (h' : HasStatus n t c s') : s = s' := by
  rw [← hw.isCell_iff] at h h'
  simp only [isCell, Option.map_eq_some_iff, decide_eq_true_eq] at h h'
  obtain ⟨l, h1, h2⟩ := h
  obtain ⟨l', h1', h2'⟩ := h'
  rw [h1] at h1'; cases h1'
  rw [← h2, ← h2']

theorem WF.hasStatus_exists {n : List Nat} {t : Tree} (hw : WF n t) {c : Nat} (hc : CellIn n t.range c) :
    ∃ s, HasStatus n t c s := by
  obtain ⟨pre, r', s', post, e1, e2, e3, e4⟩ := hw.unique_leaf hc
  exact ⟨s', r', by rw [e1]; simp, e2⟩

/-! ### traversal -/

theorem traverse_push {n : List Nat} (hn : n ≠ []) {t : Tree} (hw : WF n t) (st : Status) (acc : List Nat) :
    traverse (leafChecker st) (pushCells n) t acc =
      some (acc ++ ((leavesOf t).filter (fun x => decide (x.2 = st))).flatMap (fun x => cellsOf n x.1)) := by
  induction t generalizing acc with
  | leaf r s =>
    simp only [traverse, leafChecker, status, leavesOf]
    by_cases h : s = st
    · have := pushCells_eq hn (t := leaf r s) hw.1 acc
      simp only [range] at this
      simp [h, this]
      rw [← h, this]
    · simp [h]
  | node r s a b iha ihb =>
    obtain ⟨_, _, _, _, h5, h6⟩ := hw
    simp only [traverse, iha h5, Option.bind_some, ihb h6, leavesOf, List.filter_append, List.flatMap_append,
      List.append_assoc]

theorem sortIds_spec (l : List Nat) : (sortIds l).Perm l ∧ (sortIds l).Pairwise (· ≤ ·) := by
  exact ⟨List.perm_insertionSort _ _, List.pairwise_insertionSort _ _⟩

theorem sortIds_eq_of_mem {l m : List Nat} (hl : l.Nodup) (hm : m.Pairwise (· < ·)) (h : ∀ c, c ∈ l ↔ c ∈ m) :
    sortIds l = m := by
  obtain ⟨h1, h2⟩ := sortIds_spec l
  have hnd : (sortIds l).Nodup := h1.nodup_iff.2 hl
  refine List.Pairwise.eq_of_mem_iff (r := (· < ·)) ?_ hm ?_
  · have := h2.and hnd
    exact this.imp (fun ⟨a, b⟩ => lt_of_le_of_ne a b)
  · intro c; rw [h1.mem_iff, h]

theorem WF.leaves_disjoint {n : List Nat} {t : Tree} (hw : WF n t) :
    (leavesOf t).Pairwise (fun x y => ∀ c, ¬ (CellIn n x.1 c ∧ CellIn n y.1 c)) := by
  induction t with
  | leaf r s => simp [leavesOf]
  | node r s a b iha ihb =>
    have hch := hw.children
    obtain ⟨_, _, _, _, h5, h6⟩ := hw
    rw [leavesOf, List.pairwise_append]
    refine ⟨iha h5, ihb h6, fun x hx y hy c hc => ?_⟩
    exact hch.2.1 c ⟨h5.leaf_sub x hx hc.1, h6.leaf_sub y hy hc.2⟩

theorem flatMap_cells_nodup {n : List Nat} {L : List (Range × Status)} (hb : ∀ x ∈ L, InBounds n x.1)
    (hd : L.Pairwise (fun x y => ∀ c, ¬ (CellIn n x.1 c ∧ CellIn n y.1 c))) :
    (L.flatMap fun x => cellsOf n x.1).Nodup := by
  rw [List.nodup_flatMap]
  refine ⟨fun x _ => (cellsOf_sorted n x.1).imp (fun h => ne_of_lt h), ?_⟩
  refine (List.Pairwise.and_mem.1 hd).imp ?_
  rintro x y ⟨hx, hy, h⟩ c hc1 hc2
  exact h c ⟨(mem_cellsOf (hb x hx) c).1 hc1, (mem_cellsOf (hb y hy) c).1 hc2⟩

theorem WF.size_leaves {n : List Nat} {t : Tree} (hw : WF n t) :
    ((leavesOf t).map fun x => x.1.size).sum = t.range.size := by
  induction t with
  | leaf r s => simp [leavesOf, range]
  | node r s a b iha ihb =>
    have hch := hw.children
    obtain ⟨_, _, _, _, h5, h6⟩ := hw
    rw [leavesOf, List.map_append, List.sum_append, iha h5, ihb h6, range, hch.2.2]

theorem getNumCells_eq (st : Status) (t : Tree) :
    getNumCells st t = (((leavesOf t).filter (fun x => decide (x.2 = st))).map (fun x => x.1.size)).sum := by
  induction t with
  | leaf r s =>
    simp only [getNumCells, reduce, leafChecker, status, leavesOf, range]
    by_cases h : s = st <;> simp [h]
  | node r s a b iha ihb =>
    simp only [getNumCells] at iha ihb ⊢
    rw [reduce, iha, ihb, leavesOf, List.filter_append, List.map_append, List.sum_append]

theorem getNumLeaves_eq (st : Status) (t : Tree) :
    getNumLeaves st t = ((leavesOf t).filter (fun x => decide (x.2 = st))).length := by
  induction t with
  | leaf r s =>
    simp only [getNumLeaves, reduce, leafChecker, status, leavesOf]
    by_cases h : s = st <;> simp [h]
  | node r s a b iha ihb =>
    simp only [getNumLeaves] at iha ihb ⊢
    rw [reduce, iha, ihb, leavesOf, List.filter_append, List.length_append]

end Tree
end Qugar
