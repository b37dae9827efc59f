import Verif.Model.Mesh
import Mathlib.Data.List.Destutter
import Mathlib.Data.List.Sort
import Mathlib.Data.List.Lex
import Mathlib.Order.Lattice
/-
Property theorems C40 (duplicate wirebasket edges).
-/
namespace Qugar.Mesh

/-- A sort of edges (of the same number of points) with respect to the comparison of the code: a permutation without
inversions. -/
def IsEdgeSort (srtE : List (List Nat) → List (List Nat)) : Prop :=
  ∀ n l, (∀ e ∈ l, e.length = n) → (srtE l).Perm l ∧ (srtE l).Pairwise fun a b => edgeLess b a = false

theorem edgeLess_false {a b : List Nat} (h : a.length = b.length) : edgeLess b a = false ↔ a ≤ b := by
  rw [← not_lt]
  induction a generalizing b with
  | nil => cases b with
    | nil => simp [edgeLess]
    | cons => simp at h
  | cons x a ih => cases b with
    | nil => simp at h
    | cons y b =>
      simp only [List.length_cons, Nat.add_right_cancel_iff] at h
      unfold edgeLess
      by_cases hxy : y = x
      · subst hxy
        rw [if_neg (by simp), ih h, List.cons_lt_cons_iff]
        simp
      · rw [if_pos hxy, List.cons_lt_cons_iff, decide_eq_false_iff_not]
        simp [hxy]

theorem purgeLoop_eq (rest : List (List Nat)) : ∀ (e0 : List Nat) (out : List (List Nat)),
    (∀ pend, purgeLoop e0 (pend ++ [e0]) false out rest = out ++ pend ++ rest.destutter' (· ≠ ·) e0) ∧
    (∀ pend, purgeLoop e0 pend true (out ++ [e0]) rest = out ++ rest.destutter' (· ≠ ·) e0) := by
  induction rest with
  | nil => intro e0 out; simp [purgeLoop, List.destutter']
  | cons e1 rest ih =>
    intro e0 out
    constructor
    · intro pend
      unfold purgeLoop
      rw [List.destutter'_cons]
      by_cases h : e0 = e1
      · subst h
        rw [if_pos rfl, if_neg (by simp)]
        have := (ih e0 (out ++ pend)).2 (pend ++ [e0] ++ [e0])
        simpa [List.append_assoc] using this
      · rw [if_neg h, if_pos h]
        have := (ih e1 out).1 (pend ++ [e0])
        simpa [List.append_assoc] using this
    · intro pend
      unfold purgeLoop
      rw [List.destutter'_cons]
      by_cases h : e0 = e1
      · subst h
        rw [if_pos rfl, if_neg (by simp : ¬ (e0 ≠ e0)), if_pos rfl]
        exact (ih e0 out).2 _
      · rw [if_neg h, if_pos h]
        have := (ih e1 (out ++ [e0])).1 []
        simpa [List.append_assoc] using this

theorem purgeEdges_eq (l : List (List Nat)) : purgeEdges l = l.destutter (· ≠ ·) := by
  cases l with
  | nil => rfl
  | cons e rest =>
    have := (purgeLoop_eq rest e []).1 []
    simpa [purgeEdges, List.destutter] using this

theorem mem_destutter' {α : Type} [DecidableEq α] (x : α) (l : List α) : ∀ a, x ∈ l.destutter' (· ≠ ·) a ↔ x ∈ a :: l := by
  induction l with
  | nil => intro a; simp [List.destutter']
  | cons b l ih =>
    intro a
    rw [List.destutter'_cons]
    by_cases h : a = b
    · subst h
      rw [if_neg (by simp), ih]; simp
    · rw [if_pos h, List.mem_cons, ih]; simp

theorem mem_purgeEdges {x : List Nat} {l : List (List Nat)} : x ∈ purgeEdges l ↔ x ∈ l := by
  rw [purgeEdges_eq]
  cases l with
  | nil => simp
  | cons a l => exact mem_destutter' x l a

theorem purgeEdges_sublist (l : List (List Nat)) : (purgeEdges l).Sublist l := by
  rw [purgeEdges_eq]; exact List.destutter_sublist _ _

theorem purgeEdges_sorted {l : List (List Nat)} (h : l.Pairwise (· ≤ ·)) : (purgeEdges l).Pairwise (· < ·) := by
  have h1 : (purgeEdges l).Pairwise (· ≤ ·) := h.sublist (purgeEdges_sublist l)
  have h2 : (purgeEdges l).IsChain (· ≠ ·) := by rw [purgeEdges_eq]; exact List.isChain_destutter _ _
  generalize purgeEdges l = q at h1 h2
  induction q with
  | nil => exact List.Pairwise.nil
  | cons a q ih =>
    rw [List.pairwise_cons] at h1 ⊢
    cases q with
    | nil => exact ⟨by simp, List.Pairwise.nil⟩
    | cons b q =>
      rw [List.isChain_cons_cons] at h2
      have hq := ih h1.2 h2.2
      have hab : a < b := lt_of_le_of_ne (h1.1 b (List.mem_cons_self ..)) h2.1
      refine ⟨fun c hc => ?_, hq⟩
      rcases List.mem_cons.1 hc with rfl | hc
      · exact hab
      · exact lt_trans hab ((List.pairwise_cons.1 hq).1 c hc)

theorem chunks_flatten (n : Nat) (hn : 0 < n) (L : List (List Nat)) (h : ∀ e ∈ L, e.length = n) :
    chunks n L.flatten = L := by
  have hlen : L.flatten.length = L.length * n := by
    induction L with
    | nil => simp
    | cons e L ih =>
      rw [List.flatten_cons, List.length_append, ih fun f hf => h f (List.mem_cons_of_mem _ hf), h e (List.mem_cons_self ..),
        List.length_cons, Nat.succ_mul, Nat.add_comm]
  have hk : ∀ (L : List (List Nat)), (∀ e ∈ L, e.length = n) → ∀ i, i < L.length →
      (L.flatten.drop (i * n)).take n = L.getD i [] := by
    intro L
    induction L with
    | nil => intro _ i hi; simp at hi
    | cons e L ih =>
      intro h i hi
      have he := h e (List.mem_cons_self ..)
      cases i with
      | zero =>
        rw [Nat.zero_mul, List.drop_zero, List.flatten_cons, List.take_append_of_le_length (by omega), List.take_of_length_le (by omega)]
        simp
      | succ i =>
        rw [List.flatten_cons, Nat.succ_mul, Nat.add_comm, List.drop_append, List.drop_eq_nil_of_le (by omega),
          List.nil_append, he, Nat.add_sub_cancel_left, ih (fun f hf => h f (List.mem_cons_of_mem _ hf)) i (by simpa using hi)]
        simp
  unfold chunks
  rw [hlen, Nat.mul_div_cancel _ hn]
  apply List.ext_getElem
  · simp
  · intro i h1 h2
    rw [List.getElem_map, List.getElem_range, hk L h i h2, List.getD_eq_getElem?_getD, List.getElem?_eq_getElem h2,
      Option.getD_some]

theorem sortEdge_cases (order : Nat) (e : List Nat) : sortEdge order e = e ∨ sortEdge order e = e.reverse := by
  unfold sortEdge
  dsimp only
  split_ifs <;> simp

theorem sortEdge_length (order : Nat) (e : List Nat) : (sortEdge order e).length = e.length := by
  rcases sortEdge_cases order e with h | h <;> rw [h]
  rw [List.length_reverse]

/-- An edge that the code cannot orient: same ends, same second points, at least six points. -/
def Ambiguous (e : List Nat) : Prop :=
  e.headD 0 = e.getLastD 0 ∧ e.getD 1 0 = e.getD (e.length - 2) 0 ∧ 6 ≤ e.length

theorem rev_facts (e : List Nat) (h : 2 ≤ e.length) :
    e.reverse.headD 0 = e.getLastD 0 ∧ e.reverse.getLastD 0 = e.headD 0 ∧
      e.reverse.getD 1 0 = e.getD (e.length - 2) 0 ∧ e.reverse.getD (e.length - 2) 0 = e.getD 1 0 := by
  refine ⟨?_, ?_, ?_, ?_⟩
  · cases e with
    | nil => rfl
    | cons a e => rw [List.headD_eq_head?_getD, List.head?_reverse, List.getLastD_eq_getLast?]
  · rw [List.headD_eq_head?_getD, List.getLastD_eq_getLast?, List.getLast?_reverse]
  · rw [List.getD_eq_getElem?_getD, List.getElem?_reverse (by omega), List.getD_eq_getElem?_getD,
      show e.length - 1 - 1 = e.length - 2 by omega]
  · rw [List.getD_eq_getElem?_getD, List.getElem?_reverse (by omega), List.getD_eq_getElem?_getD,
      show e.length - 1 - (e.length - 2) = 1 by omega]

theorem palindrome_of_short (e : List Nat) (h2 : 2 ≤ e.length) (h5 : e.length < 6) (h0 : e.headD 0 = e.getLastD 0)
    (h1 : e.getD 1 0 = e.getD (e.length - 2) 0) : e.reverse = e := by
  match e, h2, h5, h0, h1 with
  | [a, b], _, _, h0, h1 => simp at h0; simp [h0]
  | [a, b, c], _, _, h0, h1 => simp at h0; simp [h0]
  | [a, b, c, d], _, _, h0, h1 => simp at h0 h1; simp [h0, h1]
  | [a, b, c, d, e], _, _, h0, h1 => simp at h0 h1; simp [h0, h1]
  | _ :: _ :: _ :: _ :: _ :: _ :: _, _, h5, _, _ => simp at h5; omega

/-- The flag `reverse` of `sort_edge_points`. -/
def flag (order : Nat) (e : List Nat) : Bool :=
  if e.headD 0 = e.getLastD 0 ∧ 2 < order then decide (e.getD (order - 2) 0 < e.getD 1 0)
  else decide (e.getLastD 0 < e.headD 0)

theorem sortEdge_eq (order : Nat) (e : List Nat) : sortEdge order e = if flag order e then e.reverse else e := rfl

theorem flag_reverse (e : List Nat) (h : 2 ≤ e.length) (h1 : flag e.length e = true) : flag e.length e.reverse = false := by
  obtain ⟨r1, r2, r3, r4⟩ := rev_facts e h
  unfold flag at h1 ⊢
  rw [r1, r2, r3, r4]
  by_cases h0 : e.headD 0 = e.getLastD 0 ∧ 2 < e.length
  · rw [if_pos h0, decide_eq_true_iff] at h1
    rw [if_pos ⟨h0.1.symm, h0.2⟩, decide_eq_false_iff_not]
    omega
  · rw [if_neg h0, decide_eq_true_iff] at h1
    rw [if_neg fun hc => h0 ⟨hc.1.symm, hc.2⟩, decide_eq_false_iff_not]
    omega

theorem flag_reverse' (e : List Nat) (h : 2 ≤ e.length) (ha : ¬ Ambiguous e) (hp : e.reverse ≠ e)
    (h1 : flag e.length e = false) : flag e.length e.reverse = true := by
  obtain ⟨r1, r2, r3, r4⟩ := rev_facts e h
  unfold flag at h1 ⊢
  rw [r1, r2, r3, r4]
  have hlong : e.headD 0 = e.getLastD 0 → 2 < e.length := by
    intro h0
    by_contra h3
    apply hp
    match e, h, h3, h0 with
    | [a, b], _, _, h0 => simp at h0; simp [h0]
    | _ :: _ :: _ :: _, _, h3, _ => simp at h3
  by_cases h0 : e.headD 0 = e.getLastD 0 ∧ 2 < e.length
  · rw [if_pos h0, decide_eq_false_iff_not] at h1
    rw [if_pos ⟨h0.1.symm, h0.2⟩, decide_eq_true_iff]
    have : e.getD 1 0 ≠ e.getD (e.length - 2) 0 := by
      intro h2
      rcases Nat.lt_or_ge e.length 6 with h6 | h6
      · exact hp (palindrome_of_short e h h6 h0.1 h2)
      · exact ha ⟨h0.1, h2, h6⟩
    omega
  · rw [if_neg h0, decide_eq_false_iff_not] at h1
    rw [if_neg fun hc => h0 ⟨hc.1.symm, hc.2⟩, decide_eq_true_iff]
    have : e.headD 0 ≠ e.getLastD 0 := fun h2 => h0 ⟨h2, hlong h2⟩
    omega

/-- Both orientations of an edge are sorted to the same one, unless it is ambiguous. -/
theorem sortEdge_reverse (e : List Nat) (h : 2 ≤ e.length) (ha : ¬ Ambiguous e) :
    sortEdge e.length e.reverse = sortEdge e.length e := by
  by_cases hp : e.reverse = e
  · rw [hp]
  rw [sortEdge_eq, sortEdge_eq, List.reverse_reverse]
  cases hf : flag e.length e with
  | true => rw [flag_reverse e h hf]; rfl
  | false => rw [flag_reverse' e h ha hp hf]; rfl

theorem sortEdge_idem (e : List Nat) (h : 2 ≤ e.length) : sortEdge e.length (sortEdge e.length e) = sortEdge e.length e := by
  cases hf : flag e.length e with
  | true =>
    have : sortEdge e.length e = e.reverse := by rw [sortEdge_eq, hf]; rfl
    rw [this, sortEdge_eq, flag_reverse e h hf]; rfl
  | false =>
    have : sortEdge e.length e = e := by rw [sortEdge_eq, hf]; rfl
    rw [this, this]

theorem purge_flatten (srtE : List (List Nat) → List (List Nat)) (order : Nat) (ho : 1 < order) (L : List (List Nat))
    (hL : ∀ e ∈ L, e.length = order) : purge srtE order L.flatten = (purgeEdges (srtE (L.map (sortEdge order)))).flatten := by
  unfold purge sortEdges
  rw [chunks_flatten order (by omega) L hL]

theorem pairwise_le {srtE : List (List Nat) → List (List Nat)} (hs : IsEdgeSort srtE) (n : Nat) (L : List (List Nat))
    (hL : ∀ e ∈ L, e.length = n) : (srtE L).Pairwise (· ≤ ·) := by
  obtain ⟨h1, h2⟩ := hs n L hL
  refine List.Pairwise.imp_of_mem (fun ha hb h => ?_) h2
  rw [← edgeLess_false]
  · exact h
  · rw [hL _ (h1.mem_iff.1 ha), hL _ (h1.mem_iff.1 hb)]

/-- **C40**, all but the ambiguous edges: after purging a wirebasket (a list of edges, stored one after the other), the
edges left are distinct, each is an original edge or the reverse of one, each original edge is left up to orientation,
and an edge and its reverse are not both left (unless the edge is closed, with equal second points on both sides and at
least six points). -/
theorem C40_purge_partial (srtE : List (List Nat) → List (List Nat)) (hs : IsEdgeSort srtE) (order : Nat) (ho : 1 < order)
    (L : List (List Nat)) (hL : ∀ e ∈ L, e.length = order) :
    ∃ L' : List (List Nat), purge srtE order L.flatten = L'.flatten ∧ (∀ e ∈ L', e.length = order) ∧ L'.Nodup ∧
      (∀ e ∈ L', e ∈ L ∨ e.reverse ∈ L) ∧ (∀ e ∈ L, e ∈ L' ∨ e.reverse ∈ L') ∧
      ∀ e ∈ L', e.reverse ∈ L' → e.reverse = e ∨ Ambiguous e := by
  have hm : ∀ e ∈ L.map (sortEdge order), e.length = order := by
    intro e he
    obtain ⟨f, hf, rfl⟩ := List.mem_map.1 he
    rw [sortEdge_length, hL f hf]
  have hmem : ∀ e, e ∈ purgeEdges (srtE (L.map (sortEdge order))) ↔ ∃ f ∈ L, sortEdge order f = e := by
    intro e
    rw [mem_purgeEdges, (hs order _ hm).1.mem_iff, List.mem_map]
  refine ⟨_, purge_flatten srtE order ho L hL, fun e he => ?_, ?_, fun e he => ?_, fun e he => ?_, fun e he hr => ?_⟩
  · obtain ⟨f, hf, rfl⟩ := (hmem e).1 he
    rw [sortEdge_length, hL f hf]
  · exact (purgeEdges_sorted (pairwise_le hs order _ hm)).imp fun h => ne_of_lt h
  · obtain ⟨f, hf, rfl⟩ := (hmem e).1 he
    rcases sortEdge_cases order f with h | h <;> rw [h]
    · exact Or.inl hf
    · rw [List.reverse_reverse]; exact Or.inr hf
  · rcases sortEdge_cases order e with h | h
    · exact Or.inl ((hmem e).2 ⟨e, he, h⟩)
    · exact Or.inr ((hmem _).2 ⟨e, he, h⟩)
  · by_cases ha : Ambiguous e
    · exact Or.inr ha
    left
    obtain ⟨f, hf, h1⟩ := (hmem e).1 he
    obtain ⟨g, hg, h2⟩ := (hmem _).1 hr
    have hfl : f.length = order := hL f hf
    have hgl : g.length = order := hL g hg
    have hel : e.length = order := by rw [← h1, sortEdge_length, hfl]
    have e1 : sortEdge order e = e := by
      have := sortEdge_idem f (by omega)
      rw [hfl, h1] at this
      exact this
    have e2 : sortEdge order e.reverse = e.reverse := by
      have := sortEdge_idem g (by omega)
      rw [hgl, h2] at this
      exact this
    have e3 := sortEdge_reverse e (by omega) ha
    rw [hel, e2, e1] at e3
    exact e3

/-- **C40**, orders up to 5 or no closed edges: no edge is left twice, in either orientation. -/
theorem C40_purge_unambiguous (srtE : List (List Nat) → List (List Nat)) (hs : IsEdgeSort srtE) (order : Nat)
    (ho : 1 < order) (L : List (List Nat)) (hL : ∀ e ∈ L, e.length = order)
    (hc : order < 6 ∨ ∀ e ∈ L, e.headD 0 ≠ e.getLastD 0) :
    ∃ L' : List (List Nat), purge srtE order L.flatten = L'.flatten ∧ (∀ e ∈ L', e.length = order) ∧
      L'.Pairwise (fun e f => f ≠ e ∧ f ≠ e.reverse) ∧
      (∀ e ∈ L', e ∈ L ∨ e.reverse ∈ L) ∧ (∀ e ∈ L, e ∈ L' ∨ e.reverse ∈ L') := by
  obtain ⟨L', h1, h2, h3, h4, h5, h6⟩ := C40_purge_partial srtE hs order ho L hL
  refine ⟨L', h1, h2, ?_, h4, h5⟩
  refine List.Pairwise.imp_of_mem (fun {e f} he hf hne => ⟨fun h => hne h.symm, fun h => ?_⟩) h3
  rcases h6 e he (h ▸ hf) with h7 | ⟨h7, -, h8⟩
  · rw [h7] at h; exact hne h.symm
  · rcases hc with hc | hc
    · rw [h2 e he] at h8; omega
    · rcases h4 e he with h9 | h9
      · exact hc e h9 h7
      · have := hc _ h9
        obtain ⟨r1, r2, -, -⟩ := rev_facts e (by rw [h2 e he]; omega)
        rw [r1, r2] at this
        exact this h7.symm

/-- **C40** (idempotence). -/
theorem C40_idempotent (srtE srtE' : List (List Nat) → List (List Nat)) (hs : IsEdgeSort srtE) (hs' : IsEdgeSort srtE')
    (order : Nat) (ho : 1 < order) (L : List (List Nat)) (hL : ∀ e ∈ L, e.length = order) :
    purge srtE' order (purge srtE order L.flatten) = purge srtE order L.flatten := by
  have hm : ∀ e ∈ L.map (sortEdge order), e.length = order := by
    intro e he
    obtain ⟨f, hf, rfl⟩ := List.mem_map.1 he
    rw [sortEdge_length, hL f hf]
  have hmem : ∀ e, e ∈ purgeEdges (srtE (L.map (sortEdge order))) ↔ ∃ f ∈ L, sortEdge order f = e := by
    intro e
    rw [mem_purgeEdges, (hs order _ hm).1.mem_iff, List.mem_map]
  have hsort := purgeEdges_sorted (pairwise_le hs order _ hm)
  rw [purge_flatten srtE order ho L hL]
  generalize purgeEdges (srtE (L.map (sortEdge order))) = q at hmem hsort ⊢
  have hq : ∀ e ∈ q, e.length = order := by
    intro e he
    obtain ⟨f, hf, rfl⟩ := (hmem e).1 he
    rw [sortEdge_length, hL f hf]
  rw [purge_flatten srtE' order ho q hq]
  have hid : q.map (sortEdge order) = q := by
    conv_rhs => rw [← List.map_id q]
    refine List.map_congr_left fun e he => ?_
    obtain ⟨f, hf, rfl⟩ := (hmem e).1 he
    have := sortEdge_idem f (by rw [hL f hf]; omega)
    rwa [hL f hf] at this
  rw [hid]
  have heq : srtE' q = q :=
    (hs' order q hq).1.eq_of_pairwise (fun _ _ _ _ h1 h2 => le_antisymm h1 h2) (pairwise_le hs' order q hq)
      (hsort.imp fun h => le_of_lt h)
  rw [heq, purgeEdges_eq]
  congr 1
  exact List.destutter_of_isChain _ _ (List.Pairwise.isChain (hsort.imp fun h => ne_of_lt h))

/-- **C40** fails for closed edges with at least six points: an edge and its reverse are both kept. -/
theorem C40_closed_edges_fail (srtE : List (List Nat) → List (List Nat)) (hs : IsEdgeSort srtE) :
    ∃ L : List (List Nat), (∀ e ∈ L, e.length = 6) ∧ ∀ L' : List (List Nat), (∀ e ∈ L', e.length = 6) →
      purge srtE 6 L.flatten = L'.flatten → ∃ e ∈ L', e.reverse ∈ L' ∧ e.reverse ≠ e := by
  refine ⟨[[7, 1, 2, 3, 1, 7], [7, 1, 3, 2, 1, 7]], by simp, fun L' hL' h => ?_⟩
  rw [purge_flatten srtE 6 (by omega) _ (by simp)] at h
  have hq : ∀ e ∈ purgeEdges (srtE ([[7, 1, 2, 3, 1, 7], [7, 1, 3, 2, 1, 7]].map (sortEdge 6))), e.length = 6 := by
    intro e he
    rw [mem_purgeEdges, (hs 6 _ (by decide)).1.mem_iff] at he
    revert e
    decide
  have := congrArg (chunks 6) h
  rw [chunks_flatten 6 (by omega) _ hq, chunks_flatten 6 (by omega) _ hL'] at this
  rw [← this]
  refine ⟨[7, 1, 2, 3, 1, 7], ?_, ?_, by decide⟩
  · rw [mem_purgeEdges, (hs 6 _ (by decide)).1.mem_iff]; decide
  · rw [mem_purgeEdges, (hs 6 _ (by decide)).1.mem_iff]; decide

/-- Insertion sort is a sort of edges of the same length. -/
theorem insertionSort_isEdgeSort : IsEdgeSort fun l => l.insertionSort fun a b => a ≤ b := by
  intro n l hl
  refine ⟨List.perm_insertionSort _ _, ?_⟩
  refine List.Pairwise.imp_of_mem (fun {a b} ha hb h => ?_) (List.pairwise_insertionSort (· ≤ ·) l)
  rw [List.mem_insertionSort] at ha hb
  exact (edgeLess_false (by rw [hl a ha, hl b hb])).2 h

/-- Concrete case (non-vacuity): an edge stored twice, once
reversed, is kept once. -/
example : purge (fun l => l.insertionSort fun a b => edgeLess b a = false) 3 [5, 4, 1, 2, 9, 7, 1, 4, 5] =
    [1, 4, 5, 2, 9, 7] := by decide +kernel

end Qugar.Mesh
