import Verif.Model.PyText
/-
C85: the order of the tables does not depend on the numbers that FFCx gives to the elements.
-/
namespace Qugar.Py.Text

/-- What `np.argsort` promises: a permutation of the positions that sorts the values (nothing about equal values). -/
def Sorts (argsort : List Nat → List Nat) : Prop := ∀ vs : List Nat,
  (argsort vs).Perm (List.range vs.length) ∧ (argsort vs).Pairwise fun i j => vs.getD i 0 ≤ vs.getD j 0

/-- A numbering of the elements: the same number is the same element. -/
def Numbering {T E : Type} (id : T → Nat) (element : T → E) (tables : List T) : Prop :=
  ∀ a ∈ tables, ∀ b ∈ tables, id a = id b ↔ element a = element b

/-- Two lists sorted by a key, with the same entries for every key. -/
theorem eq_of_filters {T : Type} (key : T → Nat) {l1 l2 : List T} (h1 : l1.Pairwise fun a b => key a ≤ key b)
    (h2 : l2.Pairwise fun a b => key a ≤ key b)
    (h : ∀ k, l1.filter (fun t => key t == k) = l2.filter fun t => key t == k) : l1 = l2 := by
  induction l1 generalizing l2 with
  | nil =>
    cases l2 with
    | nil => rfl
    | cons b l2 => have := h (key b); simp at this
  | cons a l1 ih =>
    have ha : a ∈ l2 := by
      have : a ∈ (a :: l1).filter (fun t => key t == key a) := by simp
      rw [h] at this
      exact (List.mem_filter.1 this).1
    cases l2 with
    | nil => simp at ha
    | cons b l2 =>
      have hb : b ∈ a :: l1 := by
        have : b ∈ (b :: l2).filter (fun t => key t == key b) := by simp
        rw [← h] at this
        exact (List.mem_filter.1 this).1
      have hab : key a ≤ key b := by
        rcases List.mem_cons.1 hb with rfl | hb
        · exact Nat.le_refl _
        · exact (List.pairwise_cons.1 h1).1 b hb
      have hba : key b ≤ key a := by
        rcases List.mem_cons.1 ha with rfl | ha
        · exact Nat.le_refl _
        · exact (List.pairwise_cons.1 h2).1 a ha
      have hk : key b = key a := Nat.le_antisymm hba hab
      have h0 := h (key a)
      simp only [List.filter_cons, beq_self_eq_true, if_true, hk, List.cons.injEq] at h0
      obtain ⟨rfl, _⟩ := h0
      congr 1
      refine ih (List.pairwise_cons.1 h1).2 (List.pairwise_cons.1 h2).2 fun k => ?_
      have := h k
      simp only [List.filter_cons] at this
      split at this
      · exact (List.cons.inj this).2
      · exact this

/-- `mergeSort` is stable. -/
theorem filter_mergeSort {T : Type} (key : T → Nat) (l : List T) (k : Nat) :
    (l.mergeSort fun a b => decide (key a ≤ key b)).filter (fun t => key t == k) = l.filter fun t => key t == k := by
  have hs : (l.filter fun t => key t == k).Sublist (l.mergeSort fun a b => decide (key a ≤ key b)) := by
    refine List.sublist_mergeSort (fun a b c => ?_) (fun a b => ?_) ?_ List.filter_sublist
    · simp only [decide_eq_true_eq]; exact Nat.le_trans
    · simp only [Bool.or_eq_true, decide_eq_true_eq]; exact Nat.le_total _ _
    · refine List.Pairwise.imp_of_mem (R := fun _ _ => True) ?_ (List.pairwise_of_forall (fun _ _ => trivial))
      intro a b ha hb _
      have h1 := (List.mem_filter.1 ha).2
      have h2 := (List.mem_filter.1 hb).2
      simp only [beq_iff_eq] at h1 h2
      simp [h1, h2]
  have h1 := hs.filter (fun t => key t == k)
  rw [List.filter_filter] at h1
  simp only [Bool.and_self] at h1
  have h2 := ((List.mergeSort_perm l fun a b => decide (key a ≤ key b)).filter (fun t => key t == k)).length_eq
  exact (h1.eq_of_length h2.symm).symm

theorem dictSet_keys {β : Type} (d : List (Nat × β)) (k : Nat) (v : β) (i : Nat) :
    i ∈ (dictSet d k v).map (·.1) ↔ i = k ∨ i ∈ d.map (·.1) := by
  unfold dictSet
  split
  · rename_i h
    obtain ⟨e, he, hk⟩ := List.any_eq_true.1 h
    have hm : (d.map fun e => if e.1 = k then (k, v) else e).map (·.1) = d.map (·.1) := by
      rw [List.map_map]
      refine List.map_congr_left fun e _ => ?_
      simp only [Function.comp]
      split
      · rename_i h; exact h.symm
      · rfl
    rw [hm]
    constructor
    · exact Or.inr
    · rintro (rfl | h)
      · exact List.mem_map.2 ⟨e, he, by simpa using hk⟩
      · exact h
  · simp [or_comm]

theorem dictSet_nodup {β : Type} {d : List (Nat × β)} (h : (d.map (·.1)).Nodup) (k : Nat) (v : β) :
    ((dictSet d k v).map (·.1)).Nodup := by
  unfold dictSet
  split
  · have hm : (d.map fun e => if e.1 = k then (k, v) else e).map (·.1) = d.map (·.1) := by
      rw [List.map_map]
      refine List.map_congr_left fun e _ => ?_
      simp only [Function.comp]
      split
      · rename_i h; exact h.symm
      · rfl
    rwa [hm]
  · rename_i hk
    rw [List.map_append, List.map_cons, List.map_nil]
    refine List.nodup_append.2 ⟨h, by simp, ?_⟩
    intro a ha b hb hab
    simp only [List.mem_singleton] at hb
    subst hb
    subst hab
    obtain ⟨e, he, rfl⟩ := List.mem_map.1 ha
    exact hk (List.any_eq_true.2 ⟨e, he, by simp⟩)

theorem dictSet_mem {β : Type} {d : List (Nat × β)} {k : Nat} {v : β} {e : Nat × β} (h : e ∈ dictSet d k v) : e = (k, v) ∨ e ∈ d := by
  unfold dictSet at h
  split at h
  · obtain ⟨e', he', rfl⟩ := List.mem_map.1 h
    split
    · exact Or.inl rfl
    · exact Or.inr he'
  · simp only [List.mem_append, List.mem_singleton] at h
    exact h.symm

theorem dict_facts {T : Type} (id : T → Nat) (h : T → Nat) (tables : List T) (d : List (Nat × Nat)) (hd : (d.map (·.1)).Nodup) :
    let r := tables.foldl (fun d t => dictSet d (id t) (h t)) d
    (r.map (·.1)).Nodup ∧ (∀ t ∈ tables, id t ∈ r.map (·.1)) ∧ (∀ i ∈ d.map (·.1), i ∈ r.map (·.1)) ∧
      ∀ e ∈ r, e ∈ d ∨ ∃ t ∈ tables, e = (id t, h t) := by
  induction tables generalizing d with
  | nil => simp [hd]
  | cons t ts ih =>
    obtain ⟨h1, h2, h3, h4⟩ := ih (dictSet d (id t) (h t)) (dictSet_nodup hd _ _)
    refine ⟨h1, ?_, fun i hi => h3 i ((dictSet_keys ..).2 (Or.inr hi)), ?_⟩
    · intro a ha
      rcases List.mem_cons.1 ha with rfl | ha
      · exact h3 _ ((dictSet_keys ..).2 (Or.inl rfl))
      · exact h2 a ha
    · intro e he
      rcases h4 e he with h5 | ⟨a, ha, rfl⟩
      · rcases dictSet_mem h5 with rfl | h5
        · exact Or.inr ⟨t, List.mem_cons_self .., rfl⟩
        · exact Or.inl h5
      · exact Or.inr ⟨a, List.mem_cons_of_mem _ ha, rfl⟩

/-- The position of an element in the sorted list of elements orders tables as the hash of the elements. -/
theorem rank_le {T E : Type} {id : T → Nat} {element : T → E} {hash : E → Nat} {argsort : List Nat → List Nat} {tables : List T}
    (hs : Sorts argsort) (hn : Numbering id element tables)
    (hh : ∀ a ∈ tables, ∀ b ∈ tables, hash (element a) = hash (element b) → element a = element b) :
    let d := tables.foldl (fun d t => dictSet d (id t) (hash (element t))) []
    let rank : Nat → Nat := fun i => (argsort (d.map (·.2))).idxOf ((d.map (·.1)).idxOf i)
    ∀ a ∈ tables, ∀ b ∈ tables, rank (id a) ≤ rank (id b) ↔ hash (element a) ≤ hash (element b) := by
  intro d rank a ha b hb
  obtain ⟨hd1, hd2, _, hd4⟩ := dict_facts id (fun t => hash (element t)) tables [] (by simp)
  change (d.map (·.1)).Nodup at hd1
  change ∀ t ∈ tables, id t ∈ d.map (·.1) at hd2
  change ∀ e ∈ d, e ∈ [] ∨ _ at hd4
  obtain ⟨hp, hsort⟩ := hs (d.map (·.2))
  -- the value at the position of an id
  have hval : ∀ t ∈ tables, (d.map (·.1)).idxOf (id t) < d.length ∧
      (d.map (·.2)).getD ((d.map (·.1)).idxOf (id t)) 0 = hash (element t) := by
    intro t ht
    have hlt : (d.map (·.1)).idxOf (id t) < (d.map (·.1)).length := List.idxOf_lt_length_iff.2 (hd2 t ht)
    have hlt' : (d.map (·.1)).idxOf (id t) < d.length := by simpa using hlt
    refine ⟨hlt', ?_⟩
    have hget := List.getElem_idxOf hlt
    rw [List.getElem_map] at hget
    rw [List.getD_eq_getElem?_getD, List.getElem?_map, List.getElem?_eq_getElem hlt', Option.map_some, Option.getD_some]
    rcases hd4 _ (List.getElem_mem hlt') with h | ⟨s, hs, he⟩
    · simp at h
    · rw [he]
      rw [he] at hget
      simp only at hget ⊢
      rw [(hn s hs t ht).1 hget]
  have hrank : ∀ t ∈ tables, rank (id t) < (argsort (d.map (·.2))).length := by
    intro t ht
    refine List.idxOf_lt_length_iff.2 (hp.mem_iff.2 (List.mem_range.2 ?_))
    rw [List.length_map]
    exact (hval t ht).1
  -- smaller hash, smaller position
  have hlt : ∀ s ∈ tables, ∀ t ∈ tables, hash (element s) < hash (element t) → rank (id s) < rank (id t) := by
    intro s hs t ht hst
    rcases Nat.lt_trichotomy (rank (id s)) (rank (id t)) with h | h | h
    · exact h
    · exfalso
      have e1 := List.getElem_idxOf (hrank s hs)
      have e2 := List.getElem_idxOf (hrank t ht)
      have e3 : (d.map (·.1)).idxOf (id s) = (d.map (·.1)).idxOf (id t) := by
        rw [← e1, ← e2]
        congr 1
      have v1 := (hval s hs).2
      rw [e3, (hval t ht).2] at v1
      omega
    · exfalso
      have := List.pairwise_iff_getElem.1 hsort _ _ (hrank t ht) (hrank s hs) h
      have e1 := List.getElem_idxOf (hrank s hs)
      have e2 := List.getElem_idxOf (hrank t ht)
      change (d.map (·.2)).getD ((argsort (d.map (·.2)))[rank (id t)]'(hrank t ht)) 0 ≤
        (d.map (·.2)).getD ((argsort (d.map (·.2)))[rank (id s)]'(hrank s hs)) 0 at this
      change (argsort (d.map (·.2)))[rank (id s)]'(hrank s hs) = _ at e1
      change (argsort (d.map (·.2)))[rank (id t)]'(hrank t ht) = _ at e2
      rw [e1, e2, (hval s hs).2, (hval t ht).2] at this
      omega
  constructor
  · intro h
    rcases Nat.lt_or_ge (hash (element b)) (hash (element a)) with h' | h'
    · have := hlt b hb a ha h'
      omega
    · exact h'
  · intro h
    rcases Nat.lt_or_eq_of_le h with h' | h'
    · exact Nat.le_of_lt (hlt a ha b hb h')
    · rw [(hn a ha b hb).2 (hh a ha b hb h')]
      exact Nat.le_refl _

/-- C85: the tables are those given, sorted by the hash of their element, and tables of the same element keep their order. -/
theorem C85_sorted {T E : Type} [DecidableEq E] (id : T → Nat) (element : T → E) (hash : E → Nat) (argsort : List Nat → List Nat)
    (tables : List T) (hs : Sorts argsort) (hn : Numbering id element tables)
    (hh : ∀ a ∈ tables, ∀ b ∈ tables, hash (element a) = hash (element b) → element a = element b) :
    (sortTables id element hash argsort tables).Perm tables ∧
    (sortTables id element hash argsort tables).Pairwise (fun a b => hash (element a) ≤ hash (element b)) ∧
    ∀ e, (sortTables id element hash argsort tables).filter (element · = e) = tables.filter (element · = e) := by
  have hr := rank_le hs hn hh
  have hperm : (sortTables id element hash argsort tables).Perm tables := List.mergeSort_perm ..
  refine ⟨hperm, ?_, ?_⟩
  · have := List.pairwise_mergeSort (le := fun a b : T =>
      decide ((argsort ((tables.foldl (fun d t => dictSet d (id t) (hash (element t))) []).map (·.2))).idxOf
        (((tables.foldl (fun d t => dictSet d (id t) (hash (element t))) []).map (·.1)).idxOf (id a)) ≤
      (argsort ((tables.foldl (fun d t => dictSet d (id t) (hash (element t))) []).map (·.2))).idxOf
        (((tables.foldl (fun d t => dictSet d (id t) (hash (element t))) []).map (·.1)).idxOf (id b))))
      (fun a b c => by simp only [decide_eq_true_eq]; exact Nat.le_trans)
      (fun a b => by simp only [Bool.or_eq_true, decide_eq_true_eq]; exact Nat.le_total _ _) tables
    refine List.Pairwise.imp_of_mem ?_ this
    intro a b ha hb h
    exact (hr a ((List.mergeSort_perm ..).mem_iff.1 ha) b ((List.mergeSort_perm ..).mem_iff.1 hb)).1 (by simpa using h)
  · intro e
    cases hf : tables.filter (element · = e) with
    | nil =>
      rw [List.filter_eq_nil_iff] at hf ⊢
      exact fun t ht => hf t (hperm.mem_iff.1 ht)
    | cons t ts =>
      have ht : t ∈ tables ∧ element t = e := by
        have : t ∈ tables.filter (element · = e) := by rw [hf]; exact List.mem_cons_self ..
        simpa using List.mem_filter.1 this
      rw [← hf]
      have hst := filter_mergeSort (fun a : T => (argsort ((tables.foldl (fun d t => dictSet d (id t) (hash (element t))) []).map (·.2))).idxOf
        (((tables.foldl (fun d t => dictSet d (id t) (hash (element t))) []).map (·.1)).idxOf (id a))) tables
        ((argsort ((tables.foldl (fun d t => dictSet d (id t) (hash (element t))) []).map (·.2))).idxOf
        (((tables.foldl (fun d t => dictSet d (id t) (hash (element t))) []).map (·.1)).idxOf (id t)))
      have hkey : ∀ s ∈ tables, (decide (element s = e)) = (((argsort ((tables.foldl (fun d t => dictSet d (id t) (hash (element t))) []).map (·.2))).idxOf
        (((tables.foldl (fun d t => dictSet d (id t) (hash (element t))) []).map (·.1)).idxOf (id s))) ==
        ((argsort ((tables.foldl (fun d t => dictSet d (id t) (hash (element t))) []).map (·.2))).idxOf
        (((tables.foldl (fun d t => dictSet d (id t) (hash (element t))) []).map (·.1)).idxOf (id t)))) := by
        intro s hs'
        rw [Bool.eq_iff_iff]
        simp only [decide_eq_true_eq, beq_iff_eq]
        constructor
        · intro h
          rw [(hn s hs' t ht.1).2 (by rw [h, ht.2])]
        · intro h
          have h1 := (hr s hs' t ht.1).1 (Nat.le_of_eq h)
          have h2 := (hr t ht.1 s hs').1 (Nat.le_of_eq h.symm)
          rw [← ht.2]
          exact hh s hs' t ht.1 (Nat.le_antisymm h1 h2)
      rw [List.filter_congr hkey]
      refine Eq.trans ?_ hst
      refine List.filter_congr fun s hs' => hkey s (hperm.mem_iff.1 hs')

/-- Three tables of two elements; the hashes are opposite to the numbers. -/
def exTables : List (Nat × Nat) := [(0, 7), (0, 8), (1, 9)]

example : Numbering (fun t : Nat × Nat => t.1) (fun t => t.1) exTables := by intro a _ b _; rfl

example : Numbering (fun t : Nat × Nat => 5 - t.1) (fun t => t.1) exTables := by unfold Numbering exTables; decide

/-- There is such an `argsort`. -/
theorem exists_sorts : ∃ argsort, Sorts argsort := by
  refine ⟨fun vs => (List.range vs.length).mergeSort fun i j => decide (vs.getD i 0 ≤ vs.getD j 0), fun vs =>
    ⟨List.mergeSort_perm .., ?_⟩⟩
  refine (List.pairwise_mergeSort (fun a b c => ?_) (fun a b => ?_) _).imp fun h => by simpa using h
  · simp only [decide_eq_true_eq]; exact Nat.le_trans
  · simp only [Bool.or_eq_true, decide_eq_true_eq]; exact Nat.le_total _ _

/-- C85: the order does not depend on how FFCx numbers the elements, nor on the order of elements in the text. -/
theorem C85_order {T E : Type} [DecidableEq E] (id id' : T → Nat) (element : T → E) (hash : E → Nat) (argsort argsort' : List Nat → List Nat)
    (tables tables' : List T) (hs : Sorts argsort) (hs' : Sorts argsort') (hn : Numbering id element tables)
    (hn' : Numbering id' element tables') (hperm : tables.Perm tables')
    (hsame : ∀ e, tables.filter (element · = e) = tables'.filter (element · = e))
    (hh : ∀ a ∈ tables, ∀ b ∈ tables, hash (element a) = hash (element b) → element a = element b) :
    sortTables id element hash argsort tables = sortTables id' element hash argsort' tables' := by
  have hh' : ∀ a ∈ tables', ∀ b ∈ tables', hash (element a) = hash (element b) → element a = element b :=
    fun a ha b hb => hh a (hperm.mem_iff.2 ha) b (hperm.mem_iff.2 hb)
  obtain ⟨p1, s1, f1⟩ := C85_sorted id element hash argsort tables hs hn hh
  obtain ⟨p2, s2, f2⟩ := C85_sorted id' element hash argsort' tables' hs' hn' hh'
  refine eq_of_filters (fun t => hash (element t)) s1 s2 fun k => ?_
  by_cases hk : ∃ t ∈ tables, hash (element t) = k
  · obtain ⟨t, ht, rfl⟩ := hk
    have conv : ∀ l : List T, (∀ s ∈ l, s ∈ tables) →
        l.filter (fun s => hash (element s) == hash (element t)) = l.filter (element · = element t) := by
      intro l hl
      refine List.filter_congr fun s hs => ?_
      rw [Bool.eq_iff_iff]
      simp only [decide_eq_true_eq, beq_iff_eq]
      exact ⟨fun h => hh s (hl s hs) t ht h, fun h => by rw [h]⟩
    rw [conv _ fun s hs => p1.mem_iff.1 hs, conv _ fun s hs => hperm.mem_iff.2 (p2.mem_iff.1 hs), f1, f2, hsame]
  · have hno : ∀ l : List T, (∀ s ∈ l, s ∈ tables) → l.filter (fun s => hash (element s) == k) = [] := by
      intro l hl
      rw [List.filter_eq_nil_iff]
      intro s hs h
      exact hk ⟨s, hl s hs, by simpa using h⟩
    rw [hno _ fun s hs => p1.mem_iff.1 hs, hno _ fun s hs => hperm.mem_iff.2 (p2.mem_iff.1 hs)]

end Qugar.Py.Text
