import Verif.Lemmas.PyTablesExec
/-
Lemmas about the code generated for the groups of tables of a quadrature.
-/
namespace Qugar.Py.Tables

variable {P K : Type}

theorem emitItem_le (interior : Bool) (n : Nat) (m : Meta P) (blk0 blk1 offset : Nat) (i : Table P × Info P) :
    offset ≤ (emitItem interior n m blk0 blk1 offset i).2 := by
  unfold emitItem
  simp only
  split <;> split <;> simp only <;> omega

theorem emitItems_le (interior : Bool) (n : Nat) (m : Meta P) (blk0 blk1 offset : Nat) (is : List (Table P × Info P)) :
    offset ≤ (emitItems interior n m blk0 blk1 offset is).2 := by
  induction is generalizing offset with
  | nil => exact le_rfl
  | cons i is ih => exact le_trans (emitItem_le interior n m blk0 blk1 offset i) (ih _)

/-- Names of the tables. -/
def names (is : List (Table P × Info P)) : List Nat := is.map fun i => i.1.name

variable [DecidableEq P]

theorem items_ok {B : Basix P K} {interior : Bool} {n : Nat} {pts : Pts → List (List K)} {m : Meta P} {core : P} {nd blk0 blk1 : Nat}
    (hvs : m.vs = B.values core) (hnd : m.ndofs = B.dofs core) {side : Nat → List (List K)} (s0 : (side 0).length = n)
    (s1 : interior = true → (side 1).length = n) (is : List (Table P × Info P))
    (his : ∀ i ∈ is, i.2 = infoOf B i.1 core i.2.vaxis ∧ Fits B i.1 core i.2.vaxis ∧ i.1.derivs.sum ≤ nd)
    (hnames : (names is).Nodup) {offset : Nat} {st : State P K} (hst : Regs st) (hb : st.base = st.epoch)
    (h0 : Holds B st blk0 core (side 0) nd) (l0 : blk0 + need B core nd n ≤ offset)
    (h1 : (interior && is.any fun i => decide (i.1.perms > 1)) = true → Holds B st blk1 core (side 1) nd ∧ blk1 + need B core nd n ≤ offset)
    (hsize : (emitItems interior n m blk0 blk1 offset is).2 ≤ st.size) :
    ∃ st', execAll B n pts st (emitItems interior n m blk0 blk1 offset is).1 = some st' ∧ Frame offset (names is) st st' ∧
      ∀ i ∈ is, Good B n side (interior && decide (i.1.perms > 1)) st' (emitItems interior n m blk0 blk1 offset is).2 i.1 core i.2.vaxis := by
  induction is generalizing offset st with
  | nil => exact ⟨st, rfl, Frame.refl hst, by simp⟩
  | cons i is ih =>
    obtain ⟨e, hfit, hder⟩ := his i (List.mem_cons_self ..)
    rw [names, List.map_cons, List.nodup_cons] at hnames
    have hle := emitItems_le interior n m blk0 blk1 (emitItem interior n m blk0 blk1 offset i).2 is
    have hle' := emitItem_le interior n m blk0 blk1 offset i
    have hi : i = (i.1, infoOf B i.1 core i.2.vaxis) := Prod.ext rfl e
    simp only [emitItems] at hsize ⊢
    obtain ⟨st1, a1, a2, a3⟩ := item_ok (pts := pts) (interior := interior) (blk0 := blk0) (blk1 := blk1) (offset := offset) hvs hnd hfit hder
      (side := side) (by
        intro s hs hint
        have : s = 0 ∨ s = 1 := by omega
        rcases this with rfl | rfl
        · exact s0
        · have := hint rfl
          rw [Bool.and_eq_true] at this
          exact s1 this.1) hst hb h0 l0
      (by
        intro h
        apply h1
        rw [Bool.and_eq_true] at h ⊢
        exact ⟨h.1, by rw [List.any_cons, h.2, Bool.true_or]⟩)
      (by rw [← hi]; omega)
    rw [← hi] at a1 a3
    obtain ⟨st2, b1, b2, b3⟩ := ih (fun j hj => his j (List.mem_cons_of_mem _ hj)) hnames.2
      (offset := (emitItem interior n m blk0 blk1 offset i).2) (st := st1) a2.regs (by rw [a2.base, a2.epoch, hb])
      (h0.frame a2 (by rw [s0]; exact l0)) (by omega) (by
        intro h
        obtain ⟨h2, h3⟩ := h1 (by
          rw [Bool.and_eq_true] at h ⊢
          exact ⟨h.1, by rw [List.any_cons, h.2, Bool.or_true]⟩)
        rw [Bool.and_eq_true] at h
        exact ⟨h2.frame a2 (by rw [s1 h.1]; exact h3), by omega⟩) (by rw [a2.size]; exact hsize)
    refine ⟨st2, by rw [execAll_append a1]; exact b1, (a2.trans b2 hle').mono le_rfl (by simp [names]), ?_⟩
    intro j hj
    rcases List.mem_cons.1 hj with rfl | hj
    · exact a3.frame b2 le_rfl hle hnames.1
    · exact b3 j hj

/-- The data of a group are those of the tables of an element. -/
structure MOK (B : Basix P K) (interior : Bool) (n : Nat) (m : Meta P) : Prop where
  gdim : m.gdim = B.dim m.params
  ndofs : m.ndofs = B.dofs m.params
  vs : m.vs = B.values m.params
  blk : m.blk = need B m.params m.maxnd n
  valid : B.valid m.params = true
  pos : 0 < m.vs
  anyPerm : m.anyPerm = (interior && m.items.any fun i => decide (i.1.perms > 1))
  items : ∀ i ∈ m.items, i.2 = infoOf B i.1 m.params i.2.vaxis ∧ Fits B i.1 m.params i.2.vaxis ∧ i.1.derivs.sum ≤ m.maxnd

/-- The points of a quadrature are `n`. -/
structure PtsOK (interior mixedDim : Bool) (n : Nat) (pts : Pts → List (List K)) : Prop where
  cell : (pts .cell).length = n
  side1 : interior = true → (pts .side1).length = n
  facet : mixedDim = true → (pts .facet).length = n

/-- The points at which the tables of elements of dimension `dim` are evaluated in each side. -/
def sidePts (mixedDim : Bool) (tdim : Nat) (pts : Pts → List (List K)) (dim s : Nat) : List (List K) :=
  if s = 1 then pts .side1 else if mixedDim && dim != tdim then pts .facet else pts .cell

omit [DecidableEq P] in
theorem emitGroup_le (interior mixedDim : Bool) (tdim n offset : Nat) (m : Meta P) :
    offset ≤ (emitGroup interior mixedDim tdim n offset m).2 := by
  unfold emitGroup
  simp only
  refine le_trans ?_ (emitItems_le ..)
  split <;> omega

theorem group_ok {B : Basix P K} {interior mixedDim : Bool} {tdim n : Nat} {pts : Pts → List (List K)} {m : Meta P}
    (hm : MOK B interior n m) (hp : PtsOK interior mixedDim n pts) (hnames : (names m.items).Nodup)
    (hd0 : ∀ x ∈ sidePts mixedDim tdim pts m.gdim 0, x.length = B.dim m.params)
    (hd1 : m.anyPerm = true → ∀ x ∈ pts .side1, x.length = B.dim m.params) {offset : Nat} {st : State P K}
    (hst : Regs st) (hb : st.base = st.epoch) (hsize : (emitGroup interior mixedDim tdim n offset m).2 ≤ st.size) :
    ∃ st', execAll B n pts st (emitGroup interior mixedDim tdim n offset m).1 = some st' ∧ Frame offset (names m.items) st st' ∧
      ∀ i ∈ m.items, Good B n (sidePts mixedDim tdim pts m.gdim) (interior && decide (i.1.perms > 1)) st'
        (emitGroup interior mixedDim tdim n offset m).2 i.1 m.params i.2.vaxis := by
  have s0 : (sidePts mixedDim tdim pts m.gdim 0).length = n := by
    simp only [sidePts, Nat.zero_ne_one, if_false]
    split
    · next h =>
      rw [Bool.and_eq_true] at h
      exact hp.facet h.1
    · exact hp.cell
  have s1 : interior = true → (sidePts mixedDim tdim pts m.gdim 1).length = n := fun h => by
    simp only [sidePts, if_true]
    exact hp.side1 h
  have e0 : sidePts mixedDim tdim pts m.gdim 0 = pts (if mixedDim && m.gdim != tdim then Pts.facet else Pts.cell) := by
    simp only [sidePts, Nat.zero_ne_one, if_false]
    split <;> rfl
  have hle := emitItems_le interior n m offset (offset + m.blk) (if m.anyPerm = true then offset + m.blk + m.blk else offset + m.blk) m.items
  simp only [emitGroup] at hsize ⊢
  have hsz1 : offset + m.blk ≤ st.size := by
    refine le_trans ?_ (le_trans hle hsize)
    split <;> omega
  obtain ⟨st1, a1, a2, a3⟩ := exec_tabulate (n := n) (pts := pts) hst hb hm.valid (nd := m.maxnd)
    (if mixedDim && m.gdim != tdim then Pts.facet else Pts.cell) (dst := offset) (capacity := m.blk)
    (by rw [← e0]; exact hd0) (by rw [← e0, s0, hm.blk]) (by rw [← e0, s0, ← hm.blk]; exact hsz1)
  rw [← hm.gdim] at a1
  rw [← e0] at a3
  have hn : need B m.params m.maxnd n = m.blk := hm.blk.symm
  by_cases hperm : m.anyPerm = true
  · rw [if_pos hperm] at hsize hle ⊢
    rw [if_pos hperm]
    have hint : interior = true := by
      have := hm.anyPerm
      rw [hperm] at this
      rw [Eq.comm, Bool.and_eq_true] at this
      exact this.1
    have e1 : sidePts mixedDim tdim pts m.gdim 1 = pts .side1 := by simp [sidePts]
    obtain ⟨st2, b1, b2, b3⟩ := exec_tabulate (n := n) (pts := pts) a2.regs (by rw [a2.base, a2.epoch, hb]) hm.valid (nd := m.maxnd)
      Pts.side1 (dst := offset + m.blk) (capacity := m.blk) (hd1 hperm) (by rw [hp.side1 hint, hm.blk])
      (by rw [hp.side1 hint, ← hm.blk, a2.size]; omega)
    rw [← hm.gdim] at b1
    rw [← e1] at b3
    obtain ⟨st3, c1, c2, c3⟩ := items_ok (B := B) (pts := pts) (interior := interior) hm.vs hm.ndofs s0 s1 m.items hm.items hnames
      (blk0 := offset) (blk1 := offset + m.blk) (offset := offset + m.blk + m.blk) (st := st2) b2.regs
      (by rw [b2.base, b2.epoch, a2.base, a2.epoch, hb])
      (a3.frame b2 (by rw [s0, hn])) (by omega) (fun _ => ⟨b3, by omega⟩) (by rw [b2.size, a2.size]; exact hsize)
    refine ⟨st3, ?_, ((a2.trans b2 (by omega)).trans c2 (by omega)).mono le_rfl (by simp), c3⟩
    rw [List.cons_append, execAll_cons a1, List.cons_append, execAll_cons b1, List.nil_append, c1]
  · rw [if_neg hperm] at hsize hle ⊢
    rw [if_neg hperm]
    obtain ⟨st3, c1, c2, c3⟩ := items_ok (B := B) (pts := pts) (interior := interior) hm.vs hm.ndofs s0 s1 m.items hm.items hnames
      (blk0 := offset) (blk1 := offset + m.blk) (offset := offset + m.blk) (st := st1) a2.regs
      (by rw [a2.base, a2.epoch, hb]) a3 (by omega) (fun h => absurd (hm.anyPerm.trans h) hperm) (by rw [a2.size]; exact hsize)
    refine ⟨st3, ?_, (a2.trans c2 (by omega)).mono le_rfl (by simp), c3⟩
    rw [List.cons_append, execAll_cons a1, List.nil_append, c1]

omit [DecidableEq P] in
theorem emitGroups_le (interior mixedDim : Bool) (tdim n offset : Nat) (ms : List (Meta P)) :
    offset ≤ (emitGroups interior mixedDim tdim n offset ms).2 := by
  induction ms generalizing offset with
  | nil => exact le_rfl
  | cons m ms ih => exact le_trans (emitGroup_le interior mixedDim tdim n offset m) (ih _)

theorem groups_ok {B : Basix P K} {interior mixedDim : Bool} {tdim n : Nat} {pts : Pts → List (List K)}
    (hp : PtsOK interior mixedDim n pts) (ms : List (Meta P)) (hms : ∀ m ∈ ms, MOK B interior n m)
    (hnames : (ms.flatMap fun m => names m.items).Nodup)
    (hd : ∀ m ∈ ms, (∀ x ∈ sidePts mixedDim tdim pts m.gdim 0, x.length = B.dim m.params) ∧
      (m.anyPerm = true → ∀ x ∈ pts .side1, x.length = B.dim m.params)) {offset : Nat} {st : State P K}
    (hst : Regs st) (hb : st.base = st.epoch) (hsize : (emitGroups interior mixedDim tdim n offset ms).2 ≤ st.size) :
    ∃ st', execAll B n pts st (emitGroups interior mixedDim tdim n offset ms).1 = some st' ∧
      Frame offset (ms.flatMap fun m => names m.items) st st' ∧
      ∀ m ∈ ms, ∀ i ∈ m.items, Good B n (sidePts mixedDim tdim pts m.gdim) (interior && decide (i.1.perms > 1)) st'
        (emitGroups interior mixedDim tdim n offset ms).2 i.1 m.params i.2.vaxis := by
  induction ms generalizing offset st with
  | nil => exact ⟨st, rfl, Frame.refl hst, by simp⟩
  | cons m ms ih =>
    rw [List.flatMap_cons, List.nodup_append] at hnames
    obtain ⟨n1, n2, n3⟩ := hnames
    have hle := emitGroups_le interior mixedDim tdim n (emitGroup interior mixedDim tdim n offset m).2 ms
    have hle' := emitGroup_le interior mixedDim tdim n offset m
    simp only [emitGroups] at hsize ⊢
    obtain ⟨st1, a1, a2, a3⟩ := group_ok (tdim := tdim) (pts := pts) (hms m (List.mem_cons_self ..)) hp n1
      (hd m (List.mem_cons_self ..)).1 (hd m (List.mem_cons_self ..)).2 (offset := offset) hst hb (by omega)
    obtain ⟨st2, b1, b2, b3⟩ := ih (fun x hx => hms x (List.mem_cons_of_mem _ hx)) n2 (fun x hx => hd x (List.mem_cons_of_mem _ hx))
      (offset := (emitGroup interior mixedDim tdim n offset m).2) (st := st1) a2.regs (by rw [a2.base, a2.epoch, hb])
      (by rw [a2.size]; exact hsize)
    refine ⟨st2, by rw [execAll_append a1, b1], by rw [List.flatMap_cons]; exact a2.trans b2 hle', ?_⟩
    intro x hx i hi
    rcases List.mem_cons.1 hx with rfl | hx
    · refine (a3 i hi).frame b2 le_rfl hle ?_
      intro hc
      exact n3 _ (List.mem_map_of_mem (f := fun i : Table P × Info P => i.1.name) hi) _ hc rfl
    · exact b3 x hx i hi

omit [DecidableEq P] in
theorem emitItems_size {B : Basix P K} {interior : Bool} {n : Nat} {m : Meta P} (hm : MOK B interior n m) (blk0 blk1 offset : Nat)
    (is : List (Table P × Info P)) (his : ∀ i ∈ is, i.2 = infoOf B i.1 m.params i.2.vaxis) :
    (emitItems interior n m blk0 blk1 offset is).2 = offset + (is.flatMap fun i => if i.2.vs > 1 then
      [n * i.1.funcs] ++ (if interior && i.1.perms > 1 then [n * i.1.funcs] else []) else []).sum := by
  induction is generalizing offset with
  | nil => simp [emitItems]
  | cons i is ih =>
    have hi : i.2.vs = m.vs := by rw [hm.vs, his i (List.mem_cons_self ..)]; rfl
    have hpos := hm.pos
    simp only [emitItems]
    rw [ih _ fun j hj => his j (List.mem_cons_of_mem _ hj), List.flatMap_cons, List.sum_append, ← Nat.add_assoc]
    congr 1
    simp only [emitItem, hi]
    by_cases h1 : m.vs = 1 <;> by_cases h3 : (interior && decide (i.1.perms > 1)) = true
    · have h2 : ¬ m.vs > 1 := by omega
      simp only [if_pos h1, if_pos h3, if_neg h2, List.sum_nil, Nat.add_zero]
    · have h2 : ¬ m.vs > 1 := by omega
      simp only [if_pos h1, if_neg h3, if_neg h2, List.sum_nil, Nat.add_zero]
    · have h2 : m.vs > 1 := by omega
      simp only [if_neg h1, if_pos h3, if_pos h2, List.cons_append, List.nil_append, List.sum_cons, List.sum_nil]; omega
    · have h2 : m.vs > 1 := by omega
      simp only [if_neg h1, if_neg h3, if_pos h2, List.cons_append, List.nil_append, List.sum_cons, List.sum_nil]; omega

omit [DecidableEq P] in
theorem emitGroups_size {B : Basix P K} {interior : Bool} {n : Nat} (mixedDim : Bool) (tdim offset : Nat)
    (ms : List (Meta P)) (hms : ∀ m ∈ ms, MOK B interior n m) :
    (emitGroups interior mixedDim tdim n offset ms).2 = offset + (ms.flatMap (scratchTerms interior n)).sum := by
  induction ms generalizing offset with
  | nil => simp [emitGroups]
  | cons m ms ih =>
    have hm := hms m (List.mem_cons_self ..)
    simp only [emitGroups]
    rw [ih _ fun x hx => hms x (List.mem_cons_of_mem _ hx), List.flatMap_cons, List.sum_append, ← Nat.add_assoc]
    congr 1
    simp only [emitGroup]
    rw [emitItems_size hm _ _ _ _ fun i hi => (hm.items i hi).1, scratchTerms, List.sum_append, List.sum_append]
    split <;> simp <;> omega

/-! ### Groups -/

/-- The tables of a list of groups. -/
def tablesOf (gs : List (Group P)) : List (Table P × Info P) := gs.flatMap fun g => g.2

theorem insert_perm (gs : List (Group P)) (p : P) (x : Table P × Info P) : (tablesOf (insert gs p x)).Perm (x :: tablesOf gs) := by
  induction gs with
  | nil => simp [insert, tablesOf]
  | cons g gs ih =>
    rw [insert]
    split
    · simp only [tablesOf, List.flatMap_cons]
      rw [List.append_assoc]
      exact List.perm_middle
    · simp only [tablesOf, List.flatMap_cons] at ih ⊢
      exact (List.Perm.append_left g.2 ih).trans List.perm_middle

theorem insert_all (q : Group P → Prop) (gs : List (Group P)) (p : P) (x : Table P × Info P) (h : ∀ g ∈ gs, q g)
    (h1 : q (p, [x])) (h2 : ∀ g, q g → g.1 = p → q (g.1, g.2 ++ [x])) : ∀ g ∈ insert gs p x, q g := by
  induction gs with
  | nil =>
    intro g hg
    simp only [insert, List.mem_singleton] at hg
    rw [hg]; exact h1
  | cons g gs ih =>
    intro g' hg'
    rw [insert] at hg'
    split at hg'
    · next hp =>
      rcases List.mem_cons.1 hg' with rfl | hg'
      · exact h2 g (h g (List.mem_cons_self ..)) hp
      · exact h g' (List.mem_cons_of_mem _ hg')
    · rcases List.mem_cons.1 hg' with rfl | hg'
      · exact h g' (List.mem_cons_self ..)
      · exact ih (fun y hy => h y (List.mem_cons_of_mem _ hy)) g' hg'

/-- All the tables of a group are of its element. -/
def GOK (B : Basix P K) (g : Group P) : Prop :=
  g.2 ≠ [] ∧ ∀ i ∈ g.2, i.2 = infoOf B i.1 g.1 i.2.vaxis ∧ Fits B i.1 g.1 i.2.vaxis

theorem groups_spec {B : Basix P K} (tables : List (Table P))
    (h : ∀ t ∈ tables, t.const = false → ∃ core v, info B.values t = some (infoOf B t core v) ∧ Fits B t core v) :
    ∃ gs, groups B.values tables = some gs ∧ (∀ g ∈ gs, GOK B g) ∧
      ((tablesOf gs).map fun i => i.1).Perm (tables.filter fun t => !t.const) ∧
      ∀ i ∈ tablesOf gs, info B.values i.1 = some i.2 := by
  have key : ∀ (ts : List (Table P)) (gs0 : List (Group P)),
      (∀ t ∈ ts, ∃ core v, info B.values t = some (infoOf B t core v) ∧ Fits B t core v) → (∀ g ∈ gs0, GOK B g) →
      (∀ i ∈ tablesOf gs0, info B.values i.1 = some i.2) →
      ∃ gs, ts.foldl (fun acc t => match acc, info B.values t with
          | some gs, some i => some (insert gs i.params (t, i))
          | _, _ => none) (some gs0) = some gs ∧ (∀ g ∈ gs, GOK B g) ∧
        ((tablesOf gs).map fun i => i.1).Perm (((tablesOf gs0).map fun i => i.1) ++ ts) ∧ ∀ i ∈ tablesOf gs, info B.values i.1 = some i.2 := by
    intro ts
    induction ts with
    | nil => intro gs0 _ h0 h1; exact ⟨gs0, rfl, h0, by simp, h1⟩
    | cons t ts ih =>
      intro gs0 hts h0 h1
      obtain ⟨core, v, e, hf⟩ := hts t (List.mem_cons_self ..)
      have hperm := insert_perm gs0 core (t, infoOf B t core v)
      obtain ⟨gs, a1, a2, a3, a4⟩ := ih (insert gs0 core (t, infoOf B t core v)) (fun x hx => hts x (List.mem_cons_of_mem _ hx))
        (insert_all (GOK B) gs0 core _ h0 ⟨by simp, by
          intro i hi
          simp only [List.mem_singleton] at hi
          subst hi
          exact ⟨rfl, hf⟩⟩ (by
          rintro g ⟨g1, g2⟩ hg
          refine ⟨by simp, ?_⟩
          intro i hi
          rcases List.mem_append.1 hi with hi | hi
          · exact g2 i hi
          · simp only [List.mem_singleton] at hi
            subst hi
            rw [hg]
            exact ⟨rfl, hf⟩)) (by
          intro i hi
          rcases List.mem_cons.1 (hperm.mem_iff.1 hi) with rfl | hi
          · exact e
          · exact h1 i hi)
      refine ⟨gs, ?_, a2, ?_, a4⟩
      · rw [List.foldl_cons, e]
        exact a1
      · refine a3.trans (((hperm.map fun i => i.1).append_right ts).trans ?_)
        rw [List.map_cons, List.cons_append]
        exact List.perm_middle.symm
  obtain ⟨gs, a1, a2, a3, a4⟩ := key (tables.filter fun t => !t.const) [] (by
    intro t ht
    rw [List.mem_filter] at ht
    exact h t ht.1 (by simpa using ht.2)) (by simp) (by simp [tablesOf])
  exact ⟨gs, a1, a2, by simpa [tablesOf] using a3, a4⟩

omit [DecidableEq P] in
theorem le_foldl_max (l : List Nat) (a : Nat) : a ≤ l.foldl max a ∧ ∀ x ∈ l, x ≤ l.foldl max a := by
  induction l generalizing a with
  | nil => simp
  | cons y l ih =>
    obtain ⟨h1, h2⟩ := ih (max a y)
    rw [List.foldl_cons]
    refine ⟨le_trans (Nat.le_max_left _ _) h1, ?_⟩
    intro x hx
    rcases List.mem_cons.1 hx with rfl | hx
    · exact le_trans (Nat.le_max_right _ _) h1
    · exact h2 x hx

omit [DecidableEq P] in
theorem groupMeta_ok {B : Basix P K} (interior : Bool) (n : Nat) {g : Group P} (hg : GOK B g) :
    ∃ m, groupMeta interior n g = some m ∧ MOK B interior n m ∧ m.params = g.1 ∧ m.items = g.2 := by
  obtain ⟨h1, h2⟩ := hg
  unfold groupMeta
  match hg2 : g.2 with
  | [] => exact absurd hg2 h1
  | x :: xs =>
    obtain ⟨ex, hx⟩ := h2 x (by rw [hg2]; exact List.mem_cons_self ..)
    refine ⟨_, rfl, ⟨?_, ?_, ?_, ?_, hx.valid, ?_, rfl, ?_⟩, rfl, rfl⟩
    · show x.2.gdim = B.dim g.1
      rw [ex]; rfl
    · show x.2.ndofs = B.dofs g.1
      rw [ex]; rfl
    · show x.2.vs = B.values g.1
      rw [ex]; rfl
    · show Nat.choose (_ + x.2.gdim) x.2.gdim * n * x.2.ndofs * x.2.vs = _
      rw [need, ex]; rfl
    · show 0 < x.2.vs
      rw [ex]; exact lt_of_le_of_lt (Nat.zero_le _) hx.comp
    · intro i hi
      obtain ⟨e, hf⟩ := h2 i (by rw [hg2]; exact hi)
      refine ⟨e, hf, ?_⟩
      have := (le_foldl_max ((x :: xs).map fun i => i.2.maxnd) 0).2 i.2.maxnd (List.mem_map_of_mem hi)
      have em : i.2.maxnd = i.1.derivs.sum := by rw [e]; rfl
      rw [em] at this
      exact this

omit [DecidableEq P] in
theorem metas_ok {B : Basix P K} (interior : Bool) (n : Nat) (gs : List (Group P)) (hgs : ∀ g ∈ gs, GOK B g) :
    ∃ ms, gs.mapM (groupMeta interior n) = some ms ∧ (∀ m ∈ ms, MOK B interior n m) ∧ (ms.flatMap fun m => m.items) = tablesOf gs := by
  induction gs with
  | nil => exact ⟨[], rfl, by simp, rfl⟩
  | cons g gs ih =>
    obtain ⟨m, a1, a2, a3, a4⟩ := groupMeta_ok interior n (hgs g (List.mem_cons_self ..))
    obtain ⟨ms, b1, b2, b3⟩ := ih fun x hx => hgs x (List.mem_cons_of_mem _ hx)
    refine ⟨m :: ms, by rw [List.mapM_cons, a1, b1]; rfl, ?_, ?_⟩
    · intro x hx
      rcases List.mem_cons.1 hx with rfl | hx
      · exact a2
      · exact b2 x hx
    · simp only [List.flatMap_cons, tablesOf] at b3 ⊢
      rw [b3, a4]

omit [DecidableEq P] in
theorem metas_nonempty {B : Basix P K} {interior : Bool} {n : Nat} {gs : List (Group P)} (hgs : ∀ g ∈ gs, GOK B g) {ms : List (Meta P)}
    (h : gs.mapM (groupMeta interior n) = some ms) : ∀ m ∈ ms, m.items ≠ [] := by
  induction gs generalizing ms with
  | nil =>
    cases h
    simp
  | cons g gs ih =>
    obtain ⟨m, a1, a2, a3, a4⟩ := groupMeta_ok interior n (hgs g (List.mem_cons_self ..))
    rw [List.mapM_cons, a1] at h
    simp only [Option.bind_eq_bind, Option.bind_some] at h
    cases hr : gs.mapM (groupMeta interior n) with
    | none => rw [hr] at h; simp at h
    | some rs =>
      rw [hr] at h
      simp only [Option.bind_some, Option.pure_def, Option.some.injEq] at h
      subst h
      intro x hx
      rcases List.mem_cons.1 hx with rfl | hx
      · rw [a4]; exact (hgs g (List.mem_cons_self ..)).1
      · exact ih (fun y hy => hgs y (List.mem_cons_of_mem _ hy)) hr x hx

end Qugar.Py.Tables
