import Verif.Lemmas.PyTablesIndex
/-
Lemmas about the execution of the code generated for the tables.
-/
namespace Qugar.Py.Tables

variable {P K : Type} [DecidableEq P]

/-- The index of the registry is right. -/
def Regs (st : State P K) : Prop := ∀ k ∈ st.keys, st.registry[k.2]? = some k.1

/-- What executing code that writes at offsets from `o` on and defines the pointers of the tables `names` may change. -/
structure Frame (o : Nat) (names : List Nat) (st st' : State P K) : Prop where
  regs : Regs st'
  size : st'.size = st.size
  epoch : st'.epoch = st.epoch
  base : st'.base = st.base
  data : ∀ a < o, st'.data a = st.data a
  ptr : ∀ t s, t ∉ names → st'.ptr t s = st.ptr t s

theorem Frame.refl {o : Nat} {names : List Nat} {st : State P K} (h : Regs st) : Frame o names st st :=
  ⟨h, rfl, rfl, rfl, fun _ _ => rfl, fun _ _ _ => rfl⟩

theorem Frame.trans {o o' : Nat} {names names' : List Nat} {st st' st'' : State P K} (h : Frame o names st st')
    (h' : Frame o' names' st' st'') (ho : o ≤ o') : Frame o (names ++ names') st st'' where
  regs := h'.regs
  size := by rw [h'.size, h.size]
  epoch := by rw [h'.epoch, h.epoch]
  base := by rw [h'.base, h.base]
  data := fun a ha => by rw [h'.data a (by omega), h.data a ha]
  ptr := fun t s ht => by
    rw [List.mem_append, not_or] at ht
    rw [h'.ptr t s ht.2, h.ptr t s ht.1]

theorem Frame.mono {o o' : Nat} {names names' : List Nat} {st st' : State P K} (h : Frame o names st st') (ho : o' ≤ o)
    (hn : ∀ x ∈ names, x ∈ names') : Frame o' names' st st' :=
  ⟨h.regs, h.size, h.epoch, h.base, fun a ha => h.data a (by omega), fun t s ht => h.ptr t s fun hx => ht (hn t hx)⟩

theorem register_ok {valid : P → Bool} {st : State P K} (hst : Regs st) {key : P} (hv : valid key = true) :
    ∃ h st', register valid st key = (some h, st') ∧ st'.registry[h]? = some key ∧ Regs st' ∧ st'.size = st.size ∧
      st'.epoch = st.epoch ∧ st'.base = st.base ∧ st'.data = st.data ∧ st'.ptr = st.ptr := by
  unfold register
  cases hf : st.keys.find? fun k => decide (k.1 = key) with
  | some k =>
    have h1 := List.find?_some hf
    have h2 := hst k (List.mem_of_find?_eq_some hf)
    simp only [decide_eq_true_eq] at h1
    rw [h1] at h2
    exact ⟨k.2, st, rfl, h2, hst, rfl, rfl, rfl, rfl, rfl⟩
  | none =>
    simp only [hv, if_true]
    refine ⟨_, _, rfl, ?_, ?_, rfl, rfl, rfl, rfl, rfl⟩
    · simp
    · intro k hk
      simp only [List.mem_cons] at hk
      rcases hk with rfl | hk
      · simp
      · have := hst k hk
        rw [List.getElem?_append_left]
        · exact this
        · rw [List.getElem?_eq_some_iff] at this
          exact this.1

/-- There is a block of values of an element at the offset. -/
def Holds (B : Basix P K) (st : State P K) (off : Nat) (core : P) (pts : List (List K)) (nd : Nat) : Prop :=
  ∀ e < need B core nd pts.length, st.data (off + e) = block B core pts e

theorem Holds.frame {B : Basix P K} {st st' : State P K} {off nd o : Nat} {core : P} {pts : List (List K)} {names : List Nat}
    (h : Holds B st off core pts nd) (hf : Frame o names st st') (ho : off + need B core nd pts.length ≤ o) :
    Holds B st' off core pts nd := fun e he => by rw [hf.data _ (by omega), h e he]

theorem exec_tabulate {B : Basix P K} {n : Nat} {pts : Pts → List (List K)} {st : State P K} (hst : Regs st)
    (hb : st.base = st.epoch) {core : P} (hv : B.valid core = true) {nd : Nat} (p : Pts) {dst capacity : Nat}
    (hdim : ∀ x ∈ pts p, x.length = B.dim core) (hc : need B core nd (pts p).length ≤ capacity) (hs : dst + need B core nd (pts p).length ≤ st.size) :
    ∃ st', exec B n pts st (.tabulate core nd p (B.dim core) dst capacity) = some st' ∧ Frame dst [] st st' ∧
      Holds B st' dst core (pts p) nd := by
  obtain ⟨h, st1, e1, e2, e3, e4, e5, e6, e7, e8⟩ := register_ok hst hv
  have hx : exec B n pts st (.tabulate core nd p (B.dim core) dst capacity) = some { st1 with
      data := fun a => if dst ≤ a ∧ a < dst + need B core nd (pts p).length then block B core (pts p) (a - dst) else st1.data a } := by
    simp only [exec, e1, tabulate, e2]
    rw [if_neg (by omega), if_neg (by simpa using hdim), if_neg (by rw [e4, e5, e6]; omega)]
  refine ⟨_, hx, ⟨e3, e4, e5, e6, ?_, ?_⟩, ?_⟩
  · intro a ha
    show (if _ then _ else _) = _
    rw [if_neg (by omega), e7]
  · intro t s _
    show st1.ptr t s = _
    rw [e8]
  · intro e he
    show (if _ then _ else _) = _
    rw [if_pos (by omega), Nat.add_sub_cancel_left]

theorem fold_assign {ι : Type} (l : List ι) (to' from' : ι → Nat) (hnd : (l.map to').Nodup)
    (hdisj : ∀ p ∈ l, ∀ p' ∈ l, from' p ≠ to' p') (data : Nat → K) :
    (∀ p ∈ l, l.foldl (fun data p => assign data (to' p) (data (from' p))) data (to' p) = data (from' p)) ∧
    ∀ a, (∀ p ∈ l, to' p ≠ a) → l.foldl (fun data p => assign data (to' p) (data (from' p))) data a = data a := by
  induction l generalizing data with
  | nil => simp
  | cons x l ih =>
    rw [List.map_cons, List.nodup_cons] at hnd
    obtain ⟨h1, h2⟩ := ih hnd.2 (fun p hp p' hp' => hdisj p (List.mem_cons_of_mem _ hp) p' (List.mem_cons_of_mem _ hp'))
      (assign data (to' x) (data (from' x)))
    have hne : ∀ p ∈ l, from' p ≠ to' x := fun p hp => hdisj p (List.mem_cons_of_mem _ hp) x (List.mem_cons_self ..)
    constructor
    · intro p hp
      rw [List.foldl_cons]
      rcases List.mem_cons.1 hp with rfl | hp
      · rw [h2 _ fun p' hp' hh => hnd.1 (by rw [← hh]; exact List.mem_map_of_mem hp')]
        simp [assign]
      · rw [h1 p hp, assign, if_neg (hne p hp)]
    · intro a ha
      rw [List.foldl_cons, h2 a fun p hp => ha p (List.mem_cons_of_mem _ hp), assign,
        if_neg fun h => ha x (List.mem_cons_self ..) h.symm]

theorem mem_its {n f : Nat} {p : Nat × Nat} :
    p ∈ ((List.range n).flatMap fun iq => (List.range f).map fun kd => (iq, kd)) ↔ p.1 < n ∧ p.2 < f := by
  simp only [List.mem_flatMap, List.mem_range, List.mem_map]
  constructor
  · rintro ⟨i, hi, k, hk, rfl⟩; exact ⟨hi, hk⟩
  · rintro ⟨h1, h2⟩; exact ⟨p.1, h1, p.2, h2, rfl⟩

theorem its_nodup (n f : Nat) : ((List.range n).flatMap fun iq => (List.range f).map fun kd => (iq, kd)).Nodup := by
  rw [List.nodup_flatMap]
  refine ⟨fun i _ => (List.nodup_range).map fun a b h => (Prod.mk.inj h).2, ?_⟩
  refine List.Pairwise.imp ?_ (List.nodup_range (n := n))
  intro a b hab
  rw [Function.onFun, List.disjoint_left]
  rintro ⟨x, y⟩ h1 h2
  simp only [List.mem_map] at h1 h2
  obtain ⟨_, _, h1⟩ := h1
  obtain ⟨_, _, h2⟩ := h2
  exact hab ((Prod.mk.inj h1).1.trans (Prod.mk.inj h2).1.symm)

theorem pair_inj {f : Nat} {p p' : Nat × Nat} (h : p.2 < f) (h' : p'.2 < f) (he : p.1 * f + p.2 = p'.1 * f + p'.2) : p = p' := by
  have hf : 0 < f := by omega
  have h1 : p.1 = p'.1 := by
    have a1 : (p.1 * f + p.2) / f = p.1 := by rw [Nat.mul_comm, Nat.mul_add_div hf, Nat.div_eq_of_lt h, Nat.add_zero]
    have a2 : (p'.1 * f + p'.2) / f = p'.1 := by rw [Nat.mul_comm, Nat.mul_add_div hf, Nat.div_eq_of_lt h', Nat.add_zero]
    rw [← a1, ← a2, he]
  rw [h1] at he
  exact Prod.ext h1 (by omega)

theorem pair_lt {n f iq k : Nat} (h : iq < n) (h' : k < f) : iq * f + k < n * f := by
  have : (iq + 1) * f ≤ n * f := by gcongr; omega
  have e : (iq + 1) * f = iq * f + f := by ring
  omega

theorem exec_repack {B : Basix P K} {n : Nat} {pts : Pts → List (List K)} {st : State P K} (hst : Regs st)
    (hb : st.base = st.epoch) {dst src funcs didx stride vs vaxis lim : Nat} (hsize : dst + n * funcs ≤ st.size) (hlim : lim ≤ dst)
    (hsrc : ∀ iq < n, ∀ kd < funcs, src + (didx * n * stride + iq * stride + kd * vs + vaxis) < lim) :
    ∃ st', exec B n pts st (.repack dst src funcs didx stride vs vaxis) = some st' ∧ Frame dst [] st st' ∧
      ∀ iq < n, ∀ kd < funcs, st'.data (dst + (iq * funcs + kd)) = st.data (src + (didx * n * stride + iq * stride + kd * vs + vaxis)) := by
  have hto : ∀ p ∈ ((List.range n).flatMap fun iq => (List.range funcs).map fun kd => (iq, kd)),
      dst + (p.1 * funcs + p.2) < st.size := fun p hp => by
    obtain ⟨h1, h2⟩ := mem_its.1 hp
    have := pair_lt h1 h2
    omega
  obtain ⟨h1, h2⟩ := fold_assign (K := K) ((List.range n).flatMap fun iq => (List.range funcs).map fun kd => (iq, kd))
    (fun p => dst + (p.1 * funcs + p.2)) (fun p => src + (didx * n * stride + p.1 * stride + p.2 * vs + vaxis)) (by
      rw [List.nodup_map_iff_inj_on (its_nodup n funcs)]
      intro p hp p' hp' he
      exact pair_inj (mem_its.1 hp).2 (mem_its.1 hp').2 (by omega)) (by
      intro p hp p' hp'
      have := hsrc p.1 (mem_its.1 hp).1 p.2 (mem_its.1 hp).2
      omega) st.data
  have hx : exec B n pts st (.repack dst src funcs didx stride vs vaxis) = some { st with
      data := ((List.range n).flatMap fun iq => (List.range funcs).map fun kd => (iq, kd)).foldl (fun data p =>
        assign data (dst + (p.1 * funcs + p.2)) (data (src + (didx * n * stride + p.1 * stride + p.2 * vs + vaxis)))) st.data } := by
    simp only [exec]
    rw [if_neg]
    rintro (h | h)
    · exact h hb
    · apply h
      intro p hp
      refine ⟨?_, hto p hp⟩
      have := hsrc p.1 (mem_its.1 hp).1 p.2 (mem_its.1 hp).2
      by_cases hn : n = 0
      · subst hn; simp at hp
      · have hf : 0 < funcs := by have := (mem_its.1 hp).2; omega
        have := Nat.mul_pos (Nat.pos_of_ne_zero hn) hf
        omega
  refine ⟨_, hx, ⟨hst, rfl, rfl, rfl, ?_, fun _ _ _ => rfl⟩, ?_⟩
  · intro a ha
    exact h2 a fun p _ => by omega
  · intro iq hiq kd hkd
    exact h1 (iq, kd) (mem_its.2 ⟨hiq, hkd⟩)

theorem execAll_append {B : Basix P K} {n : Nat} {pts : Pts → List (List K)} {st st' : State P K} {s s' : List (Stmt P)}
    (h : execAll B n pts st s = some st') : execAll B n pts st (s ++ s') = execAll B n pts st' s' := by
  induction s generalizing st with
  | nil =>
    simp only [execAll, Option.some.injEq] at h
    rw [h, List.nil_append]
  | cons x s ih =>
    rw [List.cons_append, execAll]
    rw [execAll] at h
    cases hx : exec B n pts st x with
    | none => rw [hx] at h; simp at h
    | some st1 =>
      rw [hx] at h
      exact ih h

theorem execAll_cons {B : Basix P K} {n : Nat} {pts : Pts → List (List K)} {st st' : State P K} {x : Stmt P} {s' : List (Stmt P)}
    (h : exec B n pts st x = some st') : execAll B n pts st (x :: s') = execAll B n pts st' s' := by
  rw [execAll, h, Option.bind_some]

theorem exec_point {B : Basix P K} {n : Nat} {pts : Pts → List (List K)} {st : State P K} (hst : Regs st) (t s off o : Nat) :
    ∃ st', exec B n pts st (.point t s off) = some st' ∧ Frame o [t] st st' ∧ st'.data = st.data ∧ st'.ptr t s = some (st.base, off) ∧
      ∀ s', s' ≠ s → st'.ptr t s' = st.ptr t s' := by
  refine ⟨_, rfl, ⟨hst, rfl, rfl, rfl, fun _ _ => rfl, ?_⟩, rfl, ?_, ?_⟩
  · intro t' s' ht'
    simp only [List.mem_singleton] at ht'
    simp [ht']
  · simp
  · intro s' hs'
    simp [hs']

/-- A table is ready: its pointers are defined, and the entries have the values of the derivative of the component `v` of the functions
of the element `core`. -/
def Good (B : Basix P K) (n : Nat) (side : Nat → List (List K)) (two : Bool) (st : State P K) (o : Nat) (t : Table P) (core : P) (v : Nat) :
    Prop :=
  ∀ s < (if two then 2 else 1), ∃ off, st.ptr t.name s = some (st.epoch, off) ∧ off + n * t.funcs ≤ o ∧
    ∀ iq < n, ∀ dof < t.funcs, st.data (off + (iq * t.funcs + dof)) = B.eval core ((side s).getD iq []) t.derivs dof v

omit [DecidableEq P] in
theorem Good.frame {B : Basix P K} {n : Nat} {side : Nat → List (List K)} {two : Bool} {st st' : State P K} {o o' o'' : Nat} {t : Table P}
    {core : P} {v : Nat} {names : List Nat} (h : Good B n side two st o t core v) (hf : Frame o' names st st') (ho : o ≤ o')
    (ho' : o ≤ o'') (ht : t.name ∉ names) : Good B n side two st' o'' t core v := by
  intro s hs
  obtain ⟨off, h1, h2, h3⟩ := h s hs
  refine ⟨off, by rw [hf.ptr _ _ ht, h1, hf.epoch], by omega, ?_⟩
  intro iq hiq dof hdof
  have := pair_lt hiq hdof
  rw [hf.data _ (by omega), h3 iq hiq dof hdof]

/-- The table is one of the element `core`. -/
structure Fits (B : Basix P K) (t : Table P) (core : P) (v : Nat) : Prop where
  funcs : t.funcs = B.dofs core
  dim : t.elemDim = B.dim core
  low : 1 ≤ B.dim core
  high : B.dim core ≤ 3
  derivs : t.derivs.length = B.dim core
  comp : v < B.values core
  valid : B.valid core = true

/-- The dictionary of a table of the element `core`. -/
def infoOf (B : Basix P K) (t : Table P) (core : P) (v : Nat) : Info P :=
  { params := core, gdim := B.dim core, vs := B.values core, ndofs := B.dofs core, didx := index t.derivs, vaxis := v,
    maxnd := t.derivs.sum }

theorem item_ok {B : Basix P K} {interior : Bool} {n : Nat} {pts : Pts → List (List K)} {m : Meta P} {core : P} {nd blk0 blk1 offset : Nat}
    {t : Table P} {v : Nat} (hvs : m.vs = B.values core) (hnd : m.ndofs = B.dofs core) (hfit : Fits B t core v)
    (hder : t.derivs.sum ≤ nd) {side : Nat → List (List K)} (hside : ∀ s < 2, (s = 1 → (interior && decide (t.perms > 1)) = true) → (side s).length = n)
    {st : State P K} (hst : Regs st) (hb : st.base = st.epoch)
    (h0 : Holds B st blk0 core (side 0) nd) (l0 : blk0 + need B core nd n ≤ offset)
    (h1 : (interior && decide (t.perms > 1)) = true → Holds B st blk1 core (side 1) nd ∧ blk1 + need B core nd n ≤ offset)
    (hsize : (emitItem interior n m blk0 blk1 offset (t, infoOf B t core v)).2 ≤ st.size) :
    ∃ st', execAll B n pts st (emitItem interior n m blk0 blk1 offset (t, infoOf B t core v)).1 = some st' ∧
      Frame offset [t.name] st st' ∧
      Good B n side (interior && decide (t.perms > 1)) st' (emitItem interior n m blk0 blk1 offset (t, infoOf B t core v)).2 t core v := by
  have hl1 : 1 ≤ t.derivs.length := by rw [hfit.derivs]; exact hfit.low
  have hl3 : t.derivs.length ≤ 3 := by rw [hfit.derivs]; exact hfit.high
  -- the entries of the table in a block
  have key : ∀ (st1 : State P K) (blk s : Nat), (side s).length = n → Holds B st1 blk core (side s) nd → ∀ iq < n, ∀ dof < t.funcs,
      index t.derivs * n * (B.dofs core * B.values core) + iq * (B.dofs core * B.values core) + dof * B.values core + v < need B core nd n ∧
      st1.data (blk + (index t.derivs * n * (B.dofs core * B.values core) + iq * (B.dofs core * B.values core) + dof * B.values core + v))
        = B.eval core ((side s).getD iq []) t.derivs dof v := by
    intro st1 blk s hs hh iq hiq dof hdof
    have hlt := entry_lt B core (n := n) (nd := nd) hl1 hl3 hfit.derivs hder hiq (by rw [← hfit.funcs]; exact hdof) hfit.comp
    refine ⟨hlt, ?_⟩
    rw [hh _ (by rw [hs]; exact hlt)]
    have := block_entry B core (side s) hl1 hl3 hfit.derivs (by rw [hs]; exact hiq) (by rw [← hfit.funcs]; exact hdof) hfit.comp
    rw [hs] at this
    exact this
  have s0 : (side 0).length = n := hside 0 (by omega) (by omega)
  by_cases hv1 : m.vs = 1
  · -- no copy
    have hval : B.values core = 1 := by rw [← hvs]; exact hv1
    have hv0 : v = 0 := by have := hfit.comp; omega
    have hneed : ∀ blk, blk + need B core nd n ≤ offset → blk + index t.derivs * n * t.funcs + n * t.funcs ≤ offset := by
      intro blk hblk
      have h4 := index_lt hl1 hl3 hder
      rw [hfit.derivs] at h4
      have h5 : (index t.derivs + 1) * n * B.dofs core * B.values core ≤ need B core nd n := by
        unfold need
        gcongr
        omega
      rw [hval] at h5
      have e : (index t.derivs + 1) * n * B.dofs core * 1 = index t.derivs * n * t.funcs + n * t.funcs := by rw [hfit.funcs]; ring
      omega
    have hread : ∀ (st1 : State P K) (blk s : Nat), (side s).length = n → Holds B st1 blk core (side s) nd → ∀ iq < n, ∀ dof < t.funcs,
        st1.data (blk + index t.derivs * n * t.funcs + (iq * t.funcs + dof)) = B.eval core ((side s).getD iq []) t.derivs dof v := by
      intro st1 blk s hs hh iq hiq dof hdof
      rw [← (key st1 blk s hs hh iq hiq dof hdof).2, hval, hv0, hfit.funcs]
      congr 1
      ring
    by_cases htwo : (interior && decide (t.perms > 1)) = true
    · have s1 : (side 1).length = n := hside 1 (by omega) fun _ => htwo
      obtain ⟨h1h, h1l⟩ := h1 htwo
      have e : emitItem interior n m blk0 blk1 offset (t, infoOf B t core v) = ([.point t.name 0 (blk0 + index t.derivs * n * t.funcs),
          .point t.name 1 (blk1 + index t.derivs * n * t.funcs)], offset) := by
        simp only [emitItem, infoOf]
        rw [if_pos hv1, if_pos htwo]
      rw [e]
      obtain ⟨st1, a1, a2, a3, a4, a5⟩ := exec_point (B := B) (n := n) (pts := pts) hst t.name 0 (blk0 + index t.derivs * n * t.funcs) offset
      obtain ⟨st2, b1, b2, b3, b4, b5⟩ := exec_point (B := B) (n := n) (pts := pts) a2.regs t.name 1 (blk1 + index t.derivs * n * t.funcs) offset
      refine ⟨st2, by rw [execAll_cons a1, execAll_cons b1, execAll], (a2.trans b2 le_rfl).mono le_rfl (by simp), ?_⟩
      rw [htwo]
      intro s hs
      simp only [if_true] at hs
      have hs01 : s = 0 ∨ s = 1 := by omega
      rcases hs01 with rfl | rfl
      · refine ⟨_, by rw [b5 0 (by omega), a4, b2.epoch, a2.epoch, hb], hneed _ l0, ?_⟩
        intro iq hiq dof hdof
        rw [b3, a3]
        exact hread st blk0 0 s0 h0 iq hiq dof hdof
      · refine ⟨_, by rw [b4, a2.base, b2.epoch, a2.epoch, hb], hneed _ h1l, ?_⟩
        intro iq hiq dof hdof
        rw [b3, a3]
        exact hread st blk1 1 s1 h1h iq hiq dof hdof
    · have e : emitItem interior n m blk0 blk1 offset (t, infoOf B t core v) = ([.point t.name 0 (blk0 + index t.derivs * n * t.funcs)], offset) := by
        simp only [emitItem, infoOf]
        rw [if_pos hv1, if_neg htwo]
      rw [e]
      obtain ⟨st1, a1, a2, a3, a4, a5⟩ := exec_point (B := B) (n := n) (pts := pts) hst t.name 0 (blk0 + index t.derivs * n * t.funcs) offset
      refine ⟨st1, by rw [execAll_cons a1, execAll], a2, ?_⟩
      intro s hs
      rw [if_neg htwo] at hs
      have hs0 : s = 0 := by omega
      subst hs0
      refine ⟨_, by rw [a4, a2.epoch, hb], hneed _ l0, ?_⟩
      intro iq hiq dof hdof
      rw [a3]
      exact hread st blk0 0 s0 h0 iq hiq dof hdof
  · -- copies
    have hsrc : ∀ (blk : Nat), blk + need B core nd n ≤ offset → ∀ iq < n, ∀ kd < t.funcs,
        blk + (index t.derivs * n * (m.ndofs * m.vs) + iq * (m.ndofs * m.vs) + kd * m.vs + v) < offset := by
      intro blk hblk iq hiq kd hkd
      have := (key st blk0 0 s0 h0 iq hiq kd hkd).1
      rw [hvs, hnd]
      omega
    by_cases htwo : (interior && decide (t.perms > 1)) = true
    · have s1 : (side 1).length = n := hside 1 (by omega) fun _ => htwo
      obtain ⟨h1h, h1l⟩ := h1 htwo
      have e : emitItem interior n m blk0 blk1 offset (t, infoOf B t core v) =
          ([.repack offset blk0 t.funcs (index t.derivs) (m.ndofs * m.vs) m.vs v,
            .repack (offset + n * t.funcs) blk1 t.funcs (index t.derivs) (m.ndofs * m.vs) m.vs v,
            .point t.name 0 offset, .point t.name 1 (offset + n * t.funcs)], offset + n * t.funcs + n * t.funcs) := by
        simp only [emitItem, infoOf]
        rw [if_neg hv1, if_pos htwo]
      rw [e] at hsize ⊢
      simp only at hsize
      obtain ⟨st1, a1, a2, a3⟩ := exec_repack (B := B) (pts := pts) hst hb (dst := offset) (n := n) (funcs := t.funcs) (by omega) le_rfl
        (hsrc blk0 l0)
      obtain ⟨st2, b1, b2, b3⟩ := exec_repack (B := B) (pts := pts) a2.regs (by rw [a2.base, a2.epoch, hb]) (dst := offset + n * t.funcs)
        (n := n) (funcs := t.funcs) (by rw [a2.size]; omega) (by omega) (hsrc blk1 h1l)
      obtain ⟨st3, c1, c2, c3, c4, c5⟩ := exec_point (B := B) (n := n) (pts := pts) b2.regs t.name 0 offset offset
      obtain ⟨st4, d1, d2, d3, d4, d5⟩ := exec_point (B := B) (n := n) (pts := pts) c2.regs t.name 1 (offset + n * t.funcs) offset
      refine ⟨st4, by rw [execAll_cons a1, execAll_cons b1, execAll_cons c1, execAll_cons d1, execAll],
        ((a2.trans (b2.mono (o' := offset) (by omega) fun _ h => h) le_rfl).trans (c2.trans d2 le_rfl) le_rfl).mono le_rfl (by simp), ?_⟩
      rw [htwo]
      intro s hs
      simp only [if_true] at hs
      have hs01 : s = 0 ∨ s = 1 := by omega
      rcases hs01 with rfl | rfl
      · refine ⟨_, by rw [d5 0 (by omega), c4, b2.base, a2.base, d2.epoch, c2.epoch, b2.epoch, a2.epoch, hb], by omega, ?_⟩
        intro iq hiq dof hdof
        have hlt := pair_lt hiq hdof
        rw [d3, c3, b2.data _ (by omega), a3 iq hiq dof hdof, hvs, hnd]
        exact (key st blk0 0 s0 h0 iq hiq dof hdof).2
      · refine ⟨_, by rw [d4, c2.base, b2.base, a2.base, d2.epoch, c2.epoch, b2.epoch, a2.epoch, hb], by omega, ?_⟩
        intro iq hiq dof hdof
        rw [d3, c3, b3 iq hiq dof hdof, a2.data _ (hsrc blk1 h1l iq hiq dof hdof), hvs, hnd]
        exact (key st blk1 1 s1 h1h iq hiq dof hdof).2
    · have e : emitItem interior n m blk0 blk1 offset (t, infoOf B t core v) =
          ([.repack offset blk0 t.funcs (index t.derivs) (m.ndofs * m.vs) m.vs v, .point t.name 0 offset], offset + n * t.funcs) := by
        simp only [emitItem, infoOf]
        rw [if_neg hv1, if_neg htwo]
      rw [e] at hsize ⊢
      simp only at hsize
      obtain ⟨st1, a1, a2, a3⟩ := exec_repack (B := B) (pts := pts) hst hb (dst := offset) (n := n) (funcs := t.funcs) (by omega) le_rfl
        (hsrc blk0 l0)
      obtain ⟨st3, c1, c2, c3, c4, c5⟩ := exec_point (B := B) (n := n) (pts := pts) a2.regs t.name 0 offset offset
      refine ⟨st3, by rw [execAll_cons a1, execAll_cons c1, execAll], (a2.trans c2 le_rfl).mono le_rfl (by simp), ?_⟩
      intro s hs
      rw [if_neg htwo] at hs
      have hs0 : s = 0 := by omega
      subst hs0
      refine ⟨_, by rw [c4, a2.base, c2.epoch, a2.epoch, hb], le_rfl, ?_⟩
      intro iq hiq dof hdof
      rw [c3, a3 iq hiq dof hdof, hvs, hnd]
      exact (key st blk0 0 s0 h0 iq hiq dof hdof).2

end Qugar.Py.Tables
