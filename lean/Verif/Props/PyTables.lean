import Verif.Lemmas.PyTablesGroups
/-
C71: the tables of the functions of the elements that the kernels of custom integrals compute at the points of every entity.
-/
namespace Qugar.Py.Tables

/-! ### Specification -/

section
variable {P K : Type}

mutual
/-- The components of the values of an element: for each one, the element of Basix it belongs to and the component in it. The components of
a blocked element are all copies of the function of a scalar element. -/
def components (values : P → Nat) : Elem P → List (P × Nat)
  | .mixed subs => componentsAll values subs
  | .blocked _ vs core => List.replicate vs (core, 0)
  | .plain core => (List.range (values core)).map fun c => (core, c)

/-- The components of the sub-elements of a mixed element, one after the other. -/
def componentsAll (values : P → Nat) : List (Elem P) → List (P × Nat)
  | [] => []
  | s :: ss => components values s ++ componentsAll values ss
end

/-- Elements that `basix.ufl` can create: the elements that are blocked are scalar, and a block of size 1 has one component. -/
inductive Sound (values : P → Nat) : Elem P → Prop
  | mixed (subs : List (Elem P)) : (∀ s ∈ subs, Sound values s) → Sound values (.mixed subs)
  | blocked (bs vs : Nat) (core : P) : values core = 1 → (bs ≤ 1 → vs = 1) → Sound values (.blocked bs vs core)
  | plain (core : P) : Sound values (.plain core)

/-- A table of FFCx: of a component of an element, with all its functions, and with the orders of the derivatives. -/
structure WellFormed (B : Basix P K) (t : Table P) : Prop where
  sound : Sound B.values t.elem
  comp : ∃ core v, (components B.values t.elem)[t.component]? = some (core, v) ∧ v < B.values core ∧ t.funcs = B.dofs core ∧
    t.elemDim = B.dim core ∧ B.valid core = true
  low : 1 ≤ t.elemDim
  high : t.elemDim ≤ 3
  derivs : t.derivs.length = t.elemDim

/-- The points at which the functions of an element of dimension `dim` have to be evaluated, in each side of the entity. -/
def pointsOf (mixedDim : Bool) (tdim : Nat) (q : Quad P K) (dim side : Nat) : List (List K) :=
  if side = 1 then q.pts .side1 else if mixedDim && dim != tdim then q.pts .facet else q.pts .cell

/-- The sides of a table: two in integrals over interior facets if FFCx found that the values depend on the permutation. -/
def HasSide (interior : Bool) (t : Table P) (side : Nat) : Prop := side = 0 ∨ (side = 1 ∧ interior = true ∧ 1 < t.perms)

/-- A quadrature of an integral: tables with different names, and `n` points of the right dimension for each of them. -/
structure QuadOK (B : Basix P K) (interior mixedDim : Bool) (tdim : Nat) (q : Quad P K) : Prop where
  tables : ∀ t ∈ q.tables, t.const = false → WellFormed B t
  names : (q.tables.map fun t => t.name).Nodup
  cell : (q.pts .cell).length = q.n
  side1 : interior = true → (q.pts .side1).length = q.n
  facet : mixedDim = true → (q.pts .facet).length = q.n
  dims : ∀ t ∈ q.tables, t.const = false → ∀ side, HasSide interior t side →
    ∀ x ∈ pointsOf mixedDim tdim q t.elemDim side, x.length = t.elemDim

/-- The states of a thread: it starts without elements, and then elements are registered (by kernels or by other code), the shim is
reset, scratch memory is requested and kernels are executed. -/
inductive Reachable [DecidableEq P] (B : Basix P K) : State P K → Prop
  | start (data : Nat → K) (ptr : Nat → Nat → Option (Nat × Nat)) :
    Reachable B { registry := [], keys := [], size := 0, epoch := 0, data := data, base := 0, ptr := ptr }
  | register {st : State P K} (key : P) : Reachable B st → Reachable B (register B.valid st key).2
  | reset {st : State P K} : Reachable B st → Reachable B (reset st)
  | exec {st st' : State P K} (n : Nat) (pts : Pts → List (List K)) (s : Stmt P) : Reachable B st → exec B n pts st s = some st' →
    Reachable B st'

end

/-! ### Proofs -/

section
variable {P K : Type}

mutual
theorem components_length (values : P → Nat) : ∀ e : Elem P, (components values e).length = e.size values
  | .mixed subs => by rw [components, Elem.size, componentsAll_length values subs]
  | .blocked _ vs core => by rw [components, Elem.size, List.length_replicate]
  | .plain core => by rw [components, Elem.size, List.length_map, List.length_range]

theorem componentsAll_length (values : P → Nat) : ∀ es : List (Elem P), (componentsAll values es).length = Elem.sizes values es
  | [] => by rw [componentsAll, Elem.sizes, List.length_nil]
  | s :: ss => by rw [componentsAll, Elem.sizes, List.length_append, components_length values s, componentsAll_length values ss]
end

/-- What `_resolve_mixed_component` returns for a component of an element of Basix. -/
def Leaf (values : P → Nat) (e : Elem P) (lc : Nat) (core : P) (v : Nat) : Prop :=
  (e = .plain core ∧ lc = v ∧ v < values core) ∨
  ∃ bs vs, e = .blocked bs vs core ∧ v = 0 ∧ values core = 1 ∧ (bs ≤ 1 → vs = 1 ∧ lc = 0)

mutual
theorem resolve_spec (values : P → Nat) : ∀ (e : Elem P), Sound values e → ∀ (c : Nat) (core : P) (v : Nat),
    (components values e)[c]? = some (core, v) → ∃ el lc, resolve values e c = some (el, lc) ∧ Leaf values el lc core v
  | .mixed subs, h, c, core, v, hc => by
    rw [components] at hc
    cases h with
    | mixed _ h => exact resolveSubs_spec values subs h 0 c (Nat.zero_le _) core v (by simpa using hc)
  | .blocked bs vs core', h, c, core, v, hc => by
    rw [components] at hc
    obtain ⟨hlt, e⟩ := List.getElem?_eq_some_iff.1 hc
    rw [List.length_replicate] at hlt
    rw [List.getElem_replicate] at e
    cases e
    cases h with
    | blocked _ _ _ h1 h2 =>
      refine ⟨_, _, rfl, Or.inr ⟨bs, vs, rfl, rfl, h1, fun hb => ⟨h2 hb, ?_⟩⟩⟩
      have := h2 hb
      omega
  | .plain core', h, c, core, v, hc => by
    rw [components] at hc
    obtain ⟨hlt, e⟩ := List.getElem?_eq_some_iff.1 hc
    rw [List.length_map, List.length_range] at hlt
    rw [List.getElem_map, List.getElem_range] at e
    cases e
    exact ⟨_, _, rfl, Or.inl ⟨rfl, rfl, hlt⟩⟩

theorem resolveSubs_spec (values : P → Nat) : ∀ (es : List (Elem P)), (∀ s ∈ es, Sound values s) → ∀ (acc c : Nat), acc ≤ c →
    ∀ (core : P) (v : Nat), (componentsAll values es)[c - acc]? = some (core, v) →
    ∃ el lc, resolveSubs values es acc c = some (el, lc) ∧ Leaf values el lc core v
  | [], _, _, _, _, _, _, hc => by simp [componentsAll] at hc
  | s :: ss, h, acc, c, hac, core, v, hc => by
    rw [componentsAll] at hc
    rw [resolveSubs]
    have hl := components_length values s
    split
    · next hlt =>
      rw [List.getElem?_append_left (by omega)] at hc
      exact resolve_spec values s (h s (List.mem_cons_self ..)) (c - acc) core v hc
    · next hlt =>
      rw [List.getElem?_append_right (by omega), hl] at hc
      refine resolveSubs_spec values ss (fun x hx => h x (List.mem_cons_of_mem _ hx)) (acc + s.size values) c (by omega) core v ?_
      rw [show c - (acc + s.size values) = c - acc - s.size values by omega]
      exact hc
end

mutual
theorem resolve_none (values : P → Nat) : ∀ (subs : List (Elem P)) (c : Nat), Elem.size values (.mixed subs) ≤ c →
    resolve values (.mixed subs) c = none
  | subs, c, h => by
    rw [resolve]
    rw [Elem.size] at h
    exact resolveSubs_none values subs 0 c (by omega)

theorem resolveSubs_none (values : P → Nat) : ∀ (es : List (Elem P)) (acc c : Nat), acc + Elem.sizes values es ≤ c →
    resolveSubs values es acc c = none
  | [], _, _, _ => by rw [resolveSubs]
  | s :: ss, acc, c, h => by
    rw [Elem.sizes] at h
    rw [resolveSubs, if_neg (by omega)]
    exact resolveSubs_none values ss _ c (by omega)
end

theorem info_spec (B : Basix P K) {t : Table P} (hs : Sound B.values t.elem) {core : P} {v : Nat}
    (hc : (components B.values t.elem)[t.component]? = some (core, v)) (hf : t.funcs = B.dofs core) (hd : t.elemDim = B.dim core)
    (hl : t.derivs.length = t.elemDim) : info B.values t = some (infoOf B t core v) := by
  obtain ⟨el, lc, h1, h2⟩ := resolve_spec B.values t.elem hs _ _ _ hc
  have hds : (t.derivs ++ List.replicate t.elemDim 0).take t.elemDim = t.derivs := by rw [← hl, List.take_left]
  rw [info, h1]
  simp only [hds]
  rcases h2 with ⟨rfl, rfl, _⟩ | ⟨bs, vs, rfl, rfl, h3, h4⟩
  · simp only [infoOf, hf, hd]
  · simp only [infoOf, hf, hd, h3]
    by_cases hb : bs > 1
    · simp only [if_pos hb]
    · obtain ⟨e1, e2⟩ := h4 (by omega)
      simp only [if_neg hb, e1, e2]

theorem WellFormed.fits {B : Basix P K} {t : Table P} (h : WellFormed B t) {core : P} {v : Nat}
    (hc : (components B.values t.elem)[t.component]? = some (core, v)) :
    info B.values t = some (infoOf B t core v) ∧ Fits B t core v := by
  obtain ⟨core', v', h1, h2, h3, h4, h5⟩ := h.comp
  rw [hc] at h1
  cases h1
  have l1 := h.low
  have l2 := h.high
  have l3 := h.derivs
  refine ⟨info_spec B h.sound hc h3 h4 h.derivs, ⟨h3, h4, ?_, ?_, ?_, h2, h5⟩⟩ <;> omega

variable [DecidableEq P]

theorem exec_regs {B : Basix P K} {n : Nat} {pts : Pts → List (List K)} {st st' : State P K} {s : Stmt P} (h : Regs st)
    (he : exec B n pts st s = some st') : Regs st' := by
  cases s with
  | getScratch total =>
    simp only [exec, Option.some.injEq] at he
    subst he
    unfold getScratch
    split <;> exact h
  | tabulate params maxnd p gdim dst capacity =>
    simp only [exec] at he
    unfold register at he
    have tab : ∀ (st1 : State P K) (hd : Nat), Regs st1 → tabulate B st1 hd maxnd (pts p) gdim dst capacity = some st' → Regs st' := by
      intro st1 hd h1 he
      unfold tabulate at he
      split at he
      · exact absurd he (by simp)
      · simp only at he
        split at he
        · exact absurd he (by simp)
        split at he
        · exact absurd he (by simp)
        split at he
        · exact absurd he (by simp)
        cases he
        exact h1
    cases hf : st.keys.find? fun k => decide (k.1 = params) with
    | some k =>
      simp only [hf] at he
      exact tab _ _ h he
    | none =>
      simp only [hf] at he
      by_cases hv : B.valid params = true
      · simp only [hv, if_true] at he
        obtain ⟨_, _, a1, _, a3, _⟩ := register_ok h hv
        simp only [register, hf, hv, if_true, Prod.mk.injEq] at a1
        rw [← a1.2] at a3
        exact tab _ _ a3 he
      · simp only [hv] at he
        exact absurd he (by simp)
  | repack dst src funcs didx stride vs vaxis =>
    simp only [exec] at he
    split at he
    · exact absurd he (by simp)
    · cases he
      exact h
  | point table side offset =>
    simp only [exec, Option.some.injEq] at he
    subst he
    exact h

theorem register_regs {valid : P → Bool} {st : State P K} (h : Regs st) (key : P) : Regs (register valid st key).2 := by
  by_cases hv : valid key = true
  · obtain ⟨_, _, a1, _, a3, _⟩ := register_ok h hv
    rw [a1]
    exact a3
  · unfold register
    split
    · exact h
    · rw [if_neg hv]
      exact h

theorem Reachable.regs {B : Basix P K} {st : State P K} (h : Reachable B st) : Regs st := by
  induction h with
  | start => intro k hk; simp at hk
  | register key _ ih => exact register_regs ih key
  | reset _ _ => intro k hk; exact absurd hk List.not_mem_nil
  | exec n pts s _ he ih => exact exec_regs ih he

theorem mem_tablesOf_info {B : Basix P K} {gs : List (Group P)} {ms : List (Meta P)} (e : (ms.flatMap fun m => m.items) = tablesOf gs)
    {t : Table P} {l : List (Table P)} (hp : ((tablesOf gs).map fun i => i.1).Perm l) (ht : t ∈ l)
    (hi : ∀ i ∈ tablesOf gs, info B.values i.1 = some i.2) : ∃ m ∈ ms, ∃ i ∈ m.items, i.1 = t ∧ info B.values t = some i.2 := by
  obtain ⟨i, h1, h2⟩ := List.mem_map.1 (hp.mem_iff.2 ht)
  have h3 := hi i h1
  rw [← e, List.mem_flatMap] at h1
  obtain ⟨m, hm, him⟩ := h1
  exact ⟨m, hm, i, him, h2, by rw [← h2]; exact h3⟩

theorem getScratch_spec (st : State P K) (n : Nat) :
    (Regs st → Regs (getScratch st n)) ∧ (getScratch st n).base = (getScratch st n).epoch ∧ n ≤ (getScratch st n).size := by
  unfold getScratch
  split
  · exact ⟨fun h => h, rfl, le_rfl⟩
  · exact ⟨fun h => h, rfl, by simp only; omega⟩

theorem quad_ok {B : Basix P K} {interior mixedDim : Bool} {tdim : Nat} {q : Quad P K} (hq : QuadOK B interior mixedDim tdim q)
    {st : State P K} (hst : Regs st) :
    ∃ code st', emit B.values interior mixedDim tdim q = some code ∧ execAll B q.n q.pts st code = some st' ∧ Regs st' ∧
      ∀ t ∈ q.tables, t.const = false → ∀ core v, (components B.values t.elem)[t.component]? = some (core, v) →
        ∃ o, Good B q.n (sidePts mixedDim tdim q.pts t.elemDim) (interior && decide (t.perms > 1)) st' o t core v := by
  obtain ⟨gs, a1, a2, a3, a4⟩ := groups_spec (B := B) q.tables (by
    intro t ht hc
    obtain ⟨core, v, e, _⟩ := (hq.tables t ht hc).comp
    exact ⟨core, v, (hq.tables t ht hc).fits e⟩)
  obtain ⟨ms, b1, b2, b3⟩ := metas_ok interior q.n gs a2
  have hcode : emit B.values interior mixedDim tdim q = some ((if (ms.flatMap (scratchTerms interior q.n)).isEmpty then []
      else [Stmt.getScratch (ms.flatMap (scratchTerms interior q.n)).sum]) ++ (emitGroups interior mixedDim tdim q.n 0 ms).1) := by
    simp only [emit, a1, b1, Option.bind_eq_bind, Option.bind_some, Option.pure_def]
  have hmem : ∀ i ∈ tablesOf gs, i.1 ∈ q.tables ∧ i.1.const = false := by
    intro i hi
    have := a3.mem_iff.1 (List.mem_map_of_mem hi)
    rw [List.mem_filter] at this
    exact ⟨this.1, by simpa using this.2⟩
  have hmi : ∀ m ∈ ms, ∀ i ∈ m.items, i ∈ tablesOf gs := by
    intro m hm i hi
    rw [← b3, List.mem_flatMap]
    exact ⟨m, hm, hi⟩
  cases hms : ms with
  | nil =>
    subst hms
    refine ⟨_, st, hcode, rfl, hst, ?_⟩
    intro t ht hc core v hv
    obtain ⟨m, hm, _⟩ := mem_tablesOf_info b3 a3 (List.mem_filter.2 ⟨ht, by simp [hc]⟩) a4
    simp at hm
  | cons m0 ms0 =>
    have hne : (ms.flatMap (scratchTerms interior q.n)).isEmpty = false := by
      rw [hms, List.flatMap_cons, scratchTerms]
      simp
    rw [hne] at hcode
    obtain ⟨g1, g2, g3⟩ := getScratch_spec st (ms.flatMap (scratchTerms interior q.n)).sum
    have hdims : ∀ m ∈ ms, (∀ x ∈ sidePts mixedDim tdim q.pts m.gdim 0, x.length = B.dim m.params) ∧
        (m.anyPerm = true → ∀ x ∈ q.pts .side1, x.length = B.dim m.params) := by
      intro m hm
      have key : ∀ i ∈ m.items, i.1.elemDim = B.dim m.params := fun i hi => ((b2 m hm).items i hi).2.1.dim
      constructor
      · have : m.items ≠ [] := by
          intro h0
          have hg := metas_nonempty a2 b1 m hm
          exact hg h0
        obtain ⟨i, hi⟩ := List.exists_mem_of_ne_nil _ this
        obtain ⟨h1, h2⟩ := hmem i (hmi m hm i hi)
        have := hq.dims i.1 h1 h2 0 (Or.inl rfl)
        rw [key i hi] at this
        rw [(b2 m hm).gdim]
        exact this
      · intro hp
        rw [(b2 m hm).anyPerm, Bool.and_eq_true, List.any_eq_true] at hp
        obtain ⟨hint, i, hi, hpi⟩ := hp
        obtain ⟨h1, h2⟩ := hmem i (hmi m hm i hi)
        have := hq.dims i.1 h1 h2 1 (Or.inr ⟨rfl, hint, by simpa using hpi⟩)
        rw [key i hi] at this
        exact this
    have hnm : (ms.flatMap fun m => names m.items) = (tablesOf gs).map fun i => i.1.name := by
      rw [← b3, List.map_flatMap]
      rfl
    have hnd : (ms.flatMap fun m => names m.items).Nodup := by
      rw [hnm]
      have := (a3.map fun t => t.name).nodup_iff.2 ((List.filter_sublist.map _).nodup hq.names)
      rw [List.map_map] at this
      exact this
    obtain ⟨st', c1, c2, c3⟩ := groups_ok (B := B) (tdim := tdim) (pts := q.pts) ⟨hq.cell, hq.side1, hq.facet⟩ ms b2 hnd hdims
      (offset := 0) (st := getScratch st (ms.flatMap (scratchTerms interior q.n)).sum) (g1 hst) g2
      (by rw [emitGroups_size mixedDim tdim 0 ms b2, Nat.zero_add]; exact g3)
    refine ⟨_, st', hcode, ?_, c2.regs, ?_⟩
    · rw [if_neg (by simp), List.cons_append, List.nil_append, execAll_cons (show exec B q.n q.pts st _ = some _ from rfl), c1]
    · intro t ht hc core v hv
      obtain ⟨m, hm, i, hi, e1, e2⟩ := mem_tablesOf_info b3 a3 (List.mem_filter.2 ⟨ht, by simp [hc]⟩) a4
      obtain ⟨f1, f2⟩ := (hq.tables t ht hc).fits hv
      rw [f1] at e2
      have e3 : i.2 = infoOf B t core v := (Option.some.inj e2).symm
      obtain ⟨h1, h2, _⟩ := (b2 m hm).items i hi
      have hv' : i.2.vaxis = v := by rw [e3]; rfl
      have hp' : m.params = core := by
        have : i.2.params = m.params := by rw [h1]; rfl
        rw [← this, e3]; rfl
      have := c3 m hm i hi
      rw [e1, hp', hv', (b2 m hm).gdim, hp', ← f2.dim] at this
      exact ⟨_, this⟩

theorem prologue_append {B : Basix P K} {interior mixedDim : Bool} {tdim : Nat} {st st' : State P K} {qs qs' : List (Quad P K)}
    (h : prologue B interior mixedDim tdim st qs = some st') :
    prologue B interior mixedDim tdim st (qs ++ qs') = prologue B interior mixedDim tdim st' qs' := by
  induction qs generalizing st with
  | nil => cases h; rfl
  | cons q qs ih =>
    simp only [prologue, List.cons_append, Option.bind_eq_bind] at h ⊢
    cases he : emit B.values interior mixedDim tdim q with
    | none => rw [he] at h; simp at h
    | some code =>
      rw [he] at h
      simp only [Option.bind_some] at h ⊢
      cases hx : execAll B q.n q.pts st code with
      | none => rw [hx] at h; simp at h
      | some st1 =>
        rw [hx] at h
        simp only [Option.bind_some] at h ⊢
        exact ih h

theorem prologue_ok {B : Basix P K} {interior mixedDim : Bool} {tdim : Nat} (qs : List (Quad P K))
    (hqs : ∀ q ∈ qs, QuadOK B interior mixedDim tdim q) {st : State P K} (hst : Regs st) :
    ∃ st', prologue B interior mixedDim tdim st qs = some st' ∧ Regs st' := by
  induction qs generalizing st with
  | nil => exact ⟨st, rfl, hst⟩
  | cons q qs ih =>
    obtain ⟨code, st1, h1, h2, h3, _⟩ := quad_ok (hqs q (List.mem_cons_self ..)) hst
    obtain ⟨st2, h4, h5⟩ := ih (fun x hx => hqs x (List.mem_cons_of_mem _ hx)) h3
    exact ⟨st2, by simp only [prologue, h1, h2, Option.bind_eq_bind, Option.bind_some, h4], h5⟩

theorem prologue_const {B : Basix P K} {interior mixedDim : Bool} {tdim : Nat} (qs : List (Quad P K))
    (h : ∀ q ∈ qs, ∀ t ∈ q.tables, t.const = true) (st : State P K) : prologue B interior mixedDim tdim st qs = some st := by
  induction qs with
  | nil => rfl
  | cons q qs ih =>
    have e : groups B.values q.tables = some [] := by
      have : (q.tables.filter fun t => !t.const) = [] := by
        rw [List.filter_eq_nil_iff]
        intro t ht
        simp [h q (List.mem_cons_self ..) t ht]
      rw [groups, this]
      rfl
    have : emit B.values interior mixedDim tdim q = some [] := by
      simp only [emit, e, Option.bind_eq_bind, Option.bind_some, List.mapM_nil, Option.pure_def]
      rfl
    simp only [prologue, this, Option.bind_eq_bind, Option.bind_some, execAll]
    exact ih fun x hx => h x (List.mem_cons_of_mem _ hx)

/-! ### Theorems -/

/-- C71: for every component of every element — mixed ones of any depth, blocked ones, vector valued ones — the generated code evaluates
the element of Basix that has that component, and takes the component of it. A component out of the range of a mixed element is an
error. -/
theorem C71_component {P : Type} (values : P → Nat) (t : Table P) (hs : Sound values t.elem) :
    (∀ core v, (components values t.elem)[t.component]? = some (core, v) →
      ∃ i, info values t = some i ∧ i.params = core ∧ i.vaxis = v ∧ i.vs = values core ∧ i.ndofs = t.funcs) ∧
    ((∃ subs, t.elem = .mixed subs) → (components values t.elem)[t.component]? = none → info values t = none) := by
  constructor
  · intro core v hc
    obtain ⟨el, lc, h1, h2⟩ := resolve_spec values t.elem hs _ _ _ hc
    rw [info, h1]
    rcases h2 with ⟨rfl, rfl, _⟩ | ⟨bs, vs, rfl, rfl, h3, h4⟩
    · exact ⟨_, rfl, rfl, rfl, rfl, rfl⟩
    · refine ⟨_, rfl, rfl, ?_, ?_, rfl⟩
      · show (if bs > 1 then 0 else lc) = 0
        split
        · rfl
        · exact (h4 (by omega)).2
      · show (if bs > 1 then 1 else vs) = values core
        split
        · exact h3.symm
        · rw [(h4 (by omega)).1, h3]
  · rintro ⟨subs, hm⟩ hc
    rw [List.getElem?_eq_none_iff, components_length, hm] at hc
    rw [info, hm, resolve_none values subs _ hc]

/-- C71: for derivatives of every order in dimensions 1, 2 and 3, the index of the derivatives identifies them, and it is within the
derivatives of order up to the one that is computed. -/
theorem C71_derivatives {ds es : List Nat} (h1 : 1 ≤ ds.length) (h3 : ds.length ≤ 3) :
    (ds.length = es.length → index ds = index es → ds = es) ∧
    ∀ m, ds.sum ≤ m → index ds < Nat.choose (m + ds.length) ds.length :=
  ⟨fun hl h => index_inj h1 h3 hl h, fun _ hm => index_lt h1 h3 hm⟩

/-- C71: from every state of the thread, and for every integral — any number of quadratures and tables, any elements, derivatives and
points — if the last quadrature with tables that depend on the point is `q`, then the code before the loops succeeds, without writing out
of bounds, and all the tables of `q` have, in each side, for each point and function, the derivative of the component of the function at
the point. Partial: the tables of the other quadratures are not guaranteed (`C71_two_quadratures_fail`). -/
theorem C71_tables_partial (B : Basix P K) (interior mixedDim : Bool) (tdim : Nat) {st : State P K} (hst : Reachable B st)
    (before after : List (Quad P K)) (q : Quad P K) (hbefore : ∀ x ∈ before, QuadOK B interior mixedDim tdim x)
    (hq : QuadOK B interior mixedDim tdim q) (hafter : ∀ x ∈ after, ∀ t ∈ x.tables, t.const = true) :
    ∃ st', prologue B interior mixedDim tdim st (before ++ q :: after) = some st' ∧
      ∀ t ∈ q.tables, t.const = false → ∀ core v, (components B.values t.elem)[t.component]? = some (core, v) →
        ∀ side, HasSide interior t side → ∀ iq < q.n, ∀ dof < B.dofs core,
          read st' t.name side (t.funcs * iq + dof) =
            some (B.eval core ((pointsOf mixedDim tdim q t.elemDim side).getD iq []) t.derivs dof v) := by
  obtain ⟨st1, h1, h2⟩ := prologue_ok before hbefore hst.regs
  obtain ⟨code, st2, h3, h4, h5, h6⟩ := quad_ok hq h2
  refine ⟨st2, ?_, ?_⟩
  · rw [prologue_append h1]
    simp only [prologue, h3, h4, Option.bind_eq_bind, Option.bind_some]
    exact prologue_const after hafter st2
  · intro t ht hc core v hv side hside iq hiq dof hdof
    obtain ⟨o, hg⟩ := h6 t ht hc core v hv
    have hfun := ((hq.tables t ht hc).fits hv).2.funcs
    have hs : side < (if (interior && decide (t.perms > 1)) = true then 2 else 1) := by
      rcases hside with rfl | ⟨rfl, hi, hp⟩
      · split <;> omega
      · rw [if_pos (by simp [hi, hp])]
        omega
    obtain ⟨off, g1, _, g3⟩ := hg side hs
    have := g3 iq hiq dof (by rw [hfun]; exact hdof)
    rw [read, g1]
    simp only [if_true]
    rw [Nat.mul_comm t.funcs iq, this]
    rfl

/-- C71: in every history of registrations and resets, the handle obtained for the parameters of an element refers to the element with
these parameters, and registering again gives the same handle and changes nothing. Parameters that Basix rejects leave the state
unchanged. -/
theorem C71_registry (B : Basix P K) {st : State P K} (hst : Reachable B st) (key : P) :
    (B.valid key = true → ∃ h, (register B.valid st key).1 = some h ∧ (register B.valid st key).2.registry[h]? = some key ∧
      register B.valid (register B.valid st key).2 key = (some h, (register B.valid st key).2)) ∧
    (B.valid key = false → (∀ k ∈ st.keys, k.1 ≠ key) → register B.valid st key = (none, st)) := by
  constructor
  · intro hv
    obtain ⟨h, st', a1, a2, _⟩ := register_ok hst.regs hv
    refine ⟨h, by rw [a1], by rw [a1]; exact a2, ?_⟩
    rw [a1]
    simp only
    unfold register at a1
    cases hf : st.keys.find? fun k => decide (k.1 = key) with
    | some k =>
      simp only [hf, Prod.mk.injEq, Option.some.injEq] at a1
      rw [← a1.2, register, hf, ← a1.1]
    | none =>
      simp only [hf, hv, if_true, Prod.mk.injEq, Option.some.injEq] at a1
      rw [← a1.2, register]
      simp [a1.1]
  · intro hv hk
    have : st.keys.find? (fun k => decide (k.1 = key)) = none := by
      rw [List.find?_eq_none]
      intro k hk'
      simpa using hk k hk'
    rw [register, this]
    simp [hv]

/-- C71: other registrations do not change the elements of the handles obtained before. -/
theorem C71_handles_stable (B : Basix P K) (st : State P K) (key : P) (h : Nat) {core : P} (hc : st.registry[h]? = some core) :
    (register B.valid st key).2.registry[h]? = some core := by
  unfold register
  split
  · exact hc
  · split
    · show (st.registry ++ [key])[h]? = some core
      rw [List.getElem?_append_left]
      · exact hc
      · exact (List.getElem?_eq_some_iff.1 hc).1
    · exact hc

theorem times_value (f : Nat) (p : List Atom) (ps : Text) : Text.value (times f (p :: ps)) = f * (p.map Atom.value).prod + Text.value ps := by
  simp [times, Text.value, Atom.value]

theorem isZero_value {t : Text} (h : isZero t = true) : t = [[.lit 0]] := by
  unfold isZero at h
  split at h
  · rfl
  · simp at h

/-- What the index of an access means: the first term of the index of the point is multiplied by the number of functions, the others are
not. -/
theorem access_value (funcs : Nat) (p : List Atom) (ps dof : Text) (h : ¬ (isZero (p :: ps) = true ∧ isZero dof = true)) :
    ∃ t, access funcs (p :: ps) dof = some t ∧ Text.value t = funcs * (p.map Atom.value).prod + Text.value ps + Text.value dof := by
  have vap : ∀ a b : Text, Text.value (a ++ b) = Text.value a + Text.value b := by
    intro a b
    simp [Text.value]
  unfold access
  by_cases h1 : isZero (p :: ps) = true
  · have h2 : ¬ isZero dof = true := fun h2 => h ⟨h1, h2⟩
    have e := isZero_value h1
    simp only [List.cons.injEq] at e
    obtain ⟨rfl, rfl⟩ := e
    refine ⟨_, by simp [h1, h2]; rfl, ?_⟩
    simp [Atom.value, Text.value]
  · by_cases h2 : isZero dof = true
    · have e := isZero_value h2
      refine ⟨_, by simp [h1, h2]; rfl, ?_⟩
      simp only [times_value, e]
      simp [Text.value, Atom.value]
    · refine ⟨_, by simp [h1, h2]; rfl, ?_⟩
      rw [vap, times_value]

/-- C71: the access to an entry of a table is rewritten to the index, in the new array, of the function at the point, whatever the
index of the function; if the index of the point is one product (a variable, a literal, ...) and the two indices are not both literal
zeros. -/
theorem C71_access_partial (funcs : Nat) (p : List Atom) (dof : Text) (h : ¬ (isZero [p] = true ∧ isZero dof = true)) :
    ∃ t, access funcs [p] dof = some t ∧ t.value = funcs * Text.value [p] + dof.value := by
  obtain ⟨t, h1, h2⟩ := access_value funcs p [] dof h
  exact ⟨t, h1, by rw [h2]; simp [Text.value]⟩

/-- C71: with a sum as the index of the point, the index is wrong as soon as there is more than one function and the second term is not
zero; and if both indices are literal zeros the code is not valid C. -/
theorem C71_access_fails :
    (∀ (funcs a b : Nat) (dof : Text), 1 < funcs → b ≠ 0 → ∃ t, access funcs [[.val a], [.val b]] dof = some t ∧
      t.value ≠ funcs * Text.value [[.val a], [.val b]] + dof.value) ∧
    ∀ funcs, access funcs [[.lit 0]] [[.lit 0]] = none := by
  constructor
  · intro funcs a b dof hf hb
    obtain ⟨t, h1, h2⟩ := access_value funcs [.val a] [[.val b]] dof (by simp [isZero])
    refine ⟨t, h1, ?_⟩
    rw [h2]
    have e1 : Text.value [[Atom.val a], [Atom.val b]] = a + b := by simp [Text.value, Atom.value]
    have e2 : Text.value [[Atom.val b]] = b := by simp [Text.value, Atom.value]
    have e3 : ([Atom.val a].map Atom.value).prod = a := by simp [Atom.value]
    rw [e1, e2, e3, Nat.mul_add]
    have : 1 * b < funcs * b := by gcongr
    omega
  · intro funcs
    rfl

end

/-! ### Examples -/

/-- An element of Basix in dimension 1 with two functions, `x` and `x ^ 2`, without derivatives. -/
def exampleBasix : Basix Nat Nat where
  dim := fun _ => 1
  dofs := fun _ => 2
  values := fun _ => 1
  valid := fun _ => true
  eval := fun _ x _ dof _ => (x.getD 0 0) ^ (dof + 1)

/-- The table of that element with a given name. -/
def exampleTable (name : Nat) : Table Nat :=
  { name := name, elem := .plain 0, elemDim := 1, component := 0, derivs := [0], funcs := 2, perms := 1, const := false }

/-- A quadrature with that table and the given points. -/
def exampleQuad (name : Nat) (pts : List Nat) : Quad Nat Nat :=
  { tables := [exampleTable name], n := pts.length, pts := fun _ => pts.map fun x => [x] }

/-- The state of a thread when it starts. -/
def exampleStart : State Nat Nat := { registry := [], keys := [], size := 0, epoch := 0, data := fun _ => 0, base := 0, ptr := fun _ _ => none }

theorem exampleQuad_ok (name : Nat) (pts : List Nat) : QuadOK exampleBasix false false 1 (exampleQuad name pts) where
  tables := by
    intro t ht _
    simp only [exampleQuad, List.mem_singleton] at ht
    subst ht
    exact ⟨.plain 0, ⟨0, 0, rfl, by decide, rfl, rfl, rfl⟩, le_rfl, show 1 ≤ 3 by decide, rfl⟩
  names := by simp [exampleQuad]
  cell := by simp [exampleQuad]
  side1 := by simp
  facet := by simp
  dims := by
    intro t ht _ side hside x hx
    simp only [exampleQuad, List.mem_singleton] at ht
    subst ht
    rcases hside with rfl | ⟨_, h, _⟩
    · simp only [pointsOf, exampleQuad, Nat.zero_ne_one, if_false, Bool.false_and, Bool.false_eq_true, List.mem_map] at hx
      obtain ⟨a, _, rfl⟩ := hx
      rfl
    · simp at h

/-- C71: if two quadratures of an integral have tables that depend on the point, the tables of the first one are lost: with the same
number of points they have the values at the points of the second quadrature, and with more points in the second one their memory was
released. Every quadrature is well formed. -/
theorem C71_two_quadratures_fail :
    (∀ pts, QuadOK exampleBasix false false 1 (exampleQuad 0 pts) ∧ QuadOK exampleBasix false false 1 (exampleQuad 1 pts)) ∧
    Reachable exampleBasix exampleStart ∧
    (∃ st, prologue exampleBasix false false 1 exampleStart [exampleQuad 0 [3], exampleQuad 1 [5]] = some st ∧
      read st 0 0 1 = some 25 ∧ exampleBasix.eval 0 [3] [0] 1 0 = 9) ∧
    ∃ st, prologue exampleBasix false false 1 exampleStart [exampleQuad 0 [3], exampleQuad 1 [5, 6]] = some st ∧ read st 0 0 1 = none :=
  ⟨fun pts => ⟨exampleQuad_ok 0 pts, exampleQuad_ok 1 pts⟩, .start _ _, ⟨_, rfl, rfl, rfl⟩, ⟨_, rfl, rfl⟩⟩

example : ∃ st, prologue exampleBasix false false 1 exampleStart [exampleQuad 0 [3, 4]] = some st ∧ read st 0 0 3 = some 16 := ⟨_, rfl, rfl⟩

example : components (fun p : Nat => p) (.mixed [.blocked 2 2 1, .mixed [.plain 3, .plain 1]]) = [(1, 0), (1, 0), (3, 0), (3, 1), (3, 2), (1, 0)] := rfl

example : (resolve (fun p : Nat => p) (.mixed [.blocked 2 2 1, .mixed [.plain 3, .plain 1]]) 3).map Prod.snd = some 1 := rfl

example : access 4 [[.val 2]] [[.val 3], [.lit 2, .val 5]] = some [[.lit 4, .val 2], [.val 3], [.lit 2, .val 5]] := rfl

end Qugar.Py.Tables
