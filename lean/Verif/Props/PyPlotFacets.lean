import Verif.Props.PyPlot
/-
Property theorem C82: which facets `unfitted_domain_facets_to_PyVista` draws.
-/
namespace Qugar.Py.Plot
open Spec Spec.Cell TS Quad Mesh
variable {K : Type}

/-- The positions of the facets of a list. -/
def Pos (mask : List Nat) (nf : Nat) (fs : Facets) (i : Nat) : Prop :=
  ∃ c k v, (c, k) ∈ fs ∧ mask[k]? = some v ∧ i = c * nf + v

theorem facetPositions_spec {mask : List Nat} {nf : Nat} {fs : Facets} {ids : List Nat} (h : facetPositions mask nf fs = some ids) (i : Nat) :
    i ∈ ids ↔ Pos mask nf fs i := by
  obtain ⟨h1, h2⟩ := mapM_spec h
  constructor
  · intro hi
    obtain ⟨j, hj⟩ := List.mem_iff_getElem?.1 hi
    have hjl : j < fs.length := by rw [← h1]; exact (List.getElem?_eq_some_iff.1 hj).1
    obtain ⟨b, e1, e2⟩ := h2 j fs[j] (List.getElem?_eq_getElem hjl)
    rw [hj] at e2
    obtain rfl := Option.some.inj e2
    obtain ⟨v, e3, e4⟩ := Option.map_eq_some_iff.1 e1
    exact ⟨fs[j].1, fs[j].2, v, List.getElem_mem hjl, e3, e4.symm⟩
  · rintro ⟨c, k, v, hm, hv, rfl⟩
    obtain ⟨j, hj⟩ := List.mem_iff_getElem?.1 hm
    obtain ⟨b, e1, e2⟩ := h2 j _ hj
    rw [hv] at e1
    rw [show c * nf + v = b from Option.some.inj e1]
    exact List.mem_of_getElem? e2

theorem markFacets_spec {mask : List Nat} {nf : Nat} : ∀ {L : List (Nat × Facets)} {st0 act0 st act : List Nat},
    markFacets mask nf L st0 act0 = some (st, act) → st.length = st0.length ∧
      (∀ i, i ∈ act ↔ i ∈ act0 ∨ ∃ x ∈ L, Pos mask nf x.2 i) ∧
      ∀ i s, st[i]? = some s → (∃ x ∈ L, x.1 = s ∧ Pos mask nf x.2 i) ∨ (st0[i]? = some s ∧ ∀ x ∈ L, ¬ Pos mask nf x.2 i)
  | [], st0, act0, st, act, h => by
    obtain ⟨rfl, rfl⟩ := Prod.mk.inj (Option.some.inj h)
    simp
  | (s0, fs) :: L, st0, act0, st, act, h => by
    obtain ⟨ids, h1, h2⟩ := Option.bind_eq_some_iff.1 h
    obtain ⟨st1, h3, h4⟩ := Option.bind_eq_some_iff.1 h2
    have hp := facetPositions_spec h1
    have hb : ∀ i ∈ ids, i < st0.length := by
      unfold setAll at h3
      split at h3
      · assumption
      · simp at h3
    obtain ⟨b, b1, b2, b3⟩ := setAll_spec s0 hb
    rw [h3] at b1
    obtain rfl := Option.some.inj b1
    obtain ⟨i1, i2, i3⟩ := markFacets_spec h4
    refine ⟨by rw [i1, b2], fun i => ?_, fun i s hi => ?_⟩
    · rw [i2, List.mem_append, hp i]
      simp only [List.mem_cons, exists_eq_or_imp]
      tauto
    · rcases i3 i s hi with ⟨x, hx, e1, e2⟩ | ⟨e1, e2⟩
      · exact .inl ⟨x, List.mem_cons_of_mem _ hx, e1, e2⟩
      · have hil : i < st0.length := by rw [← b2]; exact (List.getElem?_eq_some_iff.1 e1).1
        rw [b3 i hil] at e1
        by_cases hm : i ∈ ids
        · rw [if_pos hm] at e1
          exact .inl ⟨(s0, fs), List.mem_cons_self .., Option.some.inj e1, (hp i).1 hm⟩
        · rw [if_neg hm] at e1
          refine .inr ⟨e1, fun x hx => ?_⟩
          rcases List.mem_cons.1 hx with rfl | hx
          · exact fun h => hm ((hp i).2 h)
          · exact e2 x hx

/-- Where the code draws the facet that DOLFINx numbers `k` in its cell: the facet `shown dim k` in VTK's numbering; the numbers
that it writes with VTK's facet `v`. -/
def shown (dim k : Nat) : Option Nat := (if dim = 2 then [3, 1, 0, 2] else [2, 3, 0, 4, 1, 5])[k]?
def labels (dim v : Nat) : Option (Nat × Nat) :=
  (if dim = 2 then [(2, 0), (1, 2), (3, 3), (0, 1)] else [(2, 1), (4, 0), (0, 2), (1, 3), (3, 4), (5, 5)])[v]?

theorem getCells_caches {argsort : List Int → List Nat} {u : UDomain} {r : UDomain.Query → Facets} (st : Status) {s s' : UDomain.Caches}
    {x : List Int} (h : u.cells argsort st s = some (x, s')) (hk : UDomain.CachesOk r s) : UDomain.CachesOk r s' := by
  unfold UDomain.cells at h
  cases st <;> simp only at h
  · split at h
    · obtain ⟨rfl, rfl⟩ := Prod.mk.inj (Option.some.inj h); exact hk
    · obtain ⟨y, -, e⟩ := Option.map_eq_some_iff.1 h
      obtain ⟨rfl, rfl⟩ := Prod.mk.inj e; exact hk
  · split at h
    · obtain ⟨rfl, rfl⟩ := Prod.mk.inj (Option.some.inj h); exact hk
    · obtain ⟨y, -, e⟩ := Option.map_eq_some_iff.1 h
      obtain ⟨rfl, rfl⟩ := Prod.mk.inj e; exact hk
  · split at h
    · obtain ⟨rfl, rfl⟩ := Prod.mk.inj (Option.some.inj h); exact hk
    · obtain ⟨y, -, e⟩ := Option.map_eq_some_iff.1 h
      obtain ⟨rfl, rfl⟩ := Prod.mk.inj e; exact hk
  · cases h

theorem domainPy_caches {argsort : List Int → List Nat} {g : Grid K} {u : UDomain} {r : UDomain.Query → Facets} {s s' : UDomain.Caches} {a b c : Bool}
    {x : List ((GridCell K × Int) × Nat)} (h : domainPy argsort g u s a b c = some (x, s')) (hk : UDomain.CachesOk r s) : UDomain.CachesOk r s' := by
  unfold domainPy at h
  obtain ⟨_, -, h⟩ := Option.bind_eq_some_iff.1 h
  obtain ⟨⟨_, s1⟩, h1, h⟩ := Option.bind_eq_some_iff.1 h
  obtain ⟨_, -, h⟩ := Option.bind_eq_some_iff.1 h
  obtain ⟨⟨_, s2⟩, h2, h⟩ := Option.bind_eq_some_iff.1 h
  obtain ⟨_, -, h⟩ := Option.bind_eq_some_iff.1 h
  obtain ⟨_, -, h⟩ := Option.map_eq_some_iff.1 h
  obtain ⟨-, rfl⟩ := Prod.mk.inj h
  exact getCells_caches _ h2 (getCells_caches _ h1 hk)

/-- **C82** (facets, unfitted meshes; partial: which facets are drawn, but not where they are, see `C82_facets_fail`): exactly the facets
whose status is asked for are drawn, each once, in the order of their cells, each with its status; facet `k` of DOLFINx as VTK's facet
`shown dim k`. -/
theorem C82_facets_drawn_partial {argsort : List Int → List Nat} (hs : ∀ l, IsArgsort l (argsort l)) (g : Grid K) {u : UDomain}
    {nRows : Nat} (hu : u.Ok nRows) (hkn : ∀ c < u.topo.cellFacets.length, u.Known c) (history : List UDomain.Query) (hh : .empty false ∉ history)
    (s : UDomain.Caches) (hrun : u.askAll argsort history {} = some s) (cut full empty : Bool) (r : List FacetCell)
    (h : facetsPlot argsort g (.mesh u) s cut full empty = some r) :
    (u.dim = 2 ∨ u.dim = 3) ∧ (r.map fun e => e.cell * (2 * u.dim) + e.vtk).Pairwise (· < ·) ∧
      ∀ c v st lf df, (⟨c, v, st, lf, df⟩ : FacetCell) ∈ r ↔ labels u.dim v = some (lf, df) ∧ ∃ k, shown u.dim k = some v ∧
        (st = statusCode .full ∧ full = true ∧ u.Answer (.full true) c k ∨ st = statusCode .cut ∧ cut = true ∧ u.Answer (.cut true) c k ∨
          st = statusCode .empty ∧ empty = true ∧ u.Answer (.empty true) c k) := by
  obtain ⟨a, h1, h2⟩ := UDomain.ask_step hs hu
  have hA : ∀ q, q ≠ .empty false → ∀ c k, (c, k) ∈ a q ↔ u.Answer q c k := fun q hq => (h1 q (.inl hq)).2
  have hk0 : ∀ (hist : List UDomain.Query) (s s' : UDomain.Caches), .empty false ∉ hist → UDomain.CachesOk a s →
      u.askAll argsort hist s = some s' → UDomain.CachesOk a s' := by
    intro hist
    induction hist with
    | nil => intro s s' _ hk e; rw [← Option.some.inj (show some s = some s' from e)]; exact hk
    | cons q hist ih =>
      intro s s' hm hk e
      obtain ⟨s1, e1, e2⟩ := h2 q s (.inl fun h => hm (by rw [h]; exact List.mem_cons_self ..)) hk
      unfold UDomain.askAll at e
      rw [e1, Option.bind_some] at e
      exact ih s1 s' (fun h => hm (List.mem_cons_of_mem _ h)) e2 e
  have hk := hk0 history {} s hh (by refine ⟨?_, ?_, ?_, ?_, ?_, ?_⟩ <;> intro x hx <;> simp at hx) hrun
  unfold facetsPlot at h
  simp only at h
  obtain ⟨⟨cells, s0⟩, hd, h⟩ := Option.bind_eq_some_iff.1 h
  have hks := domainPy_caches hd hk
  by_cases hdim : 2 ≤ u.dim ∧ u.dim ≤ 3
  swap
  · rw [if_neg hdim] at h; cases h
  rw [if_pos hdim] at h
  have hdim' : u.dim = 2 ∨ u.dim = 3 := by omega
  refine ⟨hdim', ?_⟩
  obtain ⟨mask, hmask, h⟩ := Option.bind_eq_some_iff.1 h
  obtain ⟨back, hback, h⟩ := Option.bind_eq_some_iff.1 h
  obtain ⟨dlf, hdlf, h⟩ := Option.bind_eq_some_iff.1 h
  -- the lists
  have ask : ∀ (b : Bool) (q : UDomain.Query), q ≠ .empty false → ∀ (n : Nat) (pre : List (Nat × Facets)) (s : UDomain.Caches),
      UDomain.CachesOk a s → ∃ s', UDomain.CachesOk a s' ∧
        (if b then (u.ask argsort q s).map fun x => (pre ++ [(n, x.1)], x.2) else some (pre, s)) =
          some (pre ++ (if b then [(n, a q)] else []), s') := by
    intro b q hq n pre s hs
    cases b
    · exact ⟨s, hs, by simp⟩
    · obtain ⟨s', e1, e2⟩ := h2 q s (.inl hq) hs
      exact ⟨s', e2, by simp [e1]⟩
  obtain ⟨sa, ka, ea⟩ := ask full (.full true) (by simp) 0 [] s0 hks
  simp only [List.nil_append] at ea
  rw [ea, Option.bind_some] at h
  obtain ⟨sb, kb, eb⟩ := ask cut (.cut true) (by simp) 1 (if full then [(0, a (.full true))] else []) sa ka
  rw [eb, Option.bind_some] at h
  obtain ⟨sc, kc, ec⟩ := ask empty (.empty true) (by simp) 2 _ sb kb
  rw [ec, Option.bind_some] at h
  obtain ⟨⟨st, act⟩, hmark, h⟩ := Option.bind_eq_some_iff.1 h
  obtain ⟨-, m2, m3⟩ := markFacets_spec hmark
  obtain ⟨u1, u2⟩ := npUnique_spec act
  obtain ⟨q1, q2⟩ := mapM_spec h
  replace q1 : r.length = (npUnique act).length := q1
  -- tables
  have hmlt : ∀ (k : Nat) v, mask[k]? = some v → v < 2 * u.dim := by
    intro k v hv
    replace hv := List.mem_of_getElem? hv
    rcases hdim' with e | e <;> rw [e] at hmask ⊢ <;> rw [← Option.some.inj hmask] at hv <;> revert v <;> decide
  have hminj : ∀ (k k' : Nat) v, mask[k]? = some v → mask[k']? = some v → k = k' := by
    intro k k' v hv hv'
    obtain ⟨a1, a2⟩ := List.getElem?_eq_some_iff.1 hv
    obtain ⟨b1, b2⟩ := List.getElem?_eq_some_iff.1 hv'
    have hn : mask.Nodup := by
      rcases hdim' with e | e <;> rw [e] at hmask <;> rw [← Option.some.inj hmask] <;> decide
    exact (hn.getElem_inj_iff).1 (a2.trans b2.symm)
  have hshown : ∀ k, shown u.dim k = mask[k]? := by
    intro k
    unfold shown
    rcases hdim' with e | e <;> rw [e] at hmask ⊢ <;> rw [← Option.some.inj hmask] <;> rfl
  have hlab : ∀ v, v < 2 * u.dim → (back[v]?.bind fun lf => dlf[lf]?.map fun df => (lf, df)) = labels u.dim v ∧ (labels u.dim v).isSome := by
    intro v hv
    unfold labels
    rcases hdim' with e | e <;> rw [e] at hback hdlf hv ⊢ <;> rw [← Option.some.inj hback, ← Option.some.inj hdlf] <;> revert v <;> decide
  have hposc : ∀ fs i, Pos mask (2 * u.dim) fs i ↔ ∃ k, (i / (2 * u.dim), k) ∈ fs ∧ mask[k]? = some (i % (2 * u.dim)) := by
    intro fs i
    constructor
    · rintro ⟨c, k, v, e1, e2, rfl⟩
      have := hmlt k v e2
      refine ⟨k, ?_, ?_⟩
      · rw [Nat.mul_comm, Nat.mul_add_div (by omega), Nat.div_eq_of_lt this]; exact e1
      · rw [Nat.mul_comm, Nat.mul_add_mod, Nat.mod_eq_of_lt this]; exact e2
    · rintro ⟨k, e1, e2⟩
      exact ⟨_, k, _, e1, e2, by rw [Nat.mul_comm]; exact (Nat.div_add_mod _ _).symm⟩
  have hpart : ∀ c k, (¬ (u.Answer (.cut true) c k ∧ u.Answer (.full true) c k)) ∧ (¬ (u.Answer (.cut true) c k ∧ u.Answer (.empty true) c k)) ∧
      (¬ (u.Answer (.full true) c k ∧ u.Answer (.empty true) c k)) := by
    intro c k
    have hfo : ∀ b, u.Answer (.cut b) c k ∨ u.Answer (.full b) c k → ∃ f, u.topo.FacetOf c k f := by
      intro b hb
      cases b <;> rcases hb with ⟨f, hf, -⟩ | ⟨f, hf, -⟩ <;> exact ⟨f, hf⟩
    by_cases hf : ∃ f, u.topo.FacetOf c k f
    · obtain ⟨f, hf⟩ := hf
      obtain ⟨p1, p2, p3, -⟩ := UDomain.C66_exterior_partition hu hf (hkn c (by obtain ⟨row, e, -⟩ := hf; exact (List.getElem?_eq_some_iff.1 e).1))
      exact ⟨p1, p2, p3⟩
    · exact ⟨fun x => hf (hfo _ (.inl x.1)), fun x => hf (hfo _ (.inl x.1)), fun x => hf (hfo _ (.inr x.1))⟩
  -- what is in the grid
  have hent : ∀ (i : Nat) (x : FacetCell), (st[i]?.bind fun st => back[i % (2 * u.dim)]?.bind fun lf => dlf[lf]?.map fun df =>
      (⟨i / (2 * u.dim), i % (2 * u.dim), st, lf, df⟩ : FacetCell)) = some x ↔
      x.cell = i / (2 * u.dim) ∧ x.vtk = i % (2 * u.dim) ∧ st[i]? = some x.status ∧ labels u.dim x.vtk = some (x.lexFacet, x.dlfFacet) := by
    intro i x
    have hv : i % (2 * u.dim) < 2 * u.dim := Nat.mod_lt _ (by omega)
    obtain ⟨x1, x2, x3, x4, x5⟩ := x
    simp only
    constructor
    · intro e
      obtain ⟨t, e1, e⟩ := Option.bind_eq_some_iff.1 e
      obtain ⟨lf, e2, e⟩ := Option.bind_eq_some_iff.1 e
      obtain ⟨df, e3, e⟩ := Option.map_eq_some_iff.1 e
      injection e with f1 f2 f3 f4 f5
      subst f1 f2 f3 f4 f5
      exact ⟨rfl, rfl, e1, by rw [← (hlab _ hv).1, e2, Option.bind_some, e3]; rfl⟩
    · rintro ⟨rfl, rfl, e1, e2⟩
      rw [← (hlab _ hv).1] at e2
      obtain ⟨lf, e3, e4⟩ := Option.bind_eq_some_iff.1 e2
      obtain ⟨df, e5, e6⟩ := Option.map_eq_some_iff.1 e4
      obtain ⟨rfl, rfl⟩ := Prod.mk.inj e6
      rw [e1, Option.bind_some, e3, Option.bind_some, e5]; rfl
  have hr : ∀ x, x ∈ r ↔ ∃ i ∈ act, x.cell = i / (2 * u.dim) ∧ x.vtk = i % (2 * u.dim) ∧ st[i]? = some x.status ∧
      labels u.dim x.vtk = some (x.lexFacet, x.dlfFacet) := by
    intro x
    constructor
    · intro hx
      obtain ⟨j, hj⟩ := List.mem_iff_getElem?.1 hx
      have hjl : j < (npUnique act).length := by rw [← q1]; exact (List.getElem?_eq_some_iff.1 hj).1
      obtain ⟨y, e1, e2⟩ := q2 j _ (List.getElem?_eq_getElem hjl)
      rw [hj] at e2
      obtain rfl := Option.some.inj e2
      exact ⟨_, (u2 _).1 (List.getElem_mem hjl), (hent _ _).1 e1⟩
    · rintro ⟨i, hi, e⟩
      obtain ⟨j, hj⟩ := List.mem_iff_getElem?.1 ((u2 i).2 hi)
      obtain ⟨y, e1, e2⟩ := q2 j _ hj
      rw [(hent i x).2 e] at e1
      rw [Option.some.inj e1]
      exact List.mem_of_getElem? e2
  constructor
  · have : r.map (fun e => e.cell * (2 * u.dim) + e.vtk) = npUnique act := by
      apply List.ext_getElem? fun j => ?_
      rw [List.getElem?_map]
      by_cases hj : j < (npUnique act).length
      · obtain ⟨y, e1, e2⟩ := q2 j _ (List.getElem?_eq_getElem hj)
        obtain ⟨f1, f2, -⟩ := (hent _ y).1 e1
        rw [e2, List.getElem?_eq_getElem hj, Option.map_some, f1, f2, Nat.mul_comm, Nat.div_add_mod]
      · rw [List.getElem?_eq_none (by omega), List.getElem?_eq_none (by omega)]; rfl
    rw [this]; exact u1
  · intro c v t lf df
    rw [hr]
    simp only
    have hL : ∀ (x : Nat × Facets), x ∈ ((if full then [(0, a (.full true))] else []) ++ (if cut then [(1, a (.cut true))] else [])) ++
        (if empty then [(2, a (.empty true))] else []) ↔
        (full = true ∧ x = (0, a (.full true))) ∨ (cut = true ∧ x = (1, a (.cut true))) ∨ (empty = true ∧ x = (2, a (.empty true))) := by
      intro x
      cases full <;> cases cut <;> cases empty <;> simp
    constructor
    · rintro ⟨i, hi, rfl, rfl, e3, e4⟩
      refine ⟨e4, ?_⟩
      rcases m3 i t e3 with ⟨x, hx, rfl, hp⟩ | ⟨-, hno⟩
      · obtain ⟨k, k1, k2⟩ := (hposc _ _).1 hp
        refine ⟨k, by rw [hshown]; exact k2, ?_⟩
        rcases (hL x).1 hx with ⟨hb, rfl⟩ | ⟨hb, rfl⟩ | ⟨hb, rfl⟩
        · exact .inl ⟨rfl, hb, (hA _ (by simp) _ _).1 k1⟩
        · exact .inr (.inl ⟨rfl, hb, (hA _ (by simp) _ _).1 k1⟩)
        · exact .inr (.inr ⟨rfl, hb, (hA _ (by simp) _ _).1 k1⟩)
      · rcases (m2 i).1 hi with hi | ⟨x, hx, hp⟩
        · simp at hi
        · exact absurd hp (hno x hx)
    · rintro ⟨hl, k, hk, hst⟩
      rw [hshown] at hk
      have hv := hmlt k v hk
      have hdiv : (c * (2 * u.dim) + v) / (2 * u.dim) = c := by
        rw [Nat.mul_comm, Nat.mul_add_div (by omega), Nat.div_eq_of_lt hv]; rfl
      have hmod : (c * (2 * u.dim) + v) % (2 * u.dim) = v := by
        rw [Nat.mul_comm, Nat.mul_add_mod, Nat.mod_eq_of_lt hv]
      have hin : ∃ q, (c, k) ∈ a q ∧ (t, a q) ∈ ((if full then [(0, a (.full true))] else []) ++ (if cut then [(1, a (.cut true))] else [])) ++
          (if empty then [(2, a (.empty true))] else []) := by
        rcases hst with ⟨rfl, hb, hm⟩ | ⟨rfl, hb, hm⟩ | ⟨rfl, hb, hm⟩
        · exact ⟨_, (hA _ (by simp) _ _).2 hm, (hL _).2 (.inl ⟨hb, rfl⟩)⟩
        · exact ⟨_, (hA _ (by simp) _ _).2 hm, (hL _).2 (.inr (.inl ⟨hb, rfl⟩))⟩
        · exact ⟨_, (hA _ (by simp) _ _).2 hm, (hL _).2 (.inr (.inr ⟨hb, rfl⟩))⟩
      obtain ⟨q, hq1, hq2⟩ := hin
      have hact : c * (2 * u.dim) + v ∈ act := (m2 _).2 (.inr ⟨_, hq2, c, k, v, hq1, hk, rfl⟩)
      refine ⟨c * (2 * u.dim) + v, hact, hdiv.symm, hmod.symm, ?_, hl⟩
      obtain ⟨j, hj⟩ := List.mem_iff_getElem?.1 ((u2 _).2 hact)
      obtain ⟨y, e1, -⟩ := q2 j _ hj
      obtain ⟨-, -, e3, -⟩ := (hent _ y).1 e1
      rw [e3]
      refine congrArg some ?_
      rcases m3 _ _ e3 with ⟨x, hx, e, hp⟩ | ⟨-, hno⟩
      · obtain ⟨k', k1, k2⟩ := (hposc _ _).1 hp
        rw [hdiv] at k1
        rw [hmod] at k2
        obtain rfl := hminj _ _ _ k2 hk
        rw [← e]
        obtain ⟨p1, p2, p3⟩ := hpart c k'
        rcases (hL x).1 hx with ⟨hb, rfl⟩ | ⟨hb, rfl⟩ | ⟨hb, rfl⟩
        · have k1 := (hA _ (by simp) _ _).1 k1
          rcases hst with ⟨rfl, -, hm⟩ | ⟨rfl, -, hm⟩ | ⟨rfl, -, hm⟩
          · rfl
          · exact absurd ⟨hm, k1⟩ p1
          · exact absurd ⟨k1, hm⟩ p3
        · have k1 := (hA _ (by simp) _ _).1 k1
          rcases hst with ⟨rfl, -, hm⟩ | ⟨rfl, -, hm⟩ | ⟨rfl, -, hm⟩
          · exact absurd ⟨k1, hm⟩ p1
          · rfl
          · exact absurd ⟨k1, hm⟩ p2
        · have k1 := (hA _ (by simp) _ _).1 k1
          rcases hst with ⟨rfl, -, hm⟩ | ⟨rfl, -, hm⟩ | ⟨rfl, -, hm⟩
          · exact absurd ⟨hm, k1⟩ p3
          · exact absurd ⟨hm, k1⟩ p2
          · rfl
      · exact absurd ⟨c, k, v, hq1, hk, rfl⟩ (hno _ hq2)

/-- The hypotheses hold for the domain of `C82_facets_fail`, where three facets are drawn. -/
example {argsort : List Int → List Nat} (hs : ∀ l, IsArgsort l (argsort l)) : UDomain.halfDomain.Ok 2 ∧
    (∀ c < UDomain.halfDomain.topo.cellFacets.length, UDomain.halfDomain.Known c) ∧ UDomain.halfDomain.askAll argsort [] {} = some {} ∧
    ∃ r, facetsPlot argsort [[(0 : ℚ), 1, 2], [0, 1]] (.mesh UDomain.halfDomain) {} false false true = some r ∧ r.length = 3 := by
  refine ⟨UDomain.halfDomain_ok, ?_, rfl, _, (C82_facets_fail hs).2, rfl⟩
  have hno : ∀ v, ¬ HasStatus UDomain.halfDomain.dom.n UDomain.halfDomain.dom.tree v .unknown := by
    intro v hv
    have := C09_cells_by_status _ UDomain.halfDomain_ok.facts.shape _ UDomain.halfDomain_ok.facts.reach
    obtain ⟨ids, h1, -, h3, -⟩ := this.1 .unknown
    have e : (UDomain.halfDomain.dom.tree.getCellIds UDomain.halfDomain.dom.n .unknown) = some [] := by decide +kernel
    rw [e] at h1
    have := (h3 v).2 hv
    rw [← Option.some.inj h1] at this
    simp at this
  intro c hc
  have hc : c < 2 := hc
  refine ⟨c, ?_, hno c⟩
  have : c = 0 ∨ c = 1 := by omega
  rcases this with rfl | rfl <;> unfold PyMesh.OrigCell <;> decide

end Qugar.Py.Plot
