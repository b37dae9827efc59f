import Verif.Model.PyUnfitted
import Verif.Props.PyFacets
import Verif.Props.Domain
/-
Property theorems C66 (unfitted domains of the Python layer: python/qugar/mesh/unfitted_domain.py, unfitted_domain_abc.py).
-/
namespace Qugar.Py
open Spec Spec.Cell TS

/-! ### Specification -/

/-- The local facet `k` of the local cell `c` is the facet `f` of the process. -/
def Topology.FacetOf (t : Topology) (c k f : Nat) : Prop := ∃ row, t.cellFacets[c]? = some row ∧ row[k]? = some f

namespace UDomain

/-- Exterior facets: owned by the process, with a single cell, not shared with other processes. -/
def Ext (u : UDomain) (f : Nat) : Prop :=
  f < u.topo.owned ∧ (u.topo.facetCells.getD f []).length = 1 ∧ u.shared f = false

/-- Facets of each kind. -/
def KindOf (u : UDomain) : Kind → Nat → Prop
  | .exterior, f => u.Ext f
  | .interior, f => f < u.topo.owned ∧ ¬ u.Ext f
  | .all, f => f < u.topo.owned

/-- The C++ domain answers yes for the cell and the facet (in its numbering) that the local cell `c` and its facet `k` are. -/
def Says (u : UDomain) (p : Nat → Nat → Option Bool) (c k : Nat) : Prop :=
  ∃ v g, u.mesh.OrigCell c v ∧ g < 2 * u.dim ∧ SideFacet u.dim k g ∧ p v g = some true

/-- What the documentation says of each query (unfitted_domain.py:274-303, 366-394, 466-495). -/
def Answer (u : UDomain) : Query → Nat → Nat → Prop
  | .cut true, c, k => ∃ f, u.topo.FacetOf c k f ∧ ((u.Ext f ∧ u.Says u.dom.isCutFacet c k) ∨
      (f < u.topo.owned ∧ u.Says u.dom.hasUnfFacet c k ∧ ¬ u.Says u.dom.isFullUnfFacet c k))
  | .full true, c, k => ∃ f, u.topo.FacetOf c k f ∧ ((u.Ext f ∧ u.Says u.dom.isFullFacet c k) ∨
      (f < u.topo.owned ∧ u.Says u.dom.isFullUnfFacet c k))
  | .empty true, c, k => ∃ f, u.topo.FacetOf c k f ∧ u.Ext f ∧ u.Says u.dom.isEmptyFacet c k
  | .cut false, c, k => ∃ f, u.topo.FacetOf c k f ∧ f < u.topo.owned ∧ ¬ u.Ext f ∧ u.Says u.dom.isCutFacet c k
  | .full false, c, k => ∃ f, u.topo.FacetOf c k f ∧ f < u.topo.owned ∧ ¬ u.Ext f ∧ u.Says u.dom.isFullFacet c k
  | .empty false, c, k => ∃ f, u.topo.FacetOf c k f ∧ f < u.topo.owned ∧ ¬ u.Ext f ∧
      (u.Says u.dom.isEmptyFacet c k ∨ (u.Says u.dom.hasUnfFacet c k ∧ ¬ u.Says u.dom.isCutFacet c k))

/-- What is assumed: a mesh of the grid of the domain, numbered by DOLFINx (see `PyMesh.Ok`, `Topology.Ok`), in the first process
(see `C65_other_processes_fail`), and what building the C++ domain guarantees (`build_facts`). -/
structure Ok (u : UDomain) (nRows : Nat) : Prop where
  mesh : u.mesh.Ok nRows
  facts : DomFacts u.dom
  dim_pos : 1 ≤ u.dim
  dim_le : u.dim ≤ 3
  orig_lt : ∀ l v, u.mesh.OrigCell l v → v < listProd u.dom.n
  topo : u.topo.Ok
  owned : u.topo.owned ≤ u.topo.facetCells.length
  first : u.range = (0, u.topo.owned)
  rows : ∀ row ∈ u.topo.cellFacets, row.length = 2 * u.dim
  numCells : u.topo.cellFacets.length = u.mesh.cellIndex.length
  numLocal : u.numLocal ≤ u.mesh.cellIndex.length

/-! ### Facets of a status -/

theorem take_getD {α : Type} (d : α) {a : List α} {idx : List Nat} (h : ∀ i ∈ idx, i < a.length) :
    take a idx = some (idx.map fun i => a.getD i d) := by
  obtain ⟨r, h1, h2, h3⟩ := take_ok h
  rw [h1]
  refine congrArg some (List.ext_getElem? fun k => ?_)
  by_cases hk : k < idx.length
  · have hi := h idx[k] (List.getElem_mem hk)
    rw [h3 k _ (List.getElem?_eq_getElem hk), List.getElem?_eq_getElem hi]
    simp [hk, hi]
  · rw [List.getElem?_eq_none (by omega), List.getElem?_eq_none (by simp; omega)]

/-- The original numbering is a function of the facet. -/
theorem toOriginal_map (m : PyMesh) {nRows : Nat} (hm : m.Ok nRows) (dim : Nat) (h1 : 1 ≤ dim) (h3 : dim ≤ 3) :
    ∃ g : Nat × Nat → Nat × Nat, ∀ a : Facets, (∀ p ∈ a, p.1 < m.cellIndex.length ∧ p.2 < 2 * dim) →
      toOriginal m dim a = some (a.map g) := by
  obtain ⟨t, u, ht, hu, hlt, hlu, htu⟩ := tables_inverse h1 h3
  let orig : Nat → Nat := fun l => match m.active with
    | some act => act.getD (m.cellIndex.getD l 0) 0
    | none => m.cellIndex.getD l 0
  refine ⟨fun p => (orig p.1, t.getD p.2 0), fun a ha => ?_⟩
  have hc : m.origCells (a.map Prod.fst) = some ((a.map Prod.fst).map orig) := by
    unfold PyMesh.origCells
    have hl : ∀ l ∈ a.map Prod.fst, l < m.cellIndex.length := by
      intro l hl
      obtain ⟨p, hp, rfl⟩ := List.mem_map.1 hl
      exact (ha p hp).1
    rw [take_getD 0 hl]
    simp only [Option.bind_some]
    cases hact : m.active with
    | none => simp [orig, hact]
    | some act =>
      have : ∀ i ∈ (a.map Prod.fst).map (fun i => m.cellIndex.getD i 0), i < act.length := by
        intro i hi
        obtain ⟨l, hl', rfl⟩ := List.mem_map.1 hi
        have hlt := hl l hl'
        rw [(hm.active act hact).2]
        have : m.cellIndex.getD l 0 ∈ m.cellIndex := by
          rw [List.getD_eq_getElem?_getD, List.getElem?_eq_getElem hlt]
          exact List.getElem_mem hlt
        exact hm.cells_lt _ this
      show take act _ = _
      rw [take_getD 0 this]
      simp only [orig, hact, List.map_map, Function.comp_def]
  unfold toOriginal
  rw [hc, Option.bind_some, ht, Option.bind_some, take_getD 0 (by
    intro i hi
    obtain ⟨p, hp, rfl⟩ := List.mem_map.1 hi
    rw [hlt]; exact (ha p hp).2), Option.map_some]
  refine congrArg some ?_
  rw [List.map_map, List.map_map, List.zip_map']
  rfl

theorem sideFacet_inj {dim k g g' : Nat} (h1 : 1 ≤ dim) (h3 : dim ≤ 3) (hk : k < 2 * dim) (hg : g < 2 * dim) (hg' : g' < 2 * dim)
    (h : SideFacet dim k g) (h' : SideFacet dim k g') : g = g' := by
  have key : ∀ dim, dim < 4 → 1 ≤ dim → ∀ k, k < 2 * dim → ∀ g, g < 2 * dim → ∀ g', g' < 2 * dim →
      (((basix dim).facets dim)[k]?).all (fun p => decide (lexFacetCorners (basix dim) g = spanned (basix dim) dim p →
        lexFacetCorners (basix dim) g' = spanned (basix dim) dim p → g = g')) = true := by decide +kernel
  obtain ⟨p, a, b⟩ := h
  obtain ⟨p', a', b'⟩ := h'
  rw [a] at a'
  obtain rfl := Option.some.inj a'
  have := key dim (by omega) h1 k hk g hg g' hg'
  rw [a] at this
  simp only [Option.all_some, decide_eq_true_eq] at this
  exact this b b'

theorem OrigCell_inj {m : PyMesh} {l v v' : Nat} (h : m.OrigCell l v) (h' : m.OrigCell l v') : v = v' := by
  unfold PyMesh.OrigCell at h h'
  rw [h] at h'
  simpa using h'

theorem fromIds_single (t : Topology) (ht : t.Ok) (ids : List Nat) (hids : ∀ f ∈ ids, (t.facetCells.getD f []).length = 1) (a : Facets)
    (h : fromIds t ids true = some a) : fromIds t ids false = some a := by
  have e : ids.mapM (facetEntries t true) = ids.mapM (facetEntries t false) := by
    have : ∀ f ∈ ids, facetEntries t true f = facetEntries t false f := by
      intro f hf
      have := hids f hf
      unfold facetEntries
      cases hc : t.facetCells[f]? with
      | none => simp
      | some cells =>
        rw [List.getD_eq_getElem?_getD, hc, Option.getD_some] at this
        simp [List.take_of_length_le (Nat.le_of_eq this)]
    clear h hids
    induction ids with
    | nil => rfl
    | cons f ids ih =>
      rw [List.mapM_cons, List.mapM_cons, this f (List.mem_cons_self ..), ih fun f hf => this f (List.mem_cons_of_mem _ hf)]
  unfold fromIds at h ⊢
  rw [e] at h
  cases hl : ids.mapM (facetEntries t false) with
  | none => rw [hl] at h; simp at h
  | some l =>
    rw [hl] at h
    simp only [Option.bind_some, if_true] at h ⊢
    split at h
    · rename_i hle
      have : l.flatten.length ≤ (if false = true then ids.length else ids.length * 2) := by
        rw [if_neg (by simp)]; omega
      rw [if_pos this]; exact h
    · simp at h

/-- The facets of each kind. -/
theorem kindFacets_spec {u : UDomain} {nRows : Nat} (hu : u.Ok nRows) (kind : Kind) :
    ∃ a, u.kindFacets kind = some a ∧ a.Nodup ∧ ∀ c k, (c, k) ∈ a ↔ ∃ f, u.topo.FacetOf c k f ∧ u.KindOf kind f := by
  have hmem : ∀ (ids : List Nat) (_ : ∀ f ∈ ids, f < u.topo.facetCells.length) (_ : ids.Nodup) (P : Nat → Prop) (_ : ∀ f, f ∈ ids ↔ P f),
      ∃ a, fromIds u.topo ids false = some a ∧ a.Nodup ∧ ∀ c k, (c, k) ∈ a ↔ ∃ f, u.topo.FacetOf c k f ∧ P f := by
    intro ids h1 h2 P hP
    obtain ⟨a, -, e1, e2, -, -, -, e6⟩ := C65_from_ids u.topo hu.topo ids h1 h2 false
    refine ⟨a, e1, e2, fun c k => ?_⟩
    rw [e6 rfl c k]
    constructor
    · rintro ⟨row, f, a, b, c⟩; exact ⟨f, ⟨row, a, b⟩, (hP f).1 c⟩
    · rintro ⟨f, ⟨row, a, b⟩, c⟩; exact ⟨row, f, a, b, (hP f).2 c⟩
  have hext : ∀ f, f ∈ exteriorIds u.topo u.shared ↔ u.Ext f := by
    intro f; simp [exteriorIds, Ext]
  have hown := hu.owned
  cases kind with
  | exterior =>
    obtain ⟨a, -, e1, -⟩ := C65_from_ids u.topo hu.topo (exteriorIds u.topo u.shared)
      (fun f hf => by have := ((hext f).1 hf).1; omega) (List.nodup_range.filter _) true
    obtain ⟨a', f1, f2, f3⟩ := hmem (exteriorIds u.topo u.shared) (fun f hf => by have := ((hext f).1 hf).1; omega)
      (List.nodup_range.filter _) u.Ext hext
    have := fromIds_single u.topo hu.topo _ (fun f hf => ((hext f).1 hf).2.1) a e1
    rw [f1] at this
    obtain rfl := Option.some.inj this
    exact ⟨a', e1, f2, f3⟩
  | interior =>
    unfold kindFacets interiorFacets
    rw [hu.first]
    refine hmem _ ?_ (List.Nodup.filter _ List.nodup_range') _ ?_
    · intro f hf
      have := List.mem_range'_1.1 (List.mem_filter.1 hf).1
      omega
    · intro f
      rw [List.mem_filter, List.mem_range'_1]
      simp only [KindOf, Bool.not_eq_true', ← hext f]
      simp
  | all =>
    unfold kindFacets Py.allFacets
    rw [hu.first]
    refine hmem _ ?_ List.nodup_range' _ ?_
    · intro f hf
      have := List.mem_range'_1.1 hf
      omega
    · intro f
      rw [List.mem_range'_1]
      simp [KindOf]

/-- The five queries of the C++ domain that are used. -/
def preds (d : Dom) : List (Nat → Nat → Option Bool) :=
  [d.isFullFacet, d.isEmptyFacet, d.isCutFacet, d.isFullUnfFacet, d.hasUnfFacet]

/-- **C66** (`_get_facets`): exactly the facets of the given kind with the given status, each one once. -/
theorem C66_facets {argsort : List Int → List Nat} (hs : ∀ l, IsArgsort l (argsort l)) {u : UDomain} {nRows : Nat} (hu : u.Ok nRows)
    (kind : Kind) (p : Nat → Nat → Option Bool) (hp : p ∈ preds u.dom) :
    ∃ r, u.getFacets argsort p kind = some r ∧ r.Nodup ∧
      ∀ c k, (c, k) ∈ r ↔ ∃ f, u.topo.FacetOf c k f ∧ u.KindOf kind f ∧ u.Says p c k := by
  obtain ⟨a, a1, a2, a3⟩ := kindFacets_spec hu kind
  have ha : ∀ q ∈ a, q.1 < u.mesh.cellIndex.length ∧ q.2 < 2 * u.dim := by
    rintro ⟨c, k⟩ hq
    obtain ⟨f, ⟨row, h1, h2⟩, -⟩ := (a3 c k).1 hq
    have h1' := (List.getElem?_eq_some_iff.1 h1).1
    have h2' := (List.getElem?_eq_some_iff.1 h2).1
    rw [hu.rows row (List.mem_of_getElem? h1)] at h2'
    exact ⟨by rw [← hu.numCells]; exact h1', h2'⟩
  obtain ⟨g, hg⟩ := toOriginal_map u.mesh hu.mesh u.dim hu.dim_pos hu.dim_le
  have hgs : ∀ q ∈ a, u.mesh.OrigCell q.1 (g q).1 ∧ SideFacet u.dim q.2 (g q).2 ∧ (g q).2 < 2 * u.dim := by
    intro q hq
    obtain ⟨b, b1, -, b3, -⟩ := C65_original hs u.mesh hu.mesh u.dim hu.dim_pos hu.dim_le [q] (by simpa using ha q hq)
    have e := hg [q] (by simpa using ha q hq)
    rw [b1] at e
    obtain rfl := Option.some.inj e
    obtain ⟨h1, h2⟩ := b3 0 q (g q) rfl rfl
    refine ⟨h1, h2, ?_⟩
    obtain ⟨t, t', ht, -, hlt, -, htu⟩ := tables_inverse hu.dim_pos hu.dim_le
    obtain ⟨f, f1, f2, -⟩ := htu q.2 (ha q hq).2
    unfold toOriginal at b1
    cases hc : u.mesh.origCells ([q].map Prod.fst) with
    | none => rw [hc] at b1; simp at b1
    | some cs =>
      rw [hc, Option.bind_some, ht, Option.bind_some] at b1
      have : take t ([q].map Prod.snd) = some [f] := by simp [take, f1]
      rw [this, Option.map_some] at b1
      cases cs with
      | nil => simp at b1
      | cons x xs =>
        simp at b1
        rw [← b1]; exact f2
  let P : Nat × Nat → Bool := fun q => decide (p (g q).1 (g q).2 = some true)
  have hP : ∀ q ∈ a, P q = true ↔ u.Says p q.1 q.2 := by
    intro q hq
    obtain ⟨h1, h2, h3⟩ := hgs q hq
    simp only [P, decide_eq_true_eq]
    constructor
    · intro h; exact ⟨_, _, h1, h3, h2, h⟩
    · rintro ⟨v, w, k1, k2, k3, k4⟩
      rw [OrigCell_inj h1 k1, sideFacet_inj hu.dim_pos hu.dim_le (ha q hq).2 h3 k2 h2 k3]
      exact k4
  have hfilt : Dom.facetsTarget p (a.map g) = some ((a.filter P).map g) := by
    rw [hu.facts.facet_targets.1 (a.map g) (by
      intro x hx
      obtain ⟨q, hq, rfl⟩ := List.mem_map.1 hx
      obtain ⟨h1, h2, h3⟩ := hgs q hq
      exact ⟨hu.orig_lt _ _ h1, by unfold dim at h3; omega⟩) p (by
        simp only [preds, List.mem_cons, List.not_mem_nil, or_false] at hp ⊢
        tauto), List.filter_map]
    rfl
  have hback : toDolfinx argsort u.mesh u.dim ((a.filter P).map g) = some ((a.filter P).map fun q => (Int.ofNat q.1, q.2)) := by
    have hv : ∀ q ∈ a.filter P, q.1 < u.mesh.cellIndex.length ∧ q.2 < 2 * u.dim := fun q hq => ha q (List.mem_filter.1 hq).1
    obtain ⟨b, b1, -, -, b4⟩ := C65_original hs u.mesh hu.mesh u.dim hu.dim_pos hu.dim_le (a.filter P) hv
    rw [hg _ hv] at b1
    obtain rfl := Option.some.inj b1
    exact b4
  have hnat : ((a.filter P).map fun q => (Int.ofNat q.1, q.2)).mapM (fun q => if q.1 < 0 then none else some (q.1.toNat, q.2)) =
      some (a.filter P) := by
    generalize a.filter P = l
    induction l with
    | nil => rfl
    | cons q l ih =>
      rw [List.map_cons, List.mapM_cons, ih]
      have : ¬ (Int.ofNat q.1 < 0) := by
        have : (0 : Int) ≤ Int.ofNat q.1 := Int.natCast_nonneg _
        omega
      simp only [if_neg this]
      rfl
  refine ⟨a.filter P, ?_, a2.filter _, fun c k => ?_⟩
  · unfold getFacets
    rw [a1, Option.bind_some, hg a ha, Option.bind_some, hfilt, Option.bind_some, hback, Option.bind_some]
    exact hnat
  · rw [List.mem_filter, a3 c k]
    constructor
    · rintro ⟨h1, h2⟩
      obtain ⟨f, h3, h4⟩ := h1
      exact ⟨f, h3, h4, (hP (c, k) ((a3 c k).2 ⟨f, h3, h4⟩)).1 h2⟩
    · rintro ⟨f, h3, h4, h5⟩
      exact ⟨⟨f, h3, h4⟩, (hP (c, k) ((a3 c k).2 ⟨f, h3, h4⟩)).2 h5⟩

/-! ### Histories of queries -/

/-- No interior facet has unfitted boundary without being cut. -/
def NoInteriorUnf (u : UDomain) : Prop :=
  ∀ c k f, u.topo.FacetOf c k f → f < u.topo.owned → ¬ u.Ext f → u.Says u.dom.hasUnfFacet c k → u.Says u.dom.isCutFacet c k

/-- The caches hold nothing or the given answers. -/
def CachesOk (r : Query → Facets) (s : Caches) : Prop :=
  (∀ x, s.extCut = some x → x = r (.cut true)) ∧ (∀ x, s.intCut = some x → x = r (.cut false)) ∧
  (∀ x, s.extFull = some x → x = r (.full true)) ∧ (∀ x, s.intFull = some x → x = r (.full false)) ∧
  (∀ x, s.extEmpty = some x → x = r (.empty true)) ∧ (∀ x, s.intEmpty = some x → x = r (.empty false))

theorem ask_step {argsort : List Int → List Nat} (hs : ∀ l, IsArgsort l (argsort l)) {u : UDomain} {nRows : Nat} (hu : u.Ok nRows) :
    ∃ r : Query → Facets,
      (∀ q, (q ≠ .empty false ∨ u.NoInteriorUnf) → (r q).Nodup ∧ ∀ c k, (c, k) ∈ r q ↔ u.Answer q c k) ∧
      ∀ q s, (q ≠ .empty false ∨ u.NoInteriorUnf) → CachesOk r s → ∃ s', ask argsort u q s = some (r q, s') ∧ CachesOk r s' := by
  have key := fun kind p hp => C66_facets hs hu kind p hp
  obtain ⟨cutE, ce1, ce2, ce3⟩ := key .exterior u.dom.isCutFacet (by simp [preds])
  obtain ⟨cutI, ci1, ci2, ci3⟩ := key .interior u.dom.isCutFacet (by simp [preds])
  obtain ⟨fullE, fe1, fe2, fe3⟩ := key .exterior u.dom.isFullFacet (by simp [preds])
  obtain ⟨fullI, fi1, fi2, fi3⟩ := key .interior u.dom.isFullFacet (by simp [preds])
  obtain ⟨empE, ee1, ee2, ee3⟩ := key .exterior u.dom.isEmptyFacet (by simp [preds])
  obtain ⟨empI, ei1, ei2, ei3⟩ := key .interior u.dom.isEmptyFacet (by simp [preds])
  obtain ⟨unfA, ua1, ua2, ua3⟩ := key .all u.dom.hasUnfFacet (by simp [preds])
  obtain ⟨unfI, ui1, ui2, ui3⟩ := key .interior u.dom.hasUnfFacet (by simp [preds])
  obtain ⟨fuA, fu1, fu2, fu3⟩ := key .all u.dom.isFullUnfFacet (by simp [preds])
  simp only [KindOf] at ce3 ci3 fe3 fi3 ee3 ei3 ua3 ui3 fu3
  obtain ⟨d1, -, -, d4⟩ := C65_difference unfA fuA false (.inl rfl)
  let part := differenceF unfA fuA false
  let r1 : Facets := if part.isEmpty then cutE else uniqueF (concatF cutE part)
  let r2 : Facets := if fuA.isEmpty then fullE else uniqueF (concatF fullE fuA)
  have hnone : ∀ {l : Facets}, l.isEmpty = true → ∀ c k, (c, k) ∉ l := by
    intro l h c k hm
    rw [List.isEmpty_iff.1 h] at hm
    simp at hm
  have hr1 : r1.Nodup ∧ ∀ c k, (c, k) ∈ r1 ↔ (c, k) ∈ cutE ∨ (c, k) ∈ part := by
    by_cases hp : part.isEmpty
    · simp only [r1, hp, if_true]
      exact ⟨ce2, fun c k => ⟨.inl, fun h => h.resolve_right (hnone hp c k)⟩⟩
    · simp only [r1, hp]
      obtain ⟨q1, q2, -⟩ := C65_unique (concatF cutE part)
      exact ⟨q1.imp fun h => h.2, fun c k => (q2 _).trans List.mem_append⟩
  have hr2 : r2.Nodup ∧ ∀ c k, (c, k) ∈ r2 ↔ (c, k) ∈ fullE ∨ (c, k) ∈ fuA := by
    by_cases hp : fuA.isEmpty
    · simp only [r2, hp, if_true]
      exact ⟨fe2, fun c k => ⟨.inl, fun h => h.resolve_right (hnone hp c k)⟩⟩
    · simp only [r2, hp]
      obtain ⟨q1, q2, -⟩ := C65_unique (concatF fullE fuA)
      exact ⟨q1.imp fun h => h.2, fun c k => (q2 _).trans List.mem_append⟩
  let r : Query → Facets := fun q => match q with
    | .cut true => r1 | .cut false => cutI | .full true => r2 | .full false => fullI
    | .empty true => empE | .empty false => empI
  refine ⟨r, ?_, ?_⟩
  · intro q hq
    match q with
    | .cut true =>
      refine ⟨hr1.1, fun c k => ?_⟩
      show (c, k) ∈ r1 ↔ _
      rw [hr1.2, ce3, d4, ua3, fu3]
      constructor
      · rintro (⟨f, h1, h2, h3⟩ | ⟨⟨f, h1, h2, h3⟩, h4⟩)
        · exact ⟨f, h1, .inl ⟨h2, h3⟩⟩
        · exact ⟨f, h1, .inr ⟨h2, h3, fun h => h4 ⟨f, h1, h2, h⟩⟩⟩
      · rintro ⟨f, h1, ⟨h2, h3⟩ | ⟨h2, h3, h4⟩⟩
        · exact .inl ⟨f, h1, h2, h3⟩
        · refine .inr ⟨⟨f, h1, h2, h3⟩, ?_⟩
          rintro ⟨-, -, -, h⟩
          exact h4 h
    | .cut false =>
      refine ⟨ci2, fun c k => (ci3 c k).trans ?_⟩
      exact ⟨fun ⟨f, h1, h2, h3⟩ => ⟨f, h1, h2.1, h2.2, h3⟩, fun ⟨f, h1, h2, h3, h4⟩ => ⟨f, h1, ⟨h2, h3⟩, h4⟩⟩
    | .full true =>
      refine ⟨hr2.1, fun c k => ?_⟩
      show (c, k) ∈ r2 ↔ _
      rw [hr2.2, fe3, fu3]
      constructor
      · rintro (⟨f, h1, h2, h3⟩ | ⟨f, h1, h2, h3⟩)
        · exact ⟨f, h1, .inl ⟨h2, h3⟩⟩
        · exact ⟨f, h1, .inr ⟨h2, h3⟩⟩
      · rintro ⟨f, h1, ⟨h2, h3⟩ | ⟨h2, h3⟩⟩
        · exact .inl ⟨f, h1, h2, h3⟩
        · exact .inr ⟨f, h1, h2, h3⟩
    | .full false =>
      refine ⟨fi2, fun c k => (fi3 c k).trans ?_⟩
      exact ⟨fun ⟨f, h1, h2, h3⟩ => ⟨f, h1, h2.1, h2.2, h3⟩, fun ⟨f, h1, h2, h3, h4⟩ => ⟨f, h1, ⟨h2, h3⟩, h4⟩⟩
    | .empty true => exact ⟨ee2, ee3⟩
    | .empty false =>
      have hn := hq.resolve_left (by simp)
      refine ⟨ei2, fun c k => (ei3 c k).trans ?_⟩
      constructor
      · rintro ⟨f, h1, h2, h3⟩; exact ⟨f, h1, h2.1, h2.2, .inl h3⟩
      · rintro ⟨f, h1, h2, h3, h4 | ⟨h4, h5⟩⟩
        · exact ⟨f, h1, ⟨h2, h3⟩, h4⟩
        · exact absurd (hn c k f h1 h2 h3 h4) h5
  · have cutIntStep : ∀ s, CachesOk r s → ∃ s', cutInt argsort u s = some (cutI, s') ∧ CachesOk r s' ∧
        s'.intEmpty = s.intEmpty := by
      intro s ⟨k1, k2, k3, k4, k5, k6⟩
      unfold cutInt
      cases h : s.intCut with
      | some x => exact ⟨s, by rw [k2 x h], ⟨k1, k2, k3, k4, k5, k6⟩, rfl⟩
      | none =>
        simp only [ci1, Option.map_some]
        exact ⟨_, rfl, ⟨k1, fun x hx => (Option.some.inj hx).symm, k3, k4, k5, k6⟩, rfl⟩
    intro q s hq hk
    obtain ⟨k1, k2, k3, k4, k5, k6⟩ := hk
    match q with
    | .cut true =>
      show ∃ s', cutExt argsort u s = some (r1, s') ∧ _
      unfold cutExt
      cases h : s.extCut with
      | some x => exact ⟨s, by rw [k1 x h], k1, k2, k3, k4, k5, k6⟩
      | none =>
        simp only [ce1, ua1, fu1, Option.bind_some, Option.map_some]
        by_cases he : unfA.isEmpty
        · rw [if_pos he]
          have : r1 = cutE := by
            have hp : part.isEmpty := by
              rw [List.isEmpty_iff, List.eq_nil_iff_forall_not_mem]
              rintro ⟨c, k⟩ hm
              exact hnone he c k ((d4 _).1 hm).1
            simp only [r1, hp, if_true]
          rw [this]
          exact ⟨_, rfl, fun x hx => by rw [← Option.some.inj hx]; exact this.symm, k2, k3, k4, k5, k6⟩
        · rw [if_neg he]
          exact ⟨_, rfl, fun x hx => (Option.some.inj hx).symm, k2, k3, k4, k5, k6⟩
    | .cut false =>
      obtain ⟨s', h1, h2, -⟩ := cutIntStep s ⟨k1, k2, k3, k4, k5, k6⟩
      exact ⟨s', h1, h2⟩
    | .full true =>
      show ∃ s', fullExt argsort u s = some (r2, s') ∧ _
      unfold fullExt
      cases h : s.extFull with
      | some x => exact ⟨s, by rw [k3 x h], k1, k2, k3, k4, k5, k6⟩
      | none =>
        simp only [fe1, fu1, Option.bind_some, Option.map_some]
        exact ⟨_, rfl, k1, k2, fun x hx => (Option.some.inj hx).symm, k4, k5, k6⟩
    | .full false =>
      show ∃ s', fullInt argsort u s = some (fullI, s') ∧ _
      unfold fullInt
      cases h : s.intFull with
      | some x => exact ⟨s, by rw [k4 x h], k1, k2, k3, k4, k5, k6⟩
      | none =>
        simp only [fi1, Option.map_some]
        exact ⟨_, rfl, k1, k2, k3, fun x hx => (Option.some.inj hx).symm, k5, k6⟩
    | .empty true =>
      show ∃ s', emptyExt argsort u s = some (empE, s') ∧ _
      unfold emptyExt
      cases h : s.extEmpty with
      | some x => exact ⟨s, by rw [k5 x h], k1, k2, k3, k4, k5, k6⟩
      | none =>
        simp only [ee1, Option.map_some]
        exact ⟨_, rfl, k1, k2, k3, k4, fun x hx => (Option.some.inj hx).symm, k6⟩
    | .empty false =>
      have hn := hq.resolve_left (by simp)
      show ∃ s', emptyInt argsort u s = some (empI, s') ∧ _
      unfold emptyInt
      cases h : s.intEmpty with
      | some x => exact ⟨s, by rw [k6 x h], k1, k2, k3, k4, k5, k6⟩
      | none =>
        simp only [ei1, ui1, Option.bind_some]
        have hk' : CachesOk r { s with intEmpty := some empI } :=
          ⟨k1, k2, k3, k4, k5, fun x hx => (Option.some.inj hx).symm⟩
        by_cases he : unfI.isEmpty
        · rw [if_pos he]; exact ⟨_, rfl, hk'⟩
        · rw [if_neg he]
          obtain ⟨s', h1, h2, -⟩ := cutIntStep _ hk'
          rw [h1, Option.map_some]
          have hemp : (differenceF unfI cutI true).isEmpty = true := by
            rw [List.isEmpty_iff, List.eq_nil_iff_forall_not_mem]
            rintro ⟨c, k⟩ hm
            obtain ⟨-, -, -, e4⟩ := C65_difference unfI cutI true (.inr ⟨ui2, ci2⟩)
            obtain ⟨m1, m2⟩ := (e4 _).1 hm
            obtain ⟨f, f1, f2, f3⟩ := (ui3 c k).1 m1
            exact m2 ((ci3 c k).2 ⟨f, f1, f2, hn c k f f1 f2.1 f2.2 f3⟩)
          simp only [hemp, if_true]
          exact ⟨s', rfl, h2⟩

/-- **C66** (caches): each query of facets has one answer, the documented one without repetition, whatever queries were made
before; as long as the empty facets for interior integrals are not queried, or there is no interior facet that has unfitted
boundary without being cut. The full statement has no such condition: see `C66_history_fails`. -/
theorem C66_history_partial {argsort : List Int → List Nat} (hs : ∀ l, IsArgsort l (argsort l)) {u : UDomain} {nRows : Nat}
    (hu : u.Ok nRows) :
    ∃ r : Query → Facets, ∀ (hist : List Query) (q : Query),
      ((∀ q' ∈ q :: hist, q' ≠ .empty false) ∨ u.NoInteriorUnf) →
      (∃ s s', askAll argsort u hist {} = some s ∧ ask argsort u q s = some (r q, s')) ∧
      (r q).Nodup ∧ ∀ c k, (c, k) ∈ r q ↔ u.Answer q c k := by
  obtain ⟨r, h1, h2⟩ := ask_step hs hu
  refine ⟨r, fun hist q hq => ?_⟩
  have hq' : ∀ q' ∈ q :: hist, q' ≠ .empty false ∨ u.NoInteriorUnf := fun q' hm => hq.imp (fun h => h q' hm) id
  have hrun : ∀ (hist : List Query) s, (∀ q' ∈ hist, q' ≠ .empty false ∨ u.NoInteriorUnf) → CachesOk r s →
      ∃ s', askAll argsort u hist s = some s' ∧ CachesOk r s' := by
    intro hist
    induction hist with
    | nil => intro s _ hk; exact ⟨s, rfl, hk⟩
    | cons q' hist ih =>
      intro s hh hk
      obtain ⟨s1, e1, e2⟩ := h2 q' s (hh q' (List.mem_cons_self ..)) hk
      obtain ⟨s2, e3, e4⟩ := ih s1 (fun q hq => hh q (List.mem_cons_of_mem _ hq)) e2
      exact ⟨s2, by unfold askAll; rw [e1, Option.bind_some, e3], e4⟩
  obtain ⟨s, e1, e2⟩ := hrun hist {} (fun q' hm => hq' q' (List.mem_cons_of_mem _ hm)) (by
    refine ⟨?_, ?_, ?_, ?_, ?_, ?_⟩ <;> intro x hx <;> simp at hx)
  obtain ⟨s', e3, -⟩ := h2 q s (hq' q (List.mem_cons_self ..)) e2
  exact ⟨⟨s, s', e1, e3⟩, h1 q (hq' q (List.mem_cons_self ..))⟩

/-! ### Every facet has one answer -/

/-- The cell has been classified. -/
def Known (u : UDomain) (c : Nat) : Prop := ∃ v, u.mesh.OrigCell c v ∧ ¬ HasStatus u.dom.n u.dom.tree v .unknown

/-- The facets of a classified cell have one status. -/
theorem says_status {u : UDomain} {nRows : Nat} (hu : u.Ok nRows)
    {c k f : Nat} (hf : u.topo.FacetOf c k f) (hk : u.Known c) :
    ∃ st : FStatus, (u.Says u.dom.isFullFacet c k ↔ st.isFull = true) ∧ (u.Says u.dom.isEmptyFacet c k ↔ st.isEmpty = true) ∧
      (u.Says u.dom.isCutFacet c k ↔ st.isCut = true) ∧ (u.Says u.dom.isFullUnfFacet c k ↔ st.isFullUnfitted = true) ∧
      (u.Says u.dom.hasUnfFacet c k ↔ st.hasUnfitted = true) := by
  obtain ⟨v, hv, hun⟩ := hk
  obtain ⟨row, h1, h2⟩ := hf
  have hkk : k < 2 * u.dim := by
    have h2' := (List.getElem?_eq_some_iff.1 h2).1
    rwa [hu.rows row (List.mem_of_getElem? h1)] at h2'
  obtain ⟨t, t', -, -, -, -, htu⟩ := tables_inverse hu.dim_pos hu.dim_le
  obtain ⟨g, -, hg, -, hside⟩ := htu k hkk
  have hsays : ∀ p, u.Says p c k ↔ p v g = some true := by
    intro p
    constructor
    · rintro ⟨v', g', a1, a2, a3, a4⟩
      rw [OrigCell_inj hv a1, sideFacet_inj hu.dim_pos hu.dim_le hkk hg a2 hside a3]
      exact a4
    · intro h; exact ⟨v, g, hv, hg, hside, h⟩
  have hg' : g < u.dom.n.length * 2 := by unfold dim at hg; omega
  simp only [hsays]
  cases hr : FacetRecord u.dom v with
  | some w =>
    have hw := hu.facts.lens v w hr
    have key : ∀ (p : FStatus → Bool) (o : Option Bool), u.dom.facetQuery p o v g = some true ↔ p (w.getD g .empty) = true := by
      intro p o
      rw [facetQuery_iff hu.facts]
      constructor
      · rintro ⟨-, ⟨w', e1, e2⟩ | ⟨e1, -⟩⟩
        · rw [hr] at e1
          obtain rfl := Option.some.inj e1
          exact e2
        · rw [hr] at e1; simp at e1
      · intro h; exact ⟨hg', .inl ⟨w, hr, h⟩⟩
    exact ⟨w.getD g .empty, key _ _, key _ _, key _ _, key _ _, key _ _⟩
  | none =>
    obtain ⟨e1, e2, e3, e4, e5⟩ := hu.facts.facet_targets.2 v g hg' hr
    rw [e1, e2, e3, e4, e5]
    obtain ⟨st, hst, huniq⟩ := (C09_cells_by_status u.dom.n hu.facts.shape u.dom.tree hu.facts.reach).2.1 v (hu.orig_lt c v hv)
    have hex : ∀ st, HasStatus u.dom.n u.dom.tree v st ↔
        ∃ ids, Tree.getCellIds u.dom.n st u.dom.tree = some ids ∧ v ∈ ids := by
      intro st
      obtain ⟨ids, a1, -, a3, -⟩ := (C09_cells_by_status u.dom.n hu.facts.shape u.dom.tree hu.facts.reach).1 st
      constructor
      · intro h; exact ⟨ids, a1, (a3 v).2 h⟩
      · rintro ⟨ids', b1, b2⟩
        rw [a1] at b1
        obtain rfl := Option.some.inj b1
        exact (a3 v).1 b2
    simp only [← hex] at hst huniq
    cases st with
    | unknown => exact absurd hst hun
    | cut =>
      obtain ⟨w, hw⟩ := hu.facts.cuts v hst
      rw [hr] at hw; simp at hw
    | full =>
      refine ⟨.full, by simp [hst, FStatus.isFull], ?_, by simp [FStatus.isCut], by simp [FStatus.isFullUnfitted], by simp [FStatus.hasUnfitted]⟩
      simp only [FStatus.isEmpty, Bool.false_eq_true, iff_false]
      intro h
      have := huniq .empty h
      simp at this
    | empty =>
      refine ⟨.empty, ?_, by simp [hst, FStatus.isEmpty], by simp [FStatus.isCut], by simp [FStatus.isFullUnfitted], by simp [FStatus.hasUnfitted]⟩
      simp only [FStatus.isFull, reduceCtorEq, decide_false, Bool.false_eq_true, iff_false]
      intro h
      have := huniq .full h
      simp at this

/-- **C66** (exterior integrals): a facet is in at most one of the lists of cut, full and empty facets; it is in one of them if and only
if it is an exterior facet of the mesh or has unfitted boundary. -/
theorem C66_exterior_partition {u : UDomain} {nRows : Nat}
    (hu : u.Ok nRows) {c k f : Nat} (hf : u.topo.FacetOf c k f) (hk : u.Known c) :
    (¬ (u.Answer (.cut true) c k ∧ u.Answer (.full true) c k)) ∧ (¬ (u.Answer (.cut true) c k ∧ u.Answer (.empty true) c k)) ∧
    (¬ (u.Answer (.full true) c k ∧ u.Answer (.empty true) c k)) ∧
    ((u.Answer (.cut true) c k ∨ u.Answer (.full true) c k ∨ u.Answer (.empty true) c k) ↔
      u.Ext f ∨ (f < u.topo.owned ∧ u.Says u.dom.hasUnfFacet c k)) := by
  obtain ⟨st, e1, e2, e3, e4, e5⟩ := says_status hu hf hk
  have huniq : ∀ f', u.topo.FacetOf c k f' → f' = f := by
    rintro f' ⟨row', a, b⟩
    obtain ⟨row, a', b'⟩ := hf
    rw [a] at a'
    obtain rfl := Option.some.inj a'
    rw [b] at b'
    exact Option.some.inj b'
  have hex : ∀ P : Nat → Prop, (∃ f', u.topo.FacetOf c k f' ∧ P f') ↔ P f := by
    intro P
    constructor
    · rintro ⟨f', a, b⟩; rw [huniq f' a] at b; exact b
    · intro h; exact ⟨f, hf, h⟩
  have hown : u.Ext f → f < u.topo.owned := fun h => h.1
  simp only [Answer, hex, e1, e2, e3, e4, e5]
  cases st <;> simp [FStatus.isFull, FStatus.isEmpty, FStatus.isCut, FStatus.isFullUnfitted, FStatus.hasUnfitted] <;> tauto

/-- **C66** (`get_all_facets`): after any history without the queries of `C66_history_partial`, all the facets for exterior integrals,
each one once, or the remaining ones. -/
theorem C66_all_facets {argsort : List Int → List Nat} (hs : ∀ l, IsArgsort l (argsort l)) {u : UDomain} {nRows : Nat}
    (hu : u.Ok nRows) (hk : ∀ c < u.topo.cellFacets.length, u.Known c) (hist : List Query)
    (hh : (∀ q ∈ hist, q ≠ .empty false) ∨ u.NoInteriorUnf) (ext : Bool) :
    ∃ s r s', askAll argsort u hist {} = some s ∧ getAll argsort u ext s = some (r, s') ∧ r.Nodup ∧
      ∀ c k, (c, k) ∈ r ↔ ∃ f, u.topo.FacetOf c k f ∧ f < u.topo.owned ∧
        (ext = true ↔ u.Ext f ∨ u.Says u.dom.hasUnfFacet c k) := by
  obtain ⟨r, h1, h2⟩ := ask_step hs hu
  have hrun : ∀ (hist : List Query) s, (∀ q' ∈ hist, q' ≠ .empty false ∨ u.NoInteriorUnf) → CachesOk r s →
      ∃ s', askAll argsort u hist s = some s' ∧ CachesOk r s' := by
    intro hist
    induction hist with
    | nil => intro s _ hk; exact ⟨s, rfl, hk⟩
    | cons q' hist ih =>
      intro s hh hk
      obtain ⟨s1, e1, e2⟩ := h2 q' s (hh q' (List.mem_cons_self ..)) hk
      obtain ⟨s2, e3, e4⟩ := ih s1 (fun q hq => hh q (List.mem_cons_of_mem _ hq)) e2
      exact ⟨s2, by unfold askAll; rw [e1, Option.bind_some, e3], e4⟩
  obtain ⟨s, e1, e2⟩ := hrun hist {} (fun q' hm => hh.imp (fun h => h q' hm) id) (by
    refine ⟨?_, ?_, ?_, ?_, ?_, ?_⟩ <;> intro x hx <;> simp at hx)
  obtain ⟨s1, a1, b1⟩ := h2 (.cut true) s (.inl (by simp)) e2
  obtain ⟨s2, a2, b2⟩ := h2 (.full true) s1 (.inl (by simp)) b1
  obtain ⟨s3, a3, b3⟩ := h2 (.empty true) s2 (.inl (by simp)) b2
  obtain ⟨n1, m1⟩ := h1 (.cut true) (.inl (by simp))
  obtain ⟨n2, m2⟩ := h1 (.full true) (.inl (by simp))
  obtain ⟨n3, m3⟩ := h1 (.empty true) (.inl (by simp))
  let R := concatF (concatF (r (.cut true)) (r (.full true))) (r (.empty true))
  have hmem : ∀ c k, (c, k) ∈ R ↔ u.Answer (.cut true) c k ∨ u.Answer (.full true) c k ∨ u.Answer (.empty true) c k := by
    intro c k
    simp only [R, concatF, List.mem_append, m1, m2, m3, or_assoc]
  have hfo : ∀ q c k, u.Answer q c k → ∃ f, u.topo.FacetOf c k f := by
    intro q c k h
    match q with
    | .cut true => obtain ⟨f, h, -⟩ := h; exact ⟨f, h⟩
    | .cut false => obtain ⟨f, h, -⟩ := h; exact ⟨f, h⟩
    | .full true => obtain ⟨f, h, -⟩ := h; exact ⟨f, h⟩
    | .full false => obtain ⟨f, h, -⟩ := h; exact ⟨f, h⟩
    | .empty true => obtain ⟨f, h, -⟩ := h; exact ⟨f, h⟩
    | .empty false => obtain ⟨f, h, -⟩ := h; exact ⟨f, h⟩
  have hkn : ∀ {c k f}, u.topo.FacetOf c k f → u.Known c := by
    rintro c k f ⟨row, a, -⟩
    exact hk c (List.getElem?_eq_some_iff.1 a).1
  have hRmem : ∀ c k, (c, k) ∈ R ↔ ∃ f, u.topo.FacetOf c k f ∧ f < u.topo.owned ∧ (u.Ext f ∨ u.Says u.dom.hasUnfFacet c k) := by
    intro c k
    rw [hmem]
    constructor
    · intro h
      have : ∃ f, u.topo.FacetOf c k f := by
        rcases h with h | h | h <;> exact hfo _ _ _ h
      obtain ⟨f, hf⟩ := this
      refine ⟨f, hf, ?_⟩
      rcases (C66_exterior_partition hu hf (hkn hf)).2.2.2.1 h with h | h
      · exact ⟨h.1, .inl h⟩
      · exact ⟨h.1, .inr h.2⟩
    · rintro ⟨f, hf, ho, h⟩
      refine (C66_exterior_partition hu hf (hkn hf)).2.2.2.2 ?_
      exact h.imp id fun h => ⟨ho, h⟩
  have hRnd : R.Nodup := by
    have disj : ∀ q q', (∀ c k, ¬ (u.Answer q c k ∧ u.Answer q' c k)) → (∀ c k, (c, k) ∈ r q ↔ u.Answer q c k) →
        (∀ c k, (c, k) ∈ r q' ↔ u.Answer q' c k) → List.Disjoint (r q) (r q') := by
      rintro q q' h a b ⟨c, k⟩ x y
      exact h c k ⟨(a c k).1 x, (b c k).1 y⟩
    have part : ∀ c k, (¬ (u.Answer (.cut true) c k ∧ u.Answer (.full true) c k)) ∧
        (¬ (u.Answer (.cut true) c k ∧ u.Answer (.empty true) c k)) ∧
        (¬ (u.Answer (.full true) c k ∧ u.Answer (.empty true) c k)) := by
      intro c k
      by_cases h : ∃ f, u.topo.FacetOf c k f
      · obtain ⟨f, hf⟩ := h
        obtain ⟨p1, p2, p3, -⟩ := C66_exterior_partition hu hf (hkn hf)
        exact ⟨p1, p2, p3⟩
      · exact ⟨fun x => h (hfo _ _ _ x.1), fun x => h (hfo _ _ _ x.1), fun x => h (hfo _ _ _ x.1)⟩
    refine List.Nodup.append (List.Nodup.append n1 n2 (disj _ _ (fun c k => (part c k).1) m1 m2)) n3 ?_
    rintro ⟨c, k⟩ x y
    rcases List.mem_append.1 x with x | x
    · exact (part c k).2.1 ⟨(m1 c k).1 x, (m3 c k).1 y⟩
    · exact (part c k).2.2 ⟨(m2 c k).1 x, (m3 c k).1 y⟩
  have g1 : cutExt argsort u s = some (r (.cut true), s1) := a1
  have g2 : fullExt argsort u s1 = some (r (.full true), s2) := a2
  have g3 : emptyExt argsort u s2 = some (r (.empty true), s3) := a3
  cases ext with
  | true =>
    refine ⟨s, R, s3, e1, ?_, hRnd, fun c k => ?_⟩
    · unfold getAll
      simp only [g1, g2, g3, Option.bind_some, if_true]
      rfl
    · rw [hRmem]
      simp
  | false =>
    obtain ⟨a, k1, k2, k3⟩ := kindFacets_spec hu .all
    have k1' : Py.allFacets u.topo u.range false = some a := k1
    obtain ⟨d1, -, -, d4⟩ := C65_difference a R false (.inl rfl)
    refine ⟨s, differenceF a R false, s3, e1, ?_, d1, fun c k => ?_⟩
    · unfold getAll
      simp only [g1, g2, g3, Option.bind_some, k1', Option.map_some]
      rfl
    · rw [d4, k3, hRmem]
      simp only [KindOf, Bool.false_eq_true, false_iff]
      constructor
      · rintro ⟨⟨f, h1, h2⟩, h3⟩
        exact ⟨f, h1, h2, fun h => h3 ⟨f, h1, h2, h⟩⟩
      · rintro ⟨f, h1, h2, h3⟩
        refine ⟨⟨f, h1, h2⟩, ?_⟩
        rintro ⟨f', ⟨row', a', b'⟩, -, h5⟩
        obtain ⟨row, a, b⟩ := h1
        rw [a] at a'
        obtain rfl := Option.some.inj a'
        rw [b] at b'
        obtain rfl := Option.some.inj b'
        exact h3 h5

/-! ### Tags of facets -/

/-- **C66** (`create_facet_tags`), without a tag for empty facets: each tag has the facets of its status. The full statement also has
the empty facets under their tag: see `C66_facet_tags_fail`. -/
theorem C66_facet_tags_partial {argsort : List Int → List Nat} (hs : ∀ l, IsArgsort l (argsort l)) {u : UDomain} {nRows : Nat}
    (hu : u.Ok nRows) (ext : Bool) (a b : Nat) (hab : a ≠ b) :
    ∃ A B s, facetTags argsort u (some a) (some b) none ext {} = some ([(some a, A), (some b, B)], s) ∧ A.Nodup ∧ B.Nodup ∧
      (∀ c k, (c, k) ∈ A ↔ u.Answer (.cut ext) c k) ∧ (∀ c k, (c, k) ∈ B ↔ u.Answer (.full ext) c k) := by
  obtain ⟨r, h1, h2⟩ := ask_step hs hu
  obtain ⟨s1, a1, b1⟩ := h2 (.cut ext) {} (.inl (by simp)) (by
    refine ⟨?_, ?_, ?_, ?_, ?_, ?_⟩ <;> intro x hx <;> simp at hx)
  obtain ⟨s2, a2, b2⟩ := h2 (.full ext) s1 (.inl (by simp)) b1
  obtain ⟨n1, m1⟩ := h1 (.cut ext) (.inl (by simp))
  obtain ⟨n2, m2⟩ := h1 (.full ext) (.inl (by simp))
  refine ⟨r (.cut ext), r (.full ext), s2, ?_, n1, n2, m1, m2⟩
  unfold facetTags
  simp only [a1, a2, Option.map_some, Option.bind_some]
  simp [addTag, hab]

/-- **C66** fails for the tag of the empty facets: it is never used; the empty facets are given the tag of the cut facets (shown for
exterior integrals). -/
theorem C66_facet_tags_fail {argsort : List Int → List Nat} (hs : ∀ l, IsArgsort l (argsort l)) {u : UDomain} {nRows : Nat}
    (hu : u.Ok nRows) (a b e : Nat) (hab : a ≠ b) :
    ∃ A B s, facetTags argsort u (some a) (some b) (some e) true {} = some ([(some a, A), (some b, B)], s) ∧
      (∀ c k, (c, k) ∈ A ↔ u.Answer (.cut true) c k ∨ u.Answer (.empty true) c k) ∧
      (∀ c k, (c, k) ∈ B ↔ u.Answer (.full true) c k) := by
  obtain ⟨r, h1, h2⟩ := ask_step hs hu
  obtain ⟨s1, a1, b1⟩ := h2 (.cut true) {} (.inl (by simp)) (by
    refine ⟨?_, ?_, ?_, ?_, ?_, ?_⟩ <;> intro x hx <;> simp at hx)
  obtain ⟨s2, a2, b2⟩ := h2 (.full true) s1 (.inl (by simp)) b1
  obtain ⟨s3, a3, b3⟩ := h2 (.empty true) s2 (.inl (by simp)) b2
  obtain ⟨n1, m1⟩ := h1 (.cut true) (.inl (by simp))
  obtain ⟨n2, m2⟩ := h1 (.full true) (.inl (by simp))
  obtain ⟨n3, m3⟩ := h1 (.empty true) (.inl (by simp))
  have hba : b ≠ a := fun h => hab h.symm
  by_cases he : (r (.empty true)).isEmpty
  · refine ⟨r (.cut true), r (.full true), s3, ?_, fun c k => ?_, m2⟩
    · unfold facetTags
      simp only [a1, a2, a3, Option.map_some, Option.bind_some]
      simp [addTag, hab, List.isEmpty_iff.1 he]
    · rw [m1, ← m3, List.isEmpty_iff.1 he]
      simp
  · refine ⟨r (.cut true) ++ r (.empty true), r (.full true), s3, ?_, fun c k => ?_, m2⟩
    · unfold facetTags
      simp only [a1, a2, a3, Option.map_some, Option.bind_some]
      simp [addTag, hab, hba, concatF, he]
    · rw [List.mem_append, m1, m3]

/-! ### Cells -/

theorem OrigCell_exists {m : PyMesh} {nRows : Nat} (hm : m.Ok nRows) {l : Nat} (hl : l < m.cellIndex.length) : ∃ v, m.OrigCell l v := by
  simp only [origCell_iff]
  rw [List.getElem?_eq_getElem hl]
  cases ha : m.active with
  | none => exact ⟨_, _, rfl, rfl⟩
  | some a =>
    have : m.cellIndex[l] < a.length := by
      rw [(hm.active a ha).2]; exact hm.cells_lt _ (List.getElem_mem hl)
    exact ⟨_, _, rfl, List.getElem?_eq_getElem this⟩

theorem OrigCell_lt {m : PyMesh} {l v : Nat} (h : m.OrigCell l v) : l < m.cellIndex.length := by
  rw [origCell_iff] at h
  obtain ⟨o, h, -⟩ := h
  exact (List.getElem?_eq_some_iff.1 h).1

/-- **C66** (`get_cut_cells`, `get_full_cells`, `get_empty_cells`): the local cells whose original cell has the status, in increasing
order, each one once. -/
theorem C66_cells {argsort : List Int → List Nat} (hs : ∀ l, IsArgsort l (argsort l)) {u : UDomain} {nRows : Nat} (hu : u.Ok nRows)
    (st : Status) :
    ∃ r : List Nat, u.getCells argsort st = some (r.map Int.ofNat) ∧ r.Pairwise (· < ·) ∧
      ∀ c, c ∈ r ↔ c < u.numLocal ∧ ∃ v, u.mesh.OrigCell c v ∧ HasStatus u.dom.n u.dom.tree v st := by
  have inj : ∀ {l l' v}, u.mesh.OrigCell l v → u.mesh.OrigCell l' v → l = l' := by
    intro l l' v h h'
    obtain ⟨r, -, -, e3⟩ := C64_cells_from_original hs u.mesh hu.mesh [v]
    rcases e3 0 v rfl with ⟨-, a⟩ | ⟨x, -, -, b⟩
    · exact absurd h (a l)
    · rw [b l h, b l' h']
  -- the original numbers: different, of local cells, with the status
  have horig : ∃ orig : List Nat, (if u.numLocal = tsize u.dom.n then u.dom.tree.getCellIds u.dom.n st
      else (u.mesh.allOrigCells u.numLocal).bind fun t => Tree.getCellIdsTarget u.dom.n st u.dom.tree t) = some orig ∧ orig.Nodup ∧
      ∀ v, v ∈ orig ↔ HasStatus u.dom.n u.dom.tree v st ∧ ∃ c, c < u.numLocal ∧ u.mesh.OrigCell c v := by
    by_cases hn : u.numLocal = tsize u.dom.n
    · rw [if_pos hn]
      obtain ⟨hc9, -, hc9', -⟩ := C09_cells_by_status u.dom.n hu.facts.shape u.dom.tree hu.facts.reach
      obtain ⟨ids, a1, a2, a3, -⟩ := hc9 st
      refine ⟨ids, a1, a2.imp fun h => Nat.ne_of_lt h, fun v => ?_⟩
      rw [a3]
      refine ⟨fun h => ⟨h, ?_⟩, fun h => h.1⟩
      have hv : v < listProd u.dom.n := hc9' st ids v a1 ((a3 v).2 h)
      -- all the cells are in the process
      choose! o ho using fun l (hl : l < u.mesh.cellIndex.length) => OrigCell_exists hu.mesh hl
      have hsub : (Finset.range u.numLocal).image o ⊆ Finset.range (listProd u.dom.n) := by
        intro x hx
        obtain ⟨l, hl, rfl⟩ := Finset.mem_image.1 hx
        have := Finset.mem_range.1 hl
        have hle := hu.numLocal
        exact Finset.mem_range.2 (hu.orig_lt l _ (ho l (by omega)))
      have hcard : ((Finset.range u.numLocal).image o).card = u.numLocal := by
        rw [Finset.card_image_of_injOn, Finset.card_range]
        intro l hl l' hl' e
        have h1 := Finset.mem_range.1 (Finset.mem_coe.1 hl)
        have h2 := Finset.mem_range.1 (Finset.mem_coe.1 hl')
        have hle := hu.numLocal
        have x1 := ho l (by omega)
        have x2 := ho l' (by omega)
        rw [show o l = o l' from e] at x1
        exact inj x1 x2
      have heq := Finset.eq_of_subset_of_card_le hsub (by rw [hcard, Finset.card_range, hn, tsize_eq])
      have hvm : v ∈ (Finset.range u.numLocal).image o := by rw [heq]; exact Finset.mem_range.2 hv
      obtain ⟨l, hl, rfl⟩ := Finset.mem_image.1 hvm
      have hl' := Finset.mem_range.1 hl
      have hle := hu.numLocal
      exact ⟨l, hl', ho l (by omega)⟩
    · rw [if_neg hn]
      have hd : ∀ l ∈ List.range u.numLocal, l < u.mesh.cellIndex.length := by
        intro l hl
        have := List.mem_range.1 hl
        have hle := hu.numLocal
        omega
      obtain ⟨t, t1, t2⟩ := C64_cells_round_trip hs u.mesh hu.mesh (List.range u.numLocal) hd
      obtain ⟨r, f1, f2, f3⟩ := C64_cells_from_original hs u.mesh hu.mesh t
      rw [t2] at f1
      obtain rfl := Option.some.inj f1
      have hlen : t.length = u.numLocal := by simpa using f2.symm
      have hto : ∀ (k v : Nat), t[k]? = some v → u.mesh.OrigCell k v := by
        intro k v hk
        have hkl : k < u.numLocal := by have := (List.getElem?_eq_some_iff.1 hk).1; omega
        have e : (List.map Int.ofNat (List.range u.numLocal))[k]? = some (Int.ofNat k) := by simp [hkl]
        rcases f3 k v hk with ⟨h, -⟩ | ⟨l, h, h', -⟩
        · rw [e] at h
          have := Option.some.inj h
          have h0 : (0 : Int) ≤ Int.ofNat k := Int.natCast_nonneg _
          omega
        · rw [e] at h
          have : k = l := Int.ofNat.inj (Option.some.inj h)
          rw [this]; exact h'
      have htm : ∀ v, v ∈ t ↔ ∃ c, c < u.numLocal ∧ u.mesh.OrigCell c v := by
        intro v
        constructor
        · intro h
          obtain ⟨k, hk, rfl⟩ := List.mem_iff_getElem.1 h
          exact ⟨k, by omega, hto k _ (List.getElem?_eq_getElem hk)⟩
        · rintro ⟨c, hc, h⟩
          have hk : c < t.length := by omega
          rw [OrigCell_inj h (hto c _ (List.getElem?_eq_getElem hk))]
          exact List.getElem_mem hk
      have htn : t.Nodup := by
        rw [List.nodup_iff_getElem?_ne_getElem?]
        intro i j hij hj e
        have hi : i < t.length := by omega
        rw [List.getElem?_eq_getElem hi, List.getElem?_eq_getElem hj] at e
        have x1 := hto i _ (List.getElem?_eq_getElem hi)
        have x2 := hto j _ (List.getElem?_eq_getElem hj)
        rw [Option.some.inj e] at x1
        have := inj x1 x2
        omega
      obtain ⟨ids, i1, -, i3, i4⟩ := (C10_target_queries u.dom.n hu.facts.shape u.dom.tree hu.facts.reach st t).1 (by
        intro v hv
        obtain ⟨c, -, h⟩ := (htm v).1 hv
        exact hu.orig_lt c v h)
      refine ⟨ids, ?_, ?_, fun v => ?_⟩
      · unfold PyMesh.allOrigCells
        rw [t1, Option.bind_some, i1]
      · rw [List.nodup_iff_count_le_one]
        intro v
        by_cases h : HasStatus u.dom.n u.dom.tree v st
        · rw [i3 v h]; exact List.nodup_iff_count_le_one.1 htn v
        · rw [List.count_eq_zero_of_not_mem (i4 v h)]; omega
      · rw [← htm]
        constructor
        · intro h
          by_cases hst : HasStatus u.dom.n u.dom.tree v st
          · refine ⟨hst, ?_⟩
            rw [← List.count_pos_iff, ← i3 v hst, List.count_pos_iff]; exact h
          · exact absurd h (i4 v hst)
        · rintro ⟨hst, h⟩
          rw [← List.count_pos_iff, i3 v hst, List.count_pos_iff]; exact h
  obtain ⟨orig, o1, o2, o3⟩ := horig
  obtain ⟨R, r1, r2, r3⟩ := C64_cells_from_original hs u.mesh hu.mesh orig
  -- the local numbers
  have hkey : ∀ (k : Nat) (v : Nat), orig[k]? = some v → ∃ l : Nat, R[k]? = some (Int.ofNat l) ∧ l < u.numLocal ∧ u.mesh.OrigCell l v := by
    intro k v hv
    obtain ⟨-, c, hc, hcv⟩ := (o3 v).1 (List.mem_of_getElem? hv)
    rcases r3 k v hv with ⟨-, h⟩ | ⟨l', h, h', -⟩
    · exact absurd hcv (h c)
    · exact ⟨l', h, by rw [inj h' hcv]; exact hc, h'⟩
  have hR : ∀ x, x ∈ R ↔ ∃ c : Nat, x = Int.ofNat c ∧ c < u.numLocal ∧ ∃ v, u.mesh.OrigCell c v ∧ HasStatus u.dom.n u.dom.tree v st := by
    intro x
    constructor
    · intro hx
      obtain ⟨k, hk, rfl⟩ := List.mem_iff_getElem.1 hx
      have hko : k < orig.length := by omega
      obtain ⟨l, h1, h2, h3⟩ := hkey k _ (List.getElem?_eq_getElem hko)
      rw [List.getElem?_eq_getElem hk] at h1
      exact ⟨l, Option.some.inj h1, h2, _, h3, ((o3 _).1 (List.getElem_mem hko)).1⟩
    · rintro ⟨c, rfl, hc, v, hv, hst⟩
      have hvo : v ∈ orig := (o3 v).2 ⟨hst, c, hc, hv⟩
      obtain ⟨k, hk, rfl⟩ := List.mem_iff_getElem.1 hvo
      obtain ⟨l, h1, -, h3⟩ := hkey k _ (List.getElem?_eq_getElem hk)
      rw [inj hv h3]
      exact List.mem_of_getElem? h1
  have hRn : R.Nodup := by
    rw [List.nodup_iff_getElem?_ne_getElem?]
    intro i j hij hj e
    have hj' : j < orig.length := by omega
    have hi' : i < orig.length := by omega
    obtain ⟨l, h1, -, h3⟩ := hkey i _ (List.getElem?_eq_getElem hi')
    obtain ⟨l', h1', -, h3'⟩ := hkey j _ (List.getElem?_eq_getElem hj')
    rw [h1, h1'] at e
    have hll : l = l' := Int.ofNat.inj (Option.some.inj e)
    rw [hll] at h3
    have := (List.Nodup.getElem_inj_iff o2).1 (OrigCell_inj h3 h3')
    omega
  let S := R.insertionSort (· ≤ ·)
  have hSmem : ∀ x, x ∈ S ↔ x ∈ R := fun x => (List.perm_insertionSort _ R).mem_iff
  have hSsort : S.Pairwise (· ≤ ·) := List.pairwise_insertionSort _ _
  have hSn : S.Nodup := (List.perm_insertionSort _ R).nodup_iff.2 hRn
  have hSlt : S.Pairwise (· < ·) := by
    refine (hSsort.and hSn).imp fun h => ?_
    exact lt_of_le_of_ne h.1 h.2
  have hSnat : (S.map Int.toNat).map Int.ofNat = S := by
    rw [List.map_map]
    conv_rhs => rw [← List.map_id S]
    refine List.map_congr_left fun x hx => ?_
    obtain ⟨c, rfl, -⟩ := (hR x).1 ((hSmem x).1 hx)
    rfl
  refine ⟨S.map Int.toNat, ?_, ?_, ?_⟩
  · unfold getCells
    rw [o1, Option.bind_some, r1, Option.map_some, hSnat]
  · rw [← hSnat, List.pairwise_map] at hSlt
    exact hSlt.imp fun h => Int.ofNat_lt.1 h
  · intro c
    constructor
    · intro h
      obtain ⟨x, hx, rfl⟩ := List.mem_map.1 h
      obtain ⟨c, rfl, h'⟩ := (hR x).1 ((hSmem x).1 hx)
      exact h'
    · intro h
      exact List.mem_map.2 ⟨Int.ofNat c, (hSmem _).2 ((hR _).2 ⟨c, rfl, h⟩), rfl⟩

/-- The caches of cells hold nothing or what `get_…_cells` computes; true at first, and kept by every query of cells
(`C66_cell_queries`); the queries of facets do not touch them (`ask_cells`). -/
def CellCachesOk (argsort : List Int → List Nat) (u : UDomain) (s : Caches) : Prop :=
  (∀ r, s.cutCells = some r → u.getCells argsort .cut = some r) ∧ (∀ r, s.fullCells = some r → u.getCells argsort .full = some r) ∧
  (∀ r, s.emptyCells = some r → u.getCells argsort .empty = some r)

/-- **C66** (`get_cut_cells`, `get_full_cells`, `get_empty_cells`, with their caches): whatever was asked before. -/
theorem C66_cell_queries {argsort : List Int → List Nat} (hs : ∀ l, IsArgsort l (argsort l)) {u : UDomain} {nRows : Nat}
    (hu : u.Ok nRows) (st : Status) (hst : st ≠ .unknown) (s : Caches) (hk : CellCachesOk argsort u s) :
    ∃ (r : List Nat) (s' : Caches), cells argsort u st s = some (r.map Int.ofNat, s') ∧ CellCachesOk argsort u s' ∧ r.Pairwise (· < ·) ∧
      ∀ c, c ∈ r ↔ c < u.numLocal ∧ ∃ v, u.mesh.OrigCell c v ∧ HasStatus u.dom.n u.dom.tree v st := by
  obtain ⟨r, h1, h2, h3⟩ := C66_cells hs hu st
  obtain ⟨k1, k2, k3⟩ := hk
  have hsome : ∀ r', u.getCells argsort st = some r' → r' = r.map Int.ofNat := by
    intro r' h
    rw [h1] at h
    exact (Option.some.inj h).symm
  cases st with
  | unknown => exact absurd rfl hst
  | cut =>
    cases hc : s.cutCells with
    | some r' =>
      exact ⟨r, s, by simp [cells, hc, hsome r' (k1 r' hc)], ⟨k1, k2, k3⟩, h2, h3⟩
    | none =>
      refine ⟨r, { s with cutCells := some (r.map Int.ofNat) }, by simp [cells, hc, h1], ⟨?_, k2, k3⟩, h2, h3⟩
      intro r' h
      rw [← Option.some.inj h, h1]
  | full =>
    cases hc : s.fullCells with
    | some r' =>
      exact ⟨r, s, by simp [cells, hc, hsome r' (k2 r' hc)], ⟨k1, k2, k3⟩, h2, h3⟩
    | none =>
      refine ⟨r, { s with fullCells := some (r.map Int.ofNat) }, by simp [cells, hc, h1], ⟨k1, ?_, k3⟩, h2, h3⟩
      intro r' h
      rw [← Option.some.inj h, h1]
  | empty =>
    cases hc : s.emptyCells with
    | some r' =>
      exact ⟨r, s, by simp [cells, hc, hsome r' (k3 r' hc)], ⟨k1, k2, k3⟩, h2, h3⟩
    | none =>
      refine ⟨r, { s with emptyCells := some (r.map Int.ofNat) }, by simp [cells, hc, h1], ⟨k1, k2, ?_⟩, h2, h3⟩
      intro r' h
      rw [← Option.some.inj h, h1]

/-- The tag asked for the cells of a status. -/
def tagOf (cutTag fullTag emptyTag : Option Nat) : Status → Option Nat
  | .cut => cutTag
  | .full => fullTag
  | .empty => emptyTag
  | .unknown => none

/-- The cells and values gathered so far: `Z` are the pairs. -/
theorem addCells_ok {argsort : List Int → List Nat} (hs : ∀ l, IsArgsort l (argsort l)) {u : UDomain} {nRows : Nat}
    (hu : u.Ok nRows) (st : Status) (hst : st ≠ .unknown) (tag : Option Nat) (done : List Status) (hdone : st ∉ done) (tags : Status → Option Nat)
    (htag : tags st = tag) (Z : List (Nat × Nat)) (s : Caches) (hk : CellCachesOk argsort u s) (hZn : (Z.map Prod.fst).Nodup)
    (hZ : ∀ c t, (c, t) ∈ Z ↔ c < u.numLocal ∧ ∃ v st', u.mesh.OrigCell c v ∧ st' ∈ done ∧ HasStatus u.dom.n u.dom.tree v st' ∧ tags st' = some t) :
    ∃ (Z' : List (Nat × Nat)) (s' : Caches), addCells argsort u st tag (Z.map (fun p => Int.ofNat p.1), Z.map Prod.snd, s) =
        some (Z'.map (fun p => Int.ofNat p.1), Z'.map Prod.snd, s') ∧ CellCachesOk argsort u s' ∧ (Z'.map Prod.fst).Nodup ∧
      ∀ c t, (c, t) ∈ Z' ↔ c < u.numLocal ∧ ∃ v st', u.mesh.OrigCell c v ∧ st' ∈ done ++ [st] ∧ HasStatus u.dom.n u.dom.tree v st' ∧
        tags st' = some t := by
  cases tag with
  | none =>
    refine ⟨Z, s, rfl, hk, hZn, fun c t => ?_⟩
    rw [hZ]
    constructor
    · rintro ⟨h, v, st', a, b, c, d⟩
      exact ⟨h, v, st', a, List.mem_append_left _ b, c, d⟩
    · rintro ⟨h, v, st', a, b, c, d⟩
      rcases List.mem_append.1 b with b | b
      · exact ⟨h, v, st', a, b, c, d⟩
      · rw [List.mem_singleton.1 b, htag] at d; simp at d
  | some t0 =>
    obtain ⟨r, s', h1, h2, h3, h4⟩ := C66_cell_queries hs hu st hst s hk
    refine ⟨Z ++ r.map (·, t0), s', ?_, h2, ?_, fun c t => ?_⟩
    · simp [addCells, h1, Function.comp_def]
    · rw [List.map_append, List.nodup_append]
      refine ⟨hZn, ?_, ?_⟩
      · rw [List.map_map]
        have : r.Nodup := h3.imp fun h => Nat.ne_of_lt h
        simpa [Function.comp_def] using this
      · rintro a ha b hb rfl
        obtain ⟨⟨c, t⟩, hc, rfl⟩ := List.mem_map.1 ha
        obtain ⟨-, v, st', a1, a2, a3, -⟩ := (hZ c t).1 hc
        have hb' : c ∈ r := by simpa using hb
        obtain ⟨-, v', b1, b2⟩ := (h4 c).1 hb'
        rw [OrigCell_inj b1 a1] at b2
        rw [(Tree.WF.of_reachable hu.facts.shape.2 hu.facts.reach).1.hasStatus_unique b2 a3] at hdone
        exact hdone a2
    · rw [List.mem_append, hZ]
      constructor
      · rintro (⟨h, v, st', a, b, c, d⟩ | h)
        · exact ⟨h, v, st', a, List.mem_append_left _ b, c, d⟩
        · obtain ⟨x, hx, e⟩ := List.mem_map.1 h
          cases e
          obtain ⟨hc, v, a, b⟩ := (h4 c).1 hx
          exact ⟨hc, v, st, a, by simp, b, htag⟩
      · rintro ⟨h, v, st', a, b, hst', d⟩
        rcases List.mem_append.1 b with b | b
        · exact .inl ⟨h, v, st', a, b, hst', d⟩
        · rw [List.mem_singleton.1 b] at hst' d
          rw [htag] at d
          rw [← Option.some.inj d]
          exact .inr (List.mem_map.2 ⟨c, (h4 c).2 ⟨h, v, a, hst'⟩, rfl⟩)

/-- **C66** (`create_cell_meshtags`): the cells come in increasing order, each one once, and a cell of the process has the value `t`
exactly when `t` is the tag asked for its status. -/
theorem C66_cell_tags {argsort : List Int → List Nat} (hs : ∀ l, IsArgsort l (argsort l)) {u : UDomain} {nRows : Nat}
    (hu : u.Ok nRows) (cutTag fullTag emptyTag : Option Nat) (s : Caches) (hk : CellCachesOk argsort u s) :
    ∃ (Z : List (Nat × Nat)) (s' : Caches), cellTags argsort u cutTag fullTag emptyTag s =
        some (Z.map (fun p => Int.ofNat p.1), Z.map Prod.snd, s') ∧ CellCachesOk argsort u s' ∧ (Z.map Prod.fst).Pairwise (· < ·) ∧
      ∀ c t, (c, t) ∈ Z ↔ c < u.numLocal ∧ ∃ v st, u.mesh.OrigCell c v ∧ HasStatus u.dom.n u.dom.tree v st ∧
        tagOf cutTag fullTag emptyTag st = some t := by
  obtain ⟨Z1, s1, a1, a2, a3, a4⟩ := addCells_ok hs hu .cut (by simp) cutTag [] (by simp) (tagOf cutTag fullTag emptyTag) rfl [] s hk
    (by simp) (by simp)
  obtain ⟨Z2, s2, b1, b2, b3, b4⟩ := addCells_ok hs hu .full (by simp) fullTag _ (by simp) (tagOf cutTag fullTag emptyTag) rfl Z1 s1 a2 a3 a4
  obtain ⟨Z, s3, c1, c2, c3, c4⟩ := addCells_ok hs hu .empty (by simp) emptyTag _ (by simp) (tagOf cutTag fullTag emptyTag) rfl Z2 s2 b2 b3 b4
  obtain ⟨p1, p2⟩ := hs (Z.map fun p => Int.ofNat p.1)
  let idx := argsort (Z.map fun p => Int.ofNat p.1)
  have hidx : ∀ i ∈ idx, i < Z.length := by
    intro i hi
    have := List.mem_range.1 (p1.mem_iff.1 hi)
    simpa using this
  have hget : ∀ {β : Type} (g : Nat × Nat → β) (d : β), take (Z.map g) idx = some ((idx.map fun i => Z.getD i (0, 0)).map g) := by
    intro β g d
    rw [take_getD d (by simpa using hidx)]
    refine congrArg some ?_
    rw [List.map_map]
    refine List.map_congr_left fun i hi => ?_
    have := hidx i hi
    simp [this]
  have hperm : (idx.map fun i => Z.getD i (0, 0)).Perm Z := by
    have h := p1.map fun i => Z.getD i (0, 0)
    have e : (List.range Z.length).map (fun i => Z.getD i (0, 0)) = Z := by
      refine List.ext_getElem (by simp) fun i h1 h2 => ?_
      simp [h2]
    rw [List.length_map, e] at h
    exact h
  refine ⟨idx.map fun i => Z.getD i (0, 0), s3, ?_, c2, ?_, fun c t => ?_⟩
  · unfold cellTags
    have a1' : addCells argsort u .cut cutTag ([], [], s) = _ := a1
    rw [a1', Option.bind_some, b1, Option.bind_some, c1, Option.bind_some]
    show (take (Z.map _) idx).bind _ = _
    rw [hget _ 0, Option.bind_some]
    show (take (Z.map Prod.snd) idx).map _ = _
    rw [hget _ 0, Option.map_some]
  · have hle : ((idx.map fun i => Z.getD i (0, 0)).map Prod.fst).Pairwise (· ≤ ·) := by
      rw [List.map_map, List.pairwise_map]
      rw [List.pairwise_map] at p2
      refine List.Pairwise.imp_of_mem ?_ p2
      intro i j hi hj h
      have hi' := hidx i hi
      have hj' := hidx j hj
      simp [hi', hj'] at h ⊢
      exact h
    have hn : ((idx.map fun i => Z.getD i (0, 0)).map Prod.fst).Nodup := (hperm.map _).nodup_iff.2 c3
    exact (hle.and hn).imp fun h => lt_of_le_of_ne h.1 h.2
  · rw [hperm.mem_iff, c4]
    constructor
    · rintro ⟨h, v, st, a, -, b, c⟩
      exact ⟨h, v, st, a, b, c⟩
    · rintro ⟨h, v, st, a, b, c⟩
      refine ⟨h, v, st, a, ?_, b, c⟩
      cases st <;> simp [tagOf] at c ⊢

/-- The queries of facets do not touch the caches of cells. -/
theorem ask_cells {argsort : List Int → List Nat} {u : UDomain} (q : Query) (s s' : Caches) (r : Facets)
    (h : ask argsort u q s = some (r, s')) :
    s'.cutCells = s.cutCells ∧ s'.fullCells = s.fullCells ∧ s'.emptyCells = s.emptyCells := by
  have hci : ∀ (s s' : Caches) r, cutInt argsort u s = some (r, s') →
      s'.cutCells = s.cutCells ∧ s'.fullCells = s.fullCells ∧ s'.emptyCells = s.emptyCells := by
    intro s s' r h
    unfold cutInt at h
    split at h
    · cases h; exact ⟨rfl, rfl, rfl⟩
    · rw [Option.map_eq_some_iff] at h
      obtain ⟨x, -, e⟩ := h
      cases e; exact ⟨rfl, rfl, rfl⟩
  rcases q with (_ | _) | (_ | _) | (_ | _)
  · exact hci s s' r h
  · simp only [ask, cutExt] at h
    split at h
    · cases h; exact ⟨rfl, rfl, rfl⟩
    · rw [Option.bind_eq_some_iff] at h
      obtain ⟨x, -, h⟩ := h
      rw [Option.bind_eq_some_iff] at h
      obtain ⟨y, -, h⟩ := h
      split at h
      · cases h; exact ⟨rfl, rfl, rfl⟩
      · rw [Option.map_eq_some_iff] at h
        obtain ⟨x, -, e⟩ := h
        cases e; exact ⟨rfl, rfl, rfl⟩
  · simp only [ask, fullInt] at h
    split at h
    · cases h; exact ⟨rfl, rfl, rfl⟩
    · rw [Option.map_eq_some_iff] at h
      obtain ⟨x, -, e⟩ := h
      cases e; exact ⟨rfl, rfl, rfl⟩
  · simp only [ask, fullExt] at h
    split at h
    · cases h; exact ⟨rfl, rfl, rfl⟩
    · rw [Option.bind_eq_some_iff] at h
      obtain ⟨x, -, h⟩ := h
      rw [Option.map_eq_some_iff] at h
      obtain ⟨x, -, e⟩ := h
      cases e; exact ⟨rfl, rfl, rfl⟩
  · simp only [ask, emptyInt] at h
    split at h
    · cases h; exact ⟨rfl, rfl, rfl⟩
    · rw [Option.bind_eq_some_iff] at h
      obtain ⟨x, -, h⟩ := h
      rw [Option.bind_eq_some_iff] at h
      obtain ⟨y, -, h⟩ := h
      split at h
      · cases h; exact ⟨rfl, rfl, rfl⟩
      · rw [Option.map_eq_some_iff] at h
        obtain ⟨⟨z, s1⟩, hz, e⟩ := h
        obtain ⟨e1, e2, e3⟩ := hci _ _ _ hz
        split at e <;> cases e <;> exact ⟨e1, e2, e3⟩
  · simp only [ask, emptyExt] at h
    split at h
    · cases h; exact ⟨rfl, rfl, rfl⟩
    · rw [Option.map_eq_some_iff] at h
      obtain ⟨x, -, e⟩ := h
      cases e; exact ⟨rfl, rfl, rfl⟩

/-- **C66** (`get_num_Gauss_points`): the smallest number of points (at least one) whose Gauss rule has the degree. -/
theorem C66_gauss (degree : Nat) :
    1 ≤ numGaussPoints degree ∧ degree ≤ 2 * numGaussPoints degree - 1 ∧
      ∀ n, 1 ≤ n → degree ≤ 2 * n - 1 → numGaussPoints degree ≤ n := by
  unfold numGaussPoints
  refine ⟨le_max_right _ _, ?_, ?_⟩
  · have h := Nat.le_ceil (((degree : ℚ) + 1) / 2)
    have h2 : ((degree : ℚ) + 1) ≤ ((2 * ⌈((degree : ℚ) + 1) / 2⌉₊ : Nat) : ℚ) := by push_cast; linarith
    have h3 : degree + 1 ≤ 2 * ⌈((degree : ℚ) + 1) / 2⌉₊ := by exact_mod_cast h2
    have := le_max_left ⌈((degree : ℚ) + 1) / 2⌉₊ 1
    omega
  · intro n h1 h
    refine max_le (Nat.ceil_le.2 ?_) h1
    have h2 : degree + 1 ≤ 2 * n := by omega
    have h3 : ((degree + 1 : Nat) : ℚ) ≤ ((2 * n : Nat) : ℚ) := by exact_mod_cast h2
    push_cast at h3
    linarith

/-- **C66** (`UnfittedCartMesh`): without the empty cells, the active cells are exactly the full and cut ones, in increasing order;
otherwise there is no list of active cells (all of them are). -/
theorem C66_active {d : Dom} (hd : DomFacts d) :
    (∃ act, activeCells d true = some (some act) ∧ act.Pairwise (· < ·) ∧
      ∀ c, c ∈ act ↔ HasStatus d.n d.tree c .full ∨ HasStatus d.n d.tree c .cut) ∧ activeCells d false = some none := by
  refine ⟨?_, rfl⟩
  obtain ⟨hc9, -, -, -⟩ := C09_cells_by_status d.n hd.shape d.tree hd.reach
  obtain ⟨fl, a1, a2, a3, -⟩ := hc9 .full
  obtain ⟨ct, b1, b2, b3, -⟩ := hc9 .cut
  refine ⟨(fl ++ ct).insertionSort (· ≤ ·), ?_, ?_, fun c => ?_⟩
  · simp [activeCells, a1, b1]
  · have hle : ((fl ++ ct).insertionSort (· ≤ ·)).Pairwise (· ≤ ·) := List.pairwise_insertionSort _ _
    have hn : ((fl ++ ct).insertionSort (· ≤ ·)).Nodup := by
      rw [(List.perm_insertionSort _ _).nodup_iff, List.nodup_append]
      refine ⟨a2.imp fun h => Nat.ne_of_lt h, b2.imp fun h => Nat.ne_of_lt h, ?_⟩
      rintro a ha b hb rfl
      have := (Tree.WF.of_reachable hd.shape.2 hd.reach).1.hasStatus_unique ((a3 a).1 ha) ((b3 a).1 hb)
      simp at this
    exact (hle.and hn).imp fun h => lt_of_le_of_ne h.1 h.2
  · rw [(List.perm_insertionSort _ _).mem_iff, List.mem_append, a3, b3]

/-! ### A domain whose boundary is on an interior facet -/

/-- The domain x < 1 on the grid with the cells [0,1] and [1,2] (times [0,1]): the first cell is full, with unfitted boundary on its
right facet, the second one is empty. -/
def halfOracles : Oracles ℚ where
  sign := fun _ => .undetermined
  cell := fun b => match b with
    | iv :: _ => if iv.1 < 1 then .fullUnf else .empty
    | [] => .empty
  facet := fun _ f _ => if f = 1 then .fullUnf else .full
  margin := 1 / 1000

/-- The C++ domain. -/
def halfDom : Dom := match build true halfOracles [[0, 1, 2], [0, 1]] none with
  | .ok d => d
  | .error _ => ⟨[], .leaf ⟨[], []⟩ .empty, [], []⟩

/-- The mesh of all the cells, in one process; the facets of each cell in the order of basix: bottom, left, right, top. -/
def halfDomain : UDomain where
  mesh := ⟨none, [], [0, 1], []⟩
  topo := ⟨7, [[0, 1, 2, 3], [4, 2, 5, 6]], [[0], [0], [0, 1], [0], [1], [1], [1]]⟩
  shared := fun _ => false
  range := (0, 7)
  numLocal := 2
  dom := halfDom

theorem halfDomain_ok : halfDomain.Ok 2 := by
  have hn : halfDom.n = [2, 1] := by decide +kernel
  refine ⟨⟨by decide, by decide, by decide, by intro a h; simp [halfDomain] at h⟩, ?_, ?_, ?_, ?_, ⟨?_, by decide, by decide⟩, by decide, rfl, ?_,
    rfl, by decide⟩
  · obtain ⟨d, h1, h2, -⟩ := build_facts true halfOracles [[0, 1, 2], [0, 1]] none (by unfold Grid.Valid; decide +kernel) (by simp) (.inr rfl)
    have : halfDomain.dom = d := by
      show halfDom = d
      unfold halfDom
      rw [h1]
    rw [this]; exact h2
  · show 1 ≤ halfDom.n.length; rw [hn]; decide
  · show halfDom.n.length ≤ 3; rw [hn]; decide
  · intro l v h
    rw [origCell_iff] at h
    obtain ⟨o, h1, h2⟩ := h
    show v < listProd halfDom.n
    rw [hn]
    have hmem := List.mem_of_getElem? h1
    have : o = v := by simpa [halfDomain] using h2
    subst this
    revert hmem
    show o ∈ [0, 1] → _
    simp only [List.mem_cons, List.not_mem_nil, or_false]
    rintro (rfl | rfl) <;> decide
  · intro f c cs h
    have hf := (List.getElem?_eq_some_iff.1 h).1
    have hf' : f < 7 := hf
    have key : ∀ f < 7, ∀ c < 2, (c ∈ (halfDomain.topo.facetCells.getD f [])) = (f ∈ halfDomain.topo.cellFacets.getD c []) := by
      intro f hf c hc
      have : ∀ f < 7, ∀ c < 2, decide (c ∈ (halfDomain.topo.facetCells.getD f [])) = decide (f ∈ halfDomain.topo.cellFacets.getD c []) := by decide
      have := this f hf c hc
      simpa using this
    have hcs : halfDomain.topo.facetCells.getD f [] = cs := by rw [List.getD_eq_getElem?_getD, h]; rfl
    by_cases hc : c < 2
    · have := key f hf' c hc
      rw [hcs] at this
      rw [this, List.getD_eq_getElem?_getD]
      have hc' : c < halfDomain.topo.cellFacets.length := hc
      rw [List.getElem?_eq_getElem hc']
      simp
    · have h1 : ∀ f < 7, ∀ x ∈ halfDomain.topo.facetCells.getD f [], x < 2 := by decide
      constructor
      · intro hm
        exact absurd (h1 f hf' c (by rw [hcs]; exact hm)) hc
      · rintro ⟨row, hr, -⟩
        have hlt := (List.getElem?_eq_some_iff.1 hr).1
        have : halfDomain.topo.cellFacets.length = 2 := rfl
        omega
  · intro row hr
    have : ∀ row ∈ halfDomain.topo.cellFacets, row.length = 4 := by decide
    rw [this row hr]
    show 4 = 2 * halfDom.n.length
    rw [hn]; rfl

theorem argsort_two {argsort : List Int → List Nat} (hs : ∀ l, IsArgsort l (argsort l)) : argsort [0, 1] = [0, 1] := by
  obtain ⟨h1, h2⟩ := hs [0, 1]
  have hl : (argsort [0, 1]).length = 2 := h1.length_eq
  have hn : (argsort [0, 1]).Nodup := h1.nodup_iff.2 List.nodup_range
  have hm : ∀ x ∈ argsort [0, 1], x < 2 := fun x hx => by simpa using h1.mem_iff.1 hx
  generalize argsort [0, 1] = l at h2 hl hn hm
  match l, hl with
  | [a, b], _ =>
    have key : ∀ a < 2, ∀ b < 2, [a, b].Nodup → ([a, b].map fun i => ([0, 1] : List Int).getD i 0).Pairwise (· ≤ ·) → [a, b] = [0, 1] := by decide
    exact key a (hm a (by simp)) b (hm b (by simp)) hn h2

theorem half_ask {argsort : List Int → List Nat} (hs : ∀ l, IsArgsort l (argsort l)) (q : Query) :
    ask argsort halfDomain q = ask (fun _ => [0, 1]) halfDomain q := by
  have h : ∀ l, halfDomain.mesh.dlfCells argsort l = halfDomain.mesh.dlfCells (fun _ => [0, 1]) l := by
    intro l
    simp only [PyMesh.dlfCells, halfDomain, Option.bind_some]
    unfold findInArray
    have e : argsort (List.map Int.ofNat [0, 1]) = [0, 1] := argsort_two hs
    rw [e]
  have hg : getFacets argsort halfDomain = getFacets (fun _ => [0, 1]) halfDomain := by
    unfold getFacets toDolfinx
    simp only [h]
  have hc : cutInt argsort halfDomain = cutInt (fun _ => [0, 1]) halfDomain := by
    unfold cutInt; rw [hg]
  rcases q with (_ | _) | (_ | _) | (_ | _)
  · exact hc
  · show cutExt _ _ = cutExt _ _
    unfold cutExt; rw [hg]
  · show fullInt _ _ = fullInt _ _
    unfold fullInt; rw [hg]
  · show fullExt _ _ = fullExt _ _
    unfold fullExt; rw [hg]
  · show emptyInt _ _ = emptyInt _ _
    unfold emptyInt; rw [hg, hc]
  · show emptyExt _ _ = emptyExt _ _
    unfold emptyExt; rw [hg]

/-- **C66** (failure): in the domain x < 1 (`halfDomain`) the query of the interior empty facets does not return the facet with
unfitted boundary (the right one of the first cell), which the documentation says it contains, and it changes what the query of the
interior cut facets returns: no facet at all before, the two sides of the facet between the cells after. -/
theorem C66_history_fails {argsort : List Int → List Nat} (hs : ∀ l, IsArgsort l (argsort l)) :
    halfDomain.Answer (.empty false) 0 2 ∧ ¬ halfDomain.Answer (.cut false) 0 2 ∧
    ∃ s, ask argsort halfDomain (.empty false) {} = some ([(1, 1)], s) ∧
      (∃ s', ask argsort halfDomain (.cut false) s = some ([(0, 2), (1, 1)], s')) ∧
      ∃ s'', ask argsort halfDomain (.cut false) {} = some ([], s'') := by
  have hn : halfDom.n = [2, 1] := by decide +kernel
  have hcell : ∀ v, halfDomain.mesh.OrigCell 0 v → v = 0 := by
    intro v h
    rw [origCell_iff] at h
    obtain ⟨o, h1, h2⟩ := h
    have e1 : o = 0 := (Option.some.inj h1).symm
    have e2 : o = v := by simpa [halfDomain] using h2
    omega
  have hcell0 : halfDomain.mesh.OrigCell 0 0 := by
    rw [origCell_iff]; exact ⟨0, rfl, rfl⟩
  have hside : SideFacet halfDomain.dim 2 1 := by
    show SideFacet halfDom.n.length 2 1
    rw [hn]
    exact ⟨_, rfl, by decide⟩
  have hsays : ∀ (p : Nat → Nat → Option Bool), halfDomain.Says p 0 2 ↔ p 0 1 = some true := by
    intro p
    have hd : halfDomain.dim = 2 := by show halfDom.n.length = 2; rw [hn]; rfl
    constructor
    · rintro ⟨v, g, h1, h2, h3, h4⟩
      have e1 := hcell v h1
      have e2 : g = 1 := sideFacet_inj (by omega) (by omega) (by omega) h2 (by omega) h3 hside
      rw [← e1, ← e2]; exact h4
    · intro h
      exact ⟨0, 1, hcell0, by omega, hside, h⟩
  have hext : ¬ halfDomain.Ext 2 := by
    rintro ⟨-, h, -⟩
    exact absurd h (by decide)
  refine ⟨⟨2, ⟨_, rfl, rfl⟩, by decide, hext, .inr ⟨(hsays _).2 ?_, fun h => ?_⟩⟩, ?_, ?_⟩
  · show halfDom.hasUnfFacet 0 1 = some true
    decide +kernel
  · have := (hsays _).1 h
    revert this
    show ¬ halfDom.isCutFacet 0 1 = some true
    decide +kernel
  · rintro ⟨f, -, -, -, h⟩
    have := (hsays _).1 h
    revert this
    show ¬ halfDom.isCutFacet 0 1 = some true
    decide +kernel
  · rw [half_ask hs, half_ask hs]
    have hsome : ∀ {β : Type} (o : Option (Facets × Caches)) (r : Facets), o.map (·.1) = some r → ∃ s, o = some (r, s) := by
      intro β o r h
      rw [Option.map_eq_some_iff] at h
      obtain ⟨⟨a, b⟩, rfl, rfl⟩ := h
      exact ⟨b, rfl⟩
    obtain ⟨s, h1⟩ := hsome (β := Unit) (ask (fun _ => [0, 1]) halfDomain (.empty false) {}) [(1, 1)] (by decide +kernel)
    refine ⟨s, h1, hsome (β := Unit) _ _ ?_, hsome (β := Unit) _ _ (by decide +kernel)⟩
    have h2 : ((ask (fun _ => [0, 1]) halfDomain (.empty false) {}).bind fun x => (ask (fun _ => [0, 1]) halfDomain (.cut false) x.2).map (·.1)) =
        some [(0, 2), (1, 1)] := by decide +kernel
    rw [h1, Option.bind_some] at h2
    exact h2

end UDomain
end Qugar.Py
