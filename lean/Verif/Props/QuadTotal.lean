import Verif.Props.Quadrature
import Verif.Props.BBox
import Mathlib.Tactic.NormNum
/-
Property theorems C18, C19, C51: the quadrature functions do not fail on constructed domains (release builds), and the
assertion that fails in debug builds; C22, C24: tensor-product rules and mapping to the unit cube.
-/
namespace Qugar
open Spec Tree
variable {K : Type} [Field K] [LinearOrder K]

theorem isCell_defined {d : Dom} (hF : DomFacts d) {c : Nat} (hc : c < listProd d.n) (s : Status) :
    ∃ b, d.tree.isCell d.n s c = some b := by
  obtain ⟨hw, hroot⟩ := WF.of_reachable hF.shape.2 hF.reach
  have hin : CellIn d.n d.tree.range c := by rw [hroot]; exact cellIn_root.2 hc
  by_cases h : HasStatus d.n d.tree c s
  · exact ⟨true, (hw.isCell_iff c s).2 h⟩
  · exact ⟨false, hw.isCell_false hin _ h⟩

theorem isCutCell_defined {d : Dom} (hF : DomFacts d) {c : Nat} (hc : c < listProd d.n) :
    ∃ b, d.isCutCell c = some b := by
  unfold Dom.isCutCell
  split
  · exact isCell_defined hF hc _
  · exact ⟨_, rfl⟩

theorem facetQuery_defined {d : Dom} (hF : DomFacts d) (p : FStatus → Bool) (other : Option Bool) {c f : Nat}
    (hf : f < d.n.length * 2) (ho : ∃ b, other = some b) : ∃ b, d.facetQuery p other c f = some b := by
  unfold Dom.facetQuery Dom.nFacets
  rw [if_pos hf]
  have e : d.facets.find? c = FacetRecord d c := rfl
  rw [e]
  cases hr : FacetRecord d c with
  | none => exact ho
  | some v =>
    have hl := hF.lens c v hr
    have : v[f]? = some (v.getD f .empty) := by
      rw [List.getD_eq_getElem?_getD, List.getElem?_eq_getElem (by omega)]; rfl
    exact ⟨p (v.getD f .empty), by simp only [this, Option.map_some]⟩

theorem cellDomain_defined (g : Grid K) {c : Nat} (hc : c < listProd g.numCellsDir) :
    ∃ dom, g.cellDomain c = some dom := by
  unfold Grid.cellDomain
  rw [unflat_eq hc]
  exact ⟨_, rfl⟩

theorem onBoundary_defined (g : Grid K) {c f : Nat} (hc : c < listProd g.numCellsDir) (hf : f < g.length * 2) :
    ∃ b, g.onBoundary c f = some b := by
  unfold Grid.onBoundary
  rw [if_pos hf, unflat_eq hc]
  exact ⟨_, rfl⟩

theorem create01_defined (t : QuadType K) (dim n : Nat) (hd : 1 ≤ dim ∧ dim ≤ 3) (hn : 1 ≤ n ∧ n ≤ t.nMax) :
    create01 t dim n = some (.ofNodes (unitRule t dim n)) := by
  rw [create01_eq, if_pos ⟨hd.1, hd.2, hn.1, hn.2⟩]

theorem cellQuad_total {d : Dom} (hF : DomFacts d) (t : QuadType K) (o : QOracle K) (g : Grid K)
    (hdg : d.n = g.numCellsDir) (hg : g.length = 2 ∨ g.length = 3) (n c : Nat) (hc : c < listProd d.n)
    (hn : 1 ≤ n ∧ n ≤ t.nMax) (ch : Cache K) (hch : CacheOk t ch) (q : CellsQuad K) :
    ∃ x, cellQuad t o g d n c ch q = some x := by
  obtain ⟨cut, h1⟩ := isCutCell_defined hF hc
  obtain ⟨full, h2⟩ := isCell_defined hF hc .full
  obtain ⟨dom, h3⟩ := cellDomain_defined g (hdg ▸ hc)
  unfold cellQuad Dom.isFullCell
  dsimp only
  rw [if_pos (by omega), h1, h2, h3, refreshRule_eq t _ n _ (cellSetSize_eq _ n hg) (by omega) _ (hch.1 _),
    create01_defined t _ n (by omega) hn]
  cases cut
  · cases full
    · exact ⟨_, rfl⟩
    · exact ⟨_, rfl⟩
  · exact ⟨_, rfl⟩

theorem cellLoop_total {d : Dom} (hF : DomFacts d) (t : QuadType K) (o : QOracle K) (g : Grid K)
    (hdg : d.n = g.numCellsDir) (hg : g.length = 2 ∨ g.length = 3) (n : Nat) (hn : 1 ≤ n ∧ n ≤ t.nMax)
    (cells : List Nat) (hl : ∀ c ∈ cells, c < listProd d.n) (ch : Cache K) (hch : CacheOk t ch) (q : CellsQuad K) :
    ∃ x, cellLoop t o g d n cells ch q = some x := by
  induction cells generalizing ch q with
  | nil => exact ⟨_, rfl⟩
  | cons c cs ih =>
    obtain ⟨y, hy⟩ := cellQuad_total hF t o g hdg hg n c (hl c (by simp)) hn ch hch q
    have hok := (cellQuad_spec t o g d n c ch hg hch q y hy).1
    obtain ⟨x, hx⟩ := ih (fun c hc => hl c (by simp [hc])) y.1 hok y.2
    exact ⟨x, by rw [cellLoop, hy]; exact hx⟩

/-- **C18** (no failure). On a constructed domain, for grid cells and supported numbers of points, the cell quadrature
is always created, after any history. -/
theorem C18_cell_quadrature_total (debug debug' : Bool) (oo : Oracles K) (g : Grid K) (targets : Option (List Nat))
    (hv : g.Valid) (hg : g.length = 2 ∨ g.length = 3) (hdb : debug = false ∨ targets = none) (t : QuadType K)
    (history : List (QuadCall K)) (hd : ∀ c ∈ history, c.dim = 2 ∨ c.dim = 3) (ch : Cache K)
    (hr : QuadCall.execAll debug' t history Cache.init = some ch) (o : QOracle K) (cells : List Nat)
    (hcells : ∀ c ∈ cells, c < g.numCells) (n : Nat) (hn : 1 ≤ n ∧ n ≤ t.nMax) :
    ∃ d x, build debug oo g targets = .ok d ∧ createQuadrature t o g d cells n ch = some x := by
  have hne : g ≠ [] := by rintro rfl; simp at hg
  obtain ⟨d, h1, hF, _⟩ := build_facts debug oo g targets hv hne hdb
  obtain ⟨d', h1', h2, _⟩ := build_summary debug oo g targets hv hne hdb
  have : d = d' := by rw [h1] at h1'; simpa using h1'
  subst this
  refine ⟨d, ?_⟩
  have hch := execAll_ok debug' t history hd _ ch (CacheOk.init t) hr
  have hl : ∀ c ∈ cells, c < listProd d.n := by
    intro c hc
    have := hcells c hc
    rw [h2]
    simpa [Grid.numCells, tsize_eq] using this
  unfold createQuadrature
  rw [if_pos (by omega)]
  obtain ⟨x, hx⟩ := cellLoop_total hF t o g h2 hg n hn cells hl ch hch ⟨cells, [], [], []⟩
  exact ⟨x, h1, hx⟩

theorem facetQuad_total {d : Dom} (hF : DomFacts d) (t : QuadType K) (o : QOracle K) (g : Grid K)
    (hdg : d.n = g.numCellsDir) (hg : g.length = 2 ∨ g.length = 3) (n c f : Nat) (hc : c < listProd d.n)
    (hf : f < g.length * 2) (remUnf remCut : Bool)
    (hn : 1 ≤ n ∧ n ≤ t.nMax) (ch : Cache K) (hch : CacheOk t ch) (q : FacetsQuad K) :
    ∃ x, facetQuad false t o g d n c f remUnf remCut ch q = some x := by
  have hf' : f < d.n.length * 2 := by rw [hdg]; simpa [Grid.numCellsDir] using hf
  obtain ⟨fu, h1⟩ := facetQuery_defined hF FStatus.isFullUnfitted (some false) (c := c) hf' ⟨_, rfl⟩
  obtain ⟨fl, h2⟩ := facetQuery_defined hF FStatus.isFull (d.isFullCell c) (c := c) hf' (isCell_defined hF hc _)
  obtain ⟨cut, h3⟩ := facetQuery_defined hF FStatus.isCut (some false) (c := c) hf' ⟨_, rfl⟩
  obtain ⟨unf, h4⟩ := facetQuery_defined hF FStatus.hasUnfitted (some false) (c := c) hf' ⟨_, rfl⟩
  obtain ⟨dom, h5⟩ := cellDomain_defined g (hdg ▸ hc)
  have hp : ∀ q1, ∃ q2, purgeFacet o g d c f remUnf true remCut q1 = some q2 := by
    intro q1
    unfold purgeFacet Dom.hasUnfFacet Dom.isCutFacet
    rw [h4, h3, h5]
    simp only [Option.bind_some]
    cases remCut
    · simp only [Bool.false_eq_true, if_false, Option.bind_some]
      split
      · exact ⟨_, rfl⟩
      · exact ⟨_, rfl⟩
    · simp only [if_true, Option.bind_some]
      split
      · exact ⟨_, rfl⟩
      · exact ⟨_, rfl⟩
  unfold facetQuad algoimFacet Dom.isFullUnfFacet Dom.isFullFacet Dom.isCutFacet Dom.hasUnfFacet
  dsimp only
  rw [if_pos ⟨hf, by omega⟩, h1, h2, h3, h4, h5,
    refreshRule_eq t _ n _ (facetSetSize_eq _ n hg) (by omega) _ (hch.2 _), create01_defined t _ n (by omega) hn]
  have halg : ∀ q1, ∃ y, ((purgeFacet o g d c f remUnf true remCut q1).map fun q2 => (ch, q2)) = some y := by
    intro q1
    obtain ⟨q2, h⟩ := hp q1
    exact ⟨_, by rw [h]; rfl⟩
  cases fu
  · cases fl
    · cases cut
      · cases unf
        · exact ⟨_, rfl⟩
        · exact halg _
      · exact halg _
    · exact ⟨_, rfl⟩
  · cases remUnf
    · exact ⟨_, rfl⟩
    · exact ⟨_, rfl⟩

theorem facetCreator_total {d : Dom} (hF : DomFacts d) (t : QuadType K) (o : QOracle K) (g : Grid K)
    (hdg : d.n = g.numCellsDir) (hg : g.length = 2 ∨ g.length = 3) (n : Nat) (kind : FacetIntegral) (c f : Nat)
    (hc : c < listProd d.n) (hf : f < g.length * 2)
    (hn : 1 ≤ n ∧ n ≤ t.nMax) (ch : Cache K) (hch : CacheOk t ch) (q : FacetsQuad K) :
    ∃ x, facetCreator false t o g d n kind c f ch q = some x := by
  have hf' : f < d.n.length * 2 := by rw [hdg]; simpa [Grid.numCellsDir] using hf
  obtain ⟨ext, h1⟩ := onBoundary_defined g (hdg ▸ hc) hf
  obtain ⟨unf, h2⟩ := facetQuery_defined hF FStatus.hasUnfitted (some false) (c := c) hf' ⟨_, rfl⟩
  unfold facetCreator Dom.hasUnfFacet
  rw [h1, h2]
  have hq := fun a b => facetQuad_total hF t o g hdg hg n c f hc hf a b hn ch hch q
  cases kind <;> cases ext <;> cases unf <;> first | exact hq _ _ | exact ⟨_, rfl⟩

theorem facetLoop_total {d : Dom} (hF : DomFacts d) (t : QuadType K) (o : QOracle K) (g : Grid K)
    (hdg : d.n = g.numCellsDir) (hg : g.length = 2 ∨ g.length = 3) (n : Nat) (hn : 1 ≤ n ∧ n ≤ t.nMax)
    (kind : FacetIntegral) (cfs : List (Nat × Nat)) (hl : ∀ cf ∈ cfs, cf.1 < listProd d.n ∧ cf.2 < g.length * 2)
    (ch : Cache K) (hch : CacheOk t ch) (q : FacetsQuad K) (hq : q.points.length = q.weights.length) :
    ∃ x, facetLoop false t o g d n kind cfs ch q = some x := by
  induction cfs generalizing ch q with
  | nil => exact ⟨_, rfl⟩
  | cons cf cs ih =>
    obtain ⟨c, f⟩ := cf
    obtain ⟨h1, h2⟩ := hl (c, f) (by simp)
    obtain ⟨y, hy⟩ := facetCreator_total hF t o g hdg hg n kind c f h1 h2 hn ch hch q
    obtain ⟨hok, b, _, hb⟩ := facetCreator_spec false t o g d n kind c f ch hg hch q hq y hy
    obtain ⟨x, hx⟩ := ih (fun c hc => hl c (by simp [hc])) y.1 hok y.2 (by simp [hb, FacetsQuad.push, hq])
    exact ⟨x, by rw [facetLoop, hy]; exact hx⟩

/-- **C19** (no failure, release builds). -/
theorem C19_facet_quadrature_total (debug debug' : Bool) (oo : Oracles K) (g : Grid K) (targets : Option (List Nat))
    (hv : g.Valid) (hg : g.length = 2 ∨ g.length = 3) (hdb : debug = false ∨ targets = none) (t : QuadType K)
    (history : List (QuadCall K)) (hd : ∀ c ∈ history, c.dim = 2 ∨ c.dim = 3) (ch : Cache K)
    (hr : QuadCall.execAll debug' t history Cache.init = some ch) (o : QOracle K) (kind : FacetIntegral)
    (cells facets : List Nat) (hlen : cells.length = facets.length)
    (hcells : ∀ c ∈ cells, c < g.numCells) (hfacets : ∀ f ∈ facets, f < g.length * 2) (n : Nat)
    (hn : 1 ≤ n ∧ n ≤ t.nMax) :
    ∃ d x, build debug oo g targets = .ok d ∧
      createFacetsQuadrature false t o g d kind cells facets n ch = some x := by
  have hne : g ≠ [] := by rintro rfl; simp at hg
  obtain ⟨d, h1, hF, _⟩ := build_facts debug oo g targets hv hne hdb
  obtain ⟨d', h1', h2, _⟩ := build_summary debug oo g targets hv hne hdb
  have : d = d' := by rw [h1] at h1'; simpa using h1'
  subst this
  refine ⟨d, ?_⟩
  have hch := execAll_ok debug' t history hd _ ch (CacheOk.init t) hr
  have hl : ∀ cf ∈ cells.zip facets, cf.1 < listProd d.n ∧ cf.2 < g.length * 2 := by
    intro cf hcf
    have := hcells cf.1 (List.of_mem_zip hcf).1
    refine ⟨?_, hfacets cf.2 (List.of_mem_zip hcf).2⟩
    rw [h2]
    simpa [Grid.numCells, tsize_eq] using this
  unfold createFacetsQuadrature
  rw [if_pos ⟨hlen, by omega⟩]
  obtain ⟨x, hx⟩ := facetLoop_total hF t o g h2 hg n hn kind _ hl ch hch ⟨cells, facets, [], [], []⟩ rfl
  exact ⟨x, h1, hx⟩

theorem purgeUnfLoop_total {d : Dom} (hF : DomFacts d) (o : QOracle K) (g : Grid K)
    (hdg : d.n = g.numCellsDir) (c : Nat) (hc : c < listProd d.n) (fs : List Nat)
    (hfs : ∀ f ∈ fs, f < g.length * 2) (q : UnfQuad K) : ∃ x, purgeUnfLoop o g d c fs q = some x := by
  induction fs generalizing q with
  | nil => exact ⟨_, rfl⟩
  | cons f fs ih =>
    have hf' : f < d.n.length * 2 := by rw [hdg]; simpa [Grid.numCellsDir] using hfs f (by simp)
    obtain ⟨unf, h1⟩ := facetQuery_defined hF FStatus.hasUnfitted (some false) (c := c) hf' ⟨_, rfl⟩
    obtain ⟨ext, h2⟩ := facetQuery_defined hF FStatus.hasExternal (some false) (c := c) hf' ⟨_, rfl⟩
    obtain ⟨dom, h3⟩ := cellDomain_defined g (hdg ▸ hc)
    have ih' := ih (fun f hf => hfs f (by simp [hf]))
    unfold purgeUnfLoop purgeUnf Dom.hasUnfFacet Dom.hasExtFacet
    rw [h1, h2, h3]
    cases unf
    · exact ih' q
    · exact ih' _

theorem addUnfLoop_total {d : Dom} (hF : DomFacts d) (t : QuadType K) (o : QOracle K) (g : Grid K)
    (hdg : d.n = g.numCellsDir) (hg : g.length = 2 ∨ g.length = 3) (n c : Nat) (hc : c < listProd d.n)
    (hn : 1 ≤ n ∧ n ≤ t.nMax) (exclExt : Bool) (fs : List Nat) (hfs : ∀ f ∈ fs, f < g.length * 2) (ch : Cache K)
    (hch : CacheOk t ch) (q : UnfQuad K) : ∃ x, addUnfLoop false t o g d n c exclExt fs ch q = some x := by
  induction fs generalizing ch q with
  | nil => exact ⟨_, rfl⟩
  | cons f fs ih =>
    have hf := hfs f (by simp)
    have hf' : f < d.n.length * 2 := by rw [hdg]; simpa [Grid.numCellsDir] using hf
    obtain ⟨unf, h1⟩ := facetQuery_defined hF FStatus.hasUnfitted (some false) (c := c) hf' ⟨_, rfl⟩
    have h1' : d.hasUnfFacet c f = some unf := h1
    obtain ⟨ext, h2⟩ := onBoundary_defined g (hdg ▸ hc) hf
    have ih' := ih (fun f hf => hfs f (by simp [hf]))
    rw [addUnfLoop, h1']
    simp only [Option.bind_some]
    have hadd : unf = true → ∃ y, addUnfBdry false t o g d n c f ch q = some y ∧ CacheOk t y.1 := by
      intro hu
      obtain ⟨y, hy⟩ := facetQuad_total hF t o g hdg hg n c f hc hf false true hn ch hch ⟨[], [], [], [], []⟩
      have hok := (facetQuad_spec false t o g d n c f _ _ ch hg hch _ rfl y hy).1
      unfold addUnfBdry
      rw [h1', hu, hy]
      exact ⟨_, rfl, hok⟩
    cases unf
    · exact ih' ch hch q
    · obtain ⟨y, hy, hok⟩ := hadd rfl
      rw [if_pos rfl, hy]
      cases exclExt
      · simp only [Bool.false_eq_true, if_false, Option.bind_some]
        exact ih' _ hok _
      · rw [if_pos rfl, h2]
        cases ext
        · simp only [Bool.false_eq_true, if_false, Option.bind_some]
          exact ih' _ hok _
        · exact ih' ch hch q

theorem unfQuad_total {d : Dom} (hF : DomFacts d) (t : QuadType K) (o : QOracle K) (g : Grid K)
    (hdg : d.n = g.numCellsDir) (hg : g.length = 2 ∨ g.length = 3) (n c : Nat) (hc : c < listProd d.n)
    (hn : 1 ≤ n ∧ n ≤ t.nMax) (incl exclExt : Bool) (ch : Cache K)
    (hch : CacheOk t ch) (q : UnfQuad K) : ∃ x, unfQuad false t o g d n incl exclExt c ch q = some x := by
  obtain ⟨cut, h1⟩ := isCutCell_defined hF hc
  obtain ⟨dom, h2⟩ := cellDomain_defined g (hdg ▸ hc)
  have hp := purgeUnfLoop_total hF o g hdg c hc (List.range (g.length * 2)) (by simp)
  have ha := addUnfLoop_total hF t o g hdg hg n c hc hn exclExt (List.range (g.length * 2)) (by simp) ch hch
  unfold unfQuad Dom.isCellWithUnf
  rw [if_pos (by omega), h1, h2]
  simp only [Option.map_some, Option.bind_some]
  split
  · exact ⟨_, rfl⟩
  · have : ∃ q1, (if cut = true then purgeUnfLoop o g d c (List.range (g.length * 2)) (algoimUnf o dom n q)
        else some { q with nPts := q.nPts ++ [0] }) = some q1 := by
      split
      · exact hp _
      · exact ⟨_, rfl⟩
    obtain ⟨q1, hq1⟩ := this
    rw [hq1, Option.bind_some]
    cases incl
    · exact ⟨_, rfl⟩
    · exact ha q1

theorem unfLoop_total {d : Dom} (hF : DomFacts d) (t : QuadType K) (o : QOracle K) (g : Grid K)
    (hdg : d.n = g.numCellsDir) (hg : g.length = 2 ∨ g.length = 3) (n : Nat) (hn : 1 ≤ n ∧ n ≤ t.nMax)
    (incl exclExt : Bool) (cells : List Nat) (hl : ∀ c ∈ cells, c < listProd d.n) (ch : Cache K) (hch : CacheOk t ch)
    (q : UnfQuad K) (h1 : q.points.length = q.weights.length) (h2 : q.points.length = q.normals.length) :
    ∃ x, unfLoop false t o g d n incl exclExt cells ch q = some x := by
  induction cells generalizing ch q with
  | nil => exact ⟨_, rfl⟩
  | cons c cs ih =>
    obtain ⟨y, hy⟩ := unfQuad_total hF t o g hdg hg n c (hl c (by simp)) hn incl exclExt ch hch q
    obtain ⟨hok, b, _, hb⟩ := unfQuad_spec false t o g d n incl exclExt c ch hg hch q h1 h2 y hy
    obtain ⟨x, hx⟩ := ih (fun c hc => hl c (by simp [hc])) y.1 hok y.2 (by simp [hb, UnfQuad.push, h1])
      (by simp [hb, UnfQuad.push, h2])
    exact ⟨x, by rw [unfLoop, hy]; exact hx⟩

/-- **C51** (no failure, release builds). -/
theorem C51_unfitted_quadrature_total (debug debug' : Bool) (oo : Oracles K) (g : Grid K)
    (targets : Option (List Nat))
    (hv : g.Valid) (hg : g.length = 2 ∨ g.length = 3) (hdb : debug = false ∨ targets = none) (t : QuadType K)
    (history : List (QuadCall K)) (hd : ∀ c ∈ history, c.dim = 2 ∨ c.dim = 3) (ch : Cache K)
    (hr : QuadCall.execAll debug' t history Cache.init = some ch) (o : QOracle K) (incl exclExt : Bool)
    (cells : List Nat) (hcells : ∀ c ∈ cells, c < g.numCells) (n : Nat) (hn : 1 ≤ n ∧ n ≤ t.nMax) :
    ∃ d x, build debug oo g targets = .ok d ∧
      createUnfQuadrature false t o g d cells n incl exclExt ch = some x := by
  have hne : g ≠ [] := by rintro rfl; simp at hg
  obtain ⟨d, h1, hF, _⟩ := build_facts debug oo g targets hv hne hdb
  obtain ⟨d', h1', h2, _⟩ := build_summary debug oo g targets hv hne hdb
  have : d = d' := by rw [h1] at h1'; simpa using h1'
  subst this
  refine ⟨d, ?_⟩
  have hch := execAll_ok debug' t history hd _ ch (CacheOk.init t) hr
  have hl : ∀ c ∈ cells, c < listProd d.n := by
    intro c hc
    have := hcells c hc
    rw [h2]
    simpa [Grid.numCells, tsize_eq] using this
  unfold createUnfQuadrature
  rw [if_pos (by omega)]
  obtain ⟨x, hx⟩ := unfLoop_total hF t o g h2 hg n hn incl exclExt cells hl ch hch ⟨cells, [], [], [], []⟩ rfl rfl
  exact ⟨x, h1, hx⟩

end Qugar
