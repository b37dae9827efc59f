import Verif.Model.PyPlot
import Verif.Props.PyQuad
import Verif.Props.PyReparam
import Verif.Props.PyNumbering
/-
Property theorems C82 (the data sets created for PyVista): quadrature points, cells by status, facets by status, reparameterizations.
-/
namespace Qugar.Py.Plot
open Spec Spec.Cell TS Quad Mesh

variable {K : Type} [Field K] [LinearOrder K] [IsStrictOrderedRing K]

/-! ### Specification -/

/-- A point of physical space as VTK stores it: three coordinates, the missing ones are zero. -/
def space (x : List K) : List K := x ++ List.replicate (3 - x.length) 0

/-- The point of cell `c` of the grid that corresponds to the point `p` of the unit cube, as VTK stores it. -/
def inCell (g : Grid K) (c : Nat) (p : List K) : List K := space (Box.scaleFrom01 ((g.cellDomain c).getD []) p)

/-- The point of facet `f` of cell `c` that corresponds to the point `p` of the unit cube of the facet. -/
def onFacet (g : Grid K) (c f : Nat) (p : List K) : List K := space (facetPoint ((g.cellDomain c).getD []) f p)

/-- The vertices of a data set, for rules `blocks` of the entities `ents`: what `v` gives for each node of each rule, in order. -/
def vertices {α β γ : Type} (ents : List α) (blocks : List (List β)) (v : α → β → γ) : List γ :=
  (ents.zip blocks).flatMap fun y => y.2.map fun x => v y.1 x

/-- The points that come from outside have as many coordinates as the grid has directions (one less on facets). -/
structure FacetDims (o : QOracle K) (g : Grid K) : Prop where
  gen : ∀ c dom f n, g.cellDomain c = some dom → ∀ x ∈ o.facetGen dom (f / 2) (f % 2) n, x.1.length = g.length
  bzr : ∀ c dom f n, g.cellDomain c = some dom → ∀ x ∈ o.facetBzr dom f n, x.1.length + 1 = g.length

/-- A C++ domain built on a grid, release build. -/
structure CppOk (q : QDomain K) : Prop where
  valid : q.grid.Valid
  dim : q.grid.length = 2 ∨ q.grid.length = 3
  built : ∃ debug oo targets, (debug = false ∨ targets = none) ∧ build debug oo q.grid targets = .ok q.u.dom
  release : q.debug = false

/-! ### Loops -/

theorem slice_block {α : Type} {pts b r : List α} {ofs : Nat} (h : pts.drop ofs = b ++ r) :
    slice pts ofs b.length = b ∧ pts.drop (ofs + b.length) = r := by
  unfold slice
  rw [← List.drop_drop, h]
  simp

theorem scaleLoop_spec (g : Grid K) (pts : List (List K)) : ∀ (cells : List Nat) (bs : List (List (List K))) (ofs : Nat) (acc : List (List K)),
    cells.length = bs.length → pts.drop ofs = bs.flatten → (∀ c ∈ cells, ∃ dom, g.cellDomain c = some dom) →
    scaleLoop g pts (cells.zip (bs.map fun b => (b.length : Int))) ofs acc = some (acc ++ vertices cells bs fun c p => inCell g c p) := by
  intro cells
  induction cells with
  | nil => intro bs ofs acc _ _ _; simp [scaleLoop, vertices]
  | cons c cells ih =>
    intro bs ofs acc hl hp hc
    cases bs with
    | nil => simp at hl
    | cons b bs =>
      obtain ⟨dom, hd⟩ := hc c (by simp)
      rw [List.flatten_cons] at hp
      obtain ⟨e1, e2⟩ := slice_block hp
      simp only [List.map_cons, List.zip_cons_cons, scaleLoop, hd, Option.bind_some, Int.toNat_natCast, e1]
      rw [ih bs _ _ (by simpa using hl) e2 (fun c hc' => hc c (by simp [hc']))]
      have : (b.map fun p => pad3 (scalePoint dom p)) = b.map fun p => inCell g c p := by
        unfold inCell
        rw [hd]
        rfl
      rw [this]
      simp [vertices]

theorem repeatIds_spec {β : Type} (ids : List Nat) (bs : List (List β)) :
    repeatIds ids (bs.map fun b => (b.length : Int)) = vertices ids bs fun c _ => c := by
  unfold repeatIds vertices
  induction ids generalizing bs with
  | nil => simp
  | cons c ids ih =>
    cases bs with
    | nil => simp
    | cons b bs => simp [ih bs]

theorem vertices_length {α β γ : Type} (ents : List α) (bs : List (List β)) (v : α → β → γ) (h : ents.length = bs.length) :
    (vertices ents bs v).length = bs.flatten.length := by
  unfold vertices
  induction ents generalizing bs with
  | nil => cases bs with | nil => rfl | cons => simp at h
  | cons c ents ih =>
    cases bs with
    | nil => simp at h
    | cons b bs => simp [ih bs (by simpa using h)]

theorem quadPointsGrid_spec (g : Grid K) (bs : List (List (List K))) (cells : List Nat) (ws : List K) (nn : Option (List (List K)))
    (hl : cells.length = bs.length) (hw : ws.length = bs.flatten.length) (hn : ∀ l, nn = some l → l.length = bs.flatten.length)
    (hc : ∀ c ∈ cells, ∃ dom, g.cellDomain c = some dom) :
    quadPointsGrid g bs.flatten (bs.map fun b => (b.length : Int)) cells ws nn =
      some { points := vertices cells bs fun c p => inCell g c p, lexCells := vertices cells bs fun c _ => c, weights := ws,
             normals := nn.map (·.map space) } := by
  unfold quadPointsGrid
  rw [if_pos ⟨by simpa using hl, hw.symm⟩, scaleLoop_spec g _ cells bs 0 [] hl (by simp) hc, Option.bind_some, repeatIds_spec,
    if_pos (vertices_length cells bs _ hl)]
  cases nn with
  | none => rfl
  | some l => simp only [if_pos (hn l rfl)]; rfl

theorem vertices_map {α β γ δ : Type} (ents : List α) (bs : List (List β)) (k : β → γ) (v : α → γ → δ) :
    vertices ents (bs.map fun b => b.map k) v = vertices ents bs fun e x => v e (k x) := by
  unfold vertices
  induction ents generalizing bs with
  | nil => simp
  | cons c ents ih =>
    cases bs with
    | nil => simp
    | cons b bs => simp only [List.map_cons, List.zip_cons_cons, List.flatMap_cons, List.map_map, ih bs]; rfl

theorem vertices_eq_flatten {α β γ : Type} (ents : List α) (bs : List (List β)) (v : β → γ) (h : ents.length = bs.length) :
    vertices ents bs (fun _ x => v x) = (bs.map fun b => b.map v).flatten := by
  unfold vertices
  induction ents generalizing bs with
  | nil => cases bs with | nil => rfl | cons => simp at h
  | cons c ents ih =>
    cases bs with
    | nil => simp at h
    | cons b bs => simp [ih bs (by simpa using h)]

/-! ### Cells and unfitted boundaries -/

theorem cellsQuadGrid_spec (g : Grid K) {cells : List Nat} {bs : List (List (Node K))} {x : CellsQuad K} (hx : x.cells = cells)
    (hl : cells.length = bs.length) (hs : Stored bs x.nPts x.points x.weights) (hc : ∀ c ∈ cells, ∃ dom, g.cellDomain c = some dom) :
    cellsQuadGrid g x = some { points := vertices cells bs fun c x => inCell g c x.1, lexCells := vertices cells bs fun c _ => c,
                               weights := vertices cells bs fun _ x => x.2 } := by
  obtain ⟨h1, h2, h3⟩ := hs
  have e : x.nPts = (bs.map fun b => b.map (·.1)).map fun b => (b.length : Int) := by rw [h1]; simp [List.map_map, Function.comp_def]
  unfold cellsQuadGrid
  rw [e, h2, h3, hx, quadPointsGrid_spec g _ cells _ _ (by simpa using hl) (by simp [List.length_flatten, Function.comp_def]) (by simp) hc,
    vertices_map, vertices_map, vertices_eq_flatten cells bs _ hl]
  rfl

theorem unfQuadGrid_spec (g : Grid K) {cells : List Nat} {bs : List (List (UNode K))} {x : UnfQuad K} (hx : x.cells = cells)
    (hl : cells.length = bs.length) (hs : UStored bs x.nPts x.points x.weights x.normals)
    (hc : ∀ c ∈ cells, ∃ dom, g.cellDomain c = some dom) :
    unfQuadGrid g x = some { points := vertices cells bs fun c x => inCell g c x.1, lexCells := vertices cells bs fun c _ => c,
                             weights := vertices cells bs fun _ x => x.2.1,
                             normals := some (vertices cells bs fun _ x => space x.2.2) } := by
  obtain ⟨h1, h2, h3, h4⟩ := hs
  have e : x.nPts = (bs.map fun b => b.map (·.1)).map fun b => (b.length : Int) := by rw [h1]; simp [List.map_map, Function.comp_def]
  unfold unfQuadGrid
  rw [e, h2, h3, hx, h4, quadPointsGrid_spec g _ cells _ _ (by simpa using hl) (by simp [List.length_flatten, Function.comp_def])
    (by intro l hl; cases hl; simp [List.length_flatten, Function.comp_def]) hc,
    vertices_map, vertices_map, vertices_eq_flatten cells bs _ hl, vertices_eq_flatten cells bs _ hl]
  simp [List.map_flatten, Function.comp_def]

/-! ### Facets -/

theorem facetToCell_spec {dim f : Nat} (hd : dim = 2 ∨ dim = 3) (hf : f < dim * 2) (p : List K) (hp : p.length + 1 = dim) :
    facetToCell dim f p = some (p.insertIdx (f / 2) (if f % 2 = 0 then 0 else 1)) := by
  rcases hd with rfl | rfl
  · obtain ⟨a, rfl⟩ : ∃ a, p = [a] := List.length_eq_one_iff.1 (by omega)
    interval_cases f <;> simp [facetToCell, constDirs, constSides, activeDirs]
  · obtain ⟨a, b, rfl⟩ : ∃ a b, p = [a, b] := List.length_eq_two.1 (by omega)
    interval_cases f <;> simp [facetToCell, constDirs, constSides, activeDirs]

theorem facetLoop_spec' {dim : Nat} (hd : dim = 2 ∨ dim = 3) (q : FacetsQuad K) : ∀ (facets : List Nat) (bs : List (List (Node K))) (ofs : Nat)
    (pts : List (List K)) (ws : List K), facets.length = bs.length → q.points.drop ofs = (bs.map fun b => b.map (·.1)).flatten →
    q.weights.drop ofs = (bs.map fun b => b.map (·.2)).flatten → (∀ f ∈ facets, f < dim * 2) → (∀ b ∈ bs, ∀ x ∈ b, x.1.length + 1 = dim) →
    facetLoop dim q (facets.zip (bs.map fun b => (b.length : Int))) ofs pts ws =
      some (pts ++ vertices facets bs (fun f x => x.1.insertIdx (f / 2) (if f % 2 = 0 then 0 else 1)), ws ++ vertices facets bs fun _ x => x.2) := by
  intro facets
  induction facets with
  | nil => intros; simp [facetLoop, vertices]
  | cons f facets ih =>
    intro bs ofs pts ws hl hp hw hf hb
    cases bs with
    | nil => simp at hl
    | cons b bs =>
      rw [List.map_cons, List.flatten_cons] at hp hw
      obtain ⟨e1, e2⟩ := slice_block hp
      obtain ⟨e3, e4⟩ := slice_block hw
      rw [List.length_map] at e1 e2 e3 e4
      have hm : (b.map (·.1)).mapM (facetToCell dim f) = some (b.map fun x => x.1.insertIdx (f / 2) (if f % 2 = 0 then 0 else 1)) := by
        have := hb b (by simp)
        clear hp hw e1 e2 e3 e4 ih hb hl
        induction b with
        | nil => rfl
        | cons x b ihb =>
          rw [List.map_cons, List.mapM_cons, facetToCell_spec hd (hf f (by simp)) x.1 (this x (by simp)),
            ihb (fun y hy => this y (by simp [hy]))]
          rfl
      simp only [List.map_cons, List.zip_cons_cons, Plot.facetLoop, Int.toNat_natCast, e1, e3, hm, Option.bind_some]
      rw [ih bs _ _ _ (by simpa using hl) e2 e4 (fun g hg => hf g (by simp [hg])) (fun b' hb' => hb b' (by simp [hb']))]
      simp [vertices]

theorem vertices_append {α β γ : Type} (e1 e2 : List α) (b1 b2 : List (List β)) (v : α → β → γ) (h : e1.length = b1.length) :
    vertices (e1 ++ e2) (b1 ++ b2) v = vertices e1 b1 v ++ vertices e2 b2 v := by
  unfold vertices
  rw [List.zip_append h, List.flatMap_append]

theorem vertices_ents {α α' β γ : Type} (k : α → α') (ents : List α) (bs : List (List β)) (v : α' → β → γ) :
    vertices (ents.map k) bs v = vertices ents bs fun e x => v (k e) x := by
  unfold vertices
  induction ents generalizing bs with
  | nil => simp
  | cons c ents ih =>
    cases bs with
    | nil => simp
    | cons b bs => simp [ih bs]

/-- The rules with their points moved from the facets to the cells. -/
private def moved (ents : List (Nat × Nat)) (bs : List (List (Node K))) : List (List (List K)) :=
  (ents.zip bs).map fun y => y.2.map fun x => x.1.insertIdx (y.1.2 / 2) (if y.1.2 % 2 = 0 then 0 else 1)

omit [LinearOrder K] [IsStrictOrderedRing K] in
theorem moved_facts (ents : List (Nat × Nat)) (bs : List (List (Node K))) (h : ents.length = bs.length) :
    (moved ents bs).flatten = vertices ents bs (fun cf x => x.1.insertIdx (cf.2 / 2) (if cf.2 % 2 = 0 then 0 else 1)) ∧
      (moved ents bs).map (fun b => (b.length : Int)) = bs.map (fun b => (b.length : Int)) := by
  unfold moved vertices
  induction ents generalizing bs with
  | nil => cases bs with | nil => simp | cons => simp at h
  | cons c ents ih =>
    cases bs with
    | nil => simp at h
    | cons b bs =>
      obtain ⟨i1, i2⟩ := ih bs (by simpa using h)
      refine ⟨?_, ?_⟩
      · simp only [List.zip_cons_cons, List.map_cons, List.flatten_cons, List.flatMap_cons, i1]
      · simp only [List.zip_cons_cons, List.map_cons, List.length_map, i2]

theorem moved_vertices (g : Grid K) (ents : List (Nat × Nat)) (bs : List (List (Node K))) (h : ents.length = bs.length) :
    vertices (ents.map Prod.fst) (moved ents bs) (fun c p => inCell g c p) = vertices ents bs (fun cf x => onFacet g cf.1 cf.2 x.1) ∧
      vertices (ents.map Prod.fst) (moved ents bs) (fun c _ => c) = vertices ents bs (fun cf _ => cf.1) := by
  unfold moved vertices
  induction ents generalizing bs with
  | nil => simp
  | cons c ents ih =>
    cases bs with
    | nil => simp at h
    | cons b bs =>
      obtain ⟨i1, i2⟩ := ih bs (by simpa using h)
      simp only [List.zip_cons_cons, List.map_cons, List.flatMap_cons, i1, i2, List.map_map]
      exact ⟨rfl, rfl⟩

theorem facetQuads_one {dim : Nat} (hd : dim = 2 ∨ dim = 3) {ents : List (Nat × Nat)} {bs : List (List (Node K))} {x : FacetsQuad K}
    (h1 : x.cells = ents.map Prod.fst) (h2 : x.facets = ents.map Prod.snd) (hl : ents.length = bs.length)
    (hs : Stored bs x.nPts x.points x.weights) (hf : ∀ e ∈ ents, e.2 < dim * 2) (hb : ∀ b ∈ bs, ∀ x ∈ b, x.1.length + 1 = dim) :
    (x.cells.length = x.facets.length ∧ x.cells.length = x.nPts.length) ∧
    facetLoop dim x (x.facets.zip x.nPts) 0 [] [] =
      some (vertices ents bs (fun cf x => x.1.insertIdx (cf.2 / 2) (if cf.2 % 2 = 0 then 0 else 1)), vertices ents bs fun _ x => x.2) := by
  obtain ⟨e1, e2, e3⟩ := hs
  refine ⟨by rw [h1, h2, e1]; simp [hl], ?_⟩
  rw [e1, facetLoop_spec' hd x x.facets bs 0 [] [] (by rw [h2]; simpa using hl) (by simpa using e2) (by simpa using e3)
    (by rw [h2]; intro f hf'; obtain ⟨e, he, rfl⟩ := List.mem_map.1 hf'; exact hf e he) hb, h2, vertices_ents, vertices_ents]
  simp

theorem quadFacetPointsGrid_spec (g : Grid K) (hd : g.length = 2 ∨ g.length = 3) {e1 e2 : List (Nat × Nat)} {b1 b2 : List (List (Node K))}
    {x1 x2 : FacetsQuad K} (c1 : x1.cells = e1.map Prod.fst) (f1 : x1.facets = e1.map Prod.snd) (l1 : e1.length = b1.length)
    (s1 : Stored b1 x1.nPts x1.points x1.weights) (c2 : x2.cells = e2.map Prod.fst) (f2 : x2.facets = e2.map Prod.snd)
    (l2 : e2.length = b2.length) (s2 : Stored b2 x2.nPts x2.points x2.weights) (hf : ∀ e ∈ e1 ++ e2, e.2 < g.length * 2)
    (hb : ∀ b ∈ b1 ++ b2, ∀ x ∈ b, x.1.length + 1 = g.length) (hc : ∀ e ∈ e1 ++ e2, ∃ dom, g.cellDomain e.1 = some dom) :
    quadFacetPointsGrid g [x1, x2] =
      some { points := vertices (e1 ++ e2) (b1 ++ b2) fun cf x => onFacet g cf.1 cf.2 x.1,
             lexCells := vertices (e1 ++ e2) (b1 ++ b2) fun cf _ => cf.1,
             weights := vertices (e1 ++ e2) (b1 ++ b2) fun _ x => x.2,
             lexFacets := some (vertices (e1 ++ e2) (b1 ++ b2) fun cf _ => cf.2) } := by
  obtain ⟨t1, q1⟩ := facetQuads_one hd c1 f1 l1 s1 (fun e he => hf e (by simp [he])) (fun b hb' => hb b (by simp [hb']))
  obtain ⟨t2, q2⟩ := facetQuads_one hd c2 f2 l2 s2 (fun e he => hf e (by simp [he])) (fun b hb' => hb b (by simp [hb']))
  have hl : (e1 ++ e2).length = (b1 ++ b2).length := by simp [l1, l2]
  obtain ⟨m1, m2⟩ := moved_facts (e1 ++ e2) (b1 ++ b2) hl
  obtain ⟨m3, m4⟩ := moved_vertices g (e1 ++ e2) (b1 ++ b2) hl
  have hmem : (moved (e1 ++ e2) (b1 ++ b2)).length = (e1 ++ e2).length := by
    have := congrArg List.length m2
    rw [List.length_map, List.length_map] at this
    rw [this, hl]
  unfold quadFacetPointsGrid
  simp only [List.isEmpty_cons, Bool.false_eq_true, if_false, facetQuads, if_pos t1, if_pos t2, q1, q2, Option.bind_some, Option.map_some,
    List.append_nil, ← vertices_append _ _ _ _ _ l1]
  simp only [c1, c2, f1, f2, s1.1, s2.1, ← List.map_append]
  rw [← m1, ← m2, quadPointsGrid_spec g _ _ _ _ (by simp [hmem]) ?_ (by simp) ?_, m2, m3, m4, repeatIds_spec, vertices_ents]
  · rfl
  · rw [m1, vertices_length _ _ _ hl, vertices_length _ _ _ hl]
  · intro c hc'
    obtain ⟨e, he, rfl⟩ := List.mem_map.1 hc'
    exact hc e he

/-! ### The quadratures of a C++ domain -/

theorem unitRule_length (t : QuadType K) (dim n : Nat) {x : Node K} (hx : x ∈ unitRule t dim n) : x.1.length = dim := by
  have := (tensorRule_mem _ x hx).length_eq
  rw [List.length_replicate] at this
  exact this.symm

theorem cutFacetRule_length {o : QOracle K} {g : Grid K} (hd : g.length = 2 ∨ g.length = 3) (ho : FacetDims o g) {c : Nat} {dom : Box K}
    (hdom : g.cellDomain c = some dom) (hl : dom.length = g.length) {f n : Nat} (hf : f < g.length * 2) {x : Node K}
    (hx : x ∈ cutFacetRule o dom f n) : x.1.length + 1 = g.length := by
  unfold cutFacetRule at hx
  split at hx
  · obtain ⟨y, hy, rfl⟩ := List.mem_map.1 (List.mem_filter.1 hx).1
    simpa using ho.bzr c dom f n hdom y hy
  · obtain ⟨y, hy, rfl⟩ := List.mem_map.1 hx
    have := ho.gen c dom f n hdom y hy
    simp only [Box.scaleTo01, List.length_zipWith, List.length_eraseIdx, this, hl]
    split <;> omega

theorem facetRule_length {t : QuadType K} {o : QOracle K} {g : Grid K} {d : Dom} {n c f : Nat} {a b : Bool}
    (hd : g.length = 2 ∨ g.length = 3) (ho : FacetDims o g) (hdl : ∀ dom, g.cellDomain c = some dom → dom.length = g.length)
    (hf : f < g.length * 2) {r : List (Node K)} (h : IsFacetRule t o g d n c f a b r) {x : Node K} (hx : x ∈ r) :
    x.1.length + 1 = g.length := by
  have hu : x ∈ unitRule t (g.length - 1) n → x.1.length + 1 = g.length := by
    intro h
    have := unitRule_length t _ n h
    omega
  rcases h with ⟨-, rfl⟩ | ⟨-, -, rfl⟩ | ⟨-, -, _, _, -, -, ⟨-, dom, h1, rfl⟩ | ⟨-, -, rfl⟩⟩
  · split at hx
    · simp at hx
    · exact hu hx
  · exact hu hx
  · exact cutFacetRule_length hd ho h1 (hdl dom h1) hf (List.mem_filter.1 hx).1
  · simp at hx

theorem integralRule_length {t : QuadType K} {o : QOracle K} {g : Grid K} {d : Dom} {n c f : Nat}
    (hd : g.length = 2 ∨ g.length = 3) (ho : FacetDims o g) (hdl : ∀ dom, g.cellDomain c = some dom → dom.length = g.length)
    (hf : f < g.length * 2) {r : List (Node K)} (h : IsIntegralFacetRule t o g d n .exterior c f r) {x : Node K} (hx : x ∈ r) :
    x.1.length + 1 = g.length := by
  rcases h with ⟨-, h⟩ | ⟨-, -, h⟩ | ⟨-, -, rfl⟩
  · exact facetRule_length hd ho hdl hf h hx
  · exact facetRule_length hd ho hdl hf h hx
  · simp at hx

/-- **C82** (quadratures): on a constructed domain, after any history and for every supported number of points, the three data sets are
created. In the order of the cut cells (increasing), and of the nodes of their rules, they have a vertex for each node, at the place of the
node in the cell, with the id of the cell and the weight; for the unfitted boundary also with the normal. The third one has the same for
the cut facets followed by the facets with unfitted boundary, for the rules of exterior integrals, with the id of the facet. -/
theorem C82_quadrature (q : QDomain K) (hq : CppOk q) (ho : FacetDims q.oracle q.grid) (history : List (QuadCall K))
    (hd : ∀ c ∈ history, c.dim = 2 ∨ c.dim = 3) (ch : Cache K)
    (hr : QuadCall.execAll q.debug q.rules history Cache.init = some ch) (n : Nat) (hn : 1 ≤ n ∧ n ≤ q.rules.nMax) :
    ∃ (ch' : Cache K) (cells unf facets : PointSet K), quadratureCpp q n ch = some (ch', cells, unf, facets) ∧
    ∃ (cut : List Nat) (cf uf : List (Nat × Nat)),
      (cut.Pairwise (· < ·) ∧ ∀ c, c ∈ cut ↔ HasStatus q.u.dom.n q.u.dom.tree c .cut) ∧
      (cf.Nodup ∧ ∀ c f, (c, f) ∈ cf ↔ q.u.dom.isCutFacet c f = some true) ∧
      (uf.Nodup ∧ ∀ c f, (c, f) ∈ uf ↔ q.u.dom.hasUnfFacet c f = some true) ∧
      (∃ bs, List.Forall₂ (IsCellRule q.rules q.oracle q.grid q.u.dom n) cut bs ∧
        cells = { points := vertices cut bs fun c x => inCell q.grid c x.1, lexCells := vertices cut bs fun c _ => c,
                  weights := vertices cut bs fun _ x => x.2 }) ∧
      (∃ bs, List.Forall₂ (IsUnfRule q.rules q.oracle q.grid q.u.dom n true true) cut bs ∧
        unf = { points := vertices cut bs fun c x => inCell q.grid c x.1, lexCells := vertices cut bs fun c _ => c,
                weights := vertices cut bs fun _ x => x.2.1, normals := some (vertices cut bs fun _ x => space x.2.2) }) ∧
      (∃ bs, List.Forall₂ (fun e => IsIntegralFacetRule q.rules q.oracle q.grid q.u.dom n .exterior e.1 e.2) (cf ++ uf) bs ∧
        facets = { points := vertices (cf ++ uf) bs fun e x => onFacet q.grid e.1 e.2 x.1,
                   lexCells := vertices (cf ++ uf) bs fun e _ => e.1, weights := vertices (cf ++ uf) bs fun _ x => x.2,
                   lexFacets := some (vertices (cf ++ uf) bs fun e _ => e.2) }) := by
  obtain ⟨hv, hg, ⟨debug, oo, targets, hdb, hb⟩, hrel⟩ := hq
  have hne : q.grid ≠ [] := by intro h; rw [h] at hg; simp at hg
  obtain ⟨d, h1, hF, _⟩ := build_facts debug oo q.grid targets hv hne hdb
  obtain rfl : q.u.dom = d := by rw [hb] at h1; exact Except.ok.inj h1
  obtain ⟨d, h1, hdn, _, _, _, hnone, _⟩ := build_summary debug oo q.grid targets hv hne hdb
  obtain rfl : q.u.dom = d := by rw [hb] at h1; exact Except.ok.inj h1
  have hch := execAll_ok q.debug q.rules history hd _ ch (CacheOk.init q.rules) hr
  obtain ⟨cut, k1, k2, k3, k4, -⟩ := (C09_cells_by_status _ hF.shape q.u.dom.tree hF.reach).1 .cut
  have k5 : ∀ c ∈ cut, c < listProd q.u.dom.n := fun c hc =>
    (C09_cells_by_status _ hF.shape q.u.dom.tree hF.reach).2.2.1 .cut cut c k1 hc
  have hdom : ∀ c, c < listProd q.u.dom.n → ∃ dom, q.grid.cellDomain c = some dom := by
    intro c hc
    rw [hdn] at hc
    exact cellDomain_defined _ hc
  have hdlen : ∀ c dom, q.grid.cellDomain c = some dom → dom.length = q.grid.length := by
    intro c dom h
    have hc : c < q.grid.numCells := by
      by_contra hc
      unfold Grid.cellDomain unflat at h
      rw [if_neg (by simpa [Grid.numCells] using hc)] at h
      simp at h
    obtain ⟨box, h2, h3, -⟩ := Grid.C07_cell_domain_inside q.grid hv c hc
    rw [h] at h2
    rw [Option.some.inj h2, h3]
  have hmap : ∀ p, ((q.u.dom.mapFacets p).Nodup ∧ ∀ c f, (c, f) ∈ q.u.dom.mapFacets p ↔ q.u.dom.facetQuery p (some false) c f = some true) ∧
      ∀ e ∈ q.u.dom.mapFacets p, e.1 < listProd q.u.dom.n ∧ e.2 < q.grid.length * 2 := by
    intro p
    refine ⟨⟨mapFacets_nodup hF p, fun c f => ?_⟩, ?_⟩
    · rw [mapFacets_mem hF, facetQuery_iff hF]
      simp
    · rintro ⟨c, f⟩ he
      obtain ⟨e1, v, e2, -⟩ := (mapFacets_mem hF p c f).1 he
      refine ⟨?_, by rw [hdn] at e1; simpa [Grid.numCellsDir] using e1⟩
      by_contra hc
      rw [hdn] at hc
      rw [hnone c (by simpa using hc)] at e2
      simp at e2
  have hn0 : 0 < n := hn.1
  -- the cells
  obtain ⟨x1, hx1⟩ := cellLoop_total hF q.rules q.oracle q.grid hdn hg n hn cut k5 ch hch ⟨cut, [], [], []⟩
  obtain ⟨c1, b1, r1, s1, e1⟩ := cellLoop_spec q.rules q.oracle q.grid q.u.dom n hg cut ch hch _ [] stored_nil _ hx1
  -- the unfitted boundary
  obtain ⟨x2, hx2⟩ := unfLoop_total hF q.rules q.oracle q.grid hdn hg n hn true true cut k5 x1.1 c1 ⟨cut, [], [], [], []⟩ rfl rfl
  obtain ⟨c2, b2, r2, s2, e2⟩ := unfLoop_spec false q.rules q.oracle q.grid q.u.dom n true true hg cut x1.1 c1 _ [] ⟨rfl, rfl, rfl, rfl⟩ _ hx2
  -- the facets
  have hz : ∀ b : List (Nat × Nat), (b.map Prod.fst).zip (b.map Prod.snd) = b := by intro b; rw [List.zip_map']; simp
  obtain ⟨x3, hx3⟩ := facetLoop_total hF q.rules q.oracle q.grid hdn hg n hn .exterior q.u.dom.cutFacets (hmap _).2 x2.1 c2
    ⟨q.u.dom.cutFacets.map Prod.fst, q.u.dom.cutFacets.map Prod.snd, [], [], []⟩ rfl
  obtain ⟨c3, b3, r3, s3, e3, f3⟩ := facetLoop_spec false q.rules q.oracle q.grid q.u.dom n .exterior hg q.u.dom.cutFacets x2.1 c2 _ []
    stored_nil _ hx3
  obtain ⟨x4, hx4⟩ := facetLoop_total hF q.rules q.oracle q.grid hdn hg n hn .exterior q.u.dom.unfFacets (hmap _).2 x3.1 c3
    ⟨q.u.dom.unfFacets.map Prod.fst, q.u.dom.unfFacets.map Prod.snd, [], [], []⟩ rfl
  obtain ⟨c4, b4, r4, s4, e4, f4⟩ := facetLoop_spec false q.rules q.oracle q.grid q.u.dom n .exterior hg q.u.dom.unfFacets x3.1 c3 _ []
    stored_nil _ hx4
  rw [List.nil_append] at s1 s2 s3 s4
  have hfac : ∀ e ∈ q.u.dom.cutFacets ++ q.u.dom.unfFacets, e.1 < listProd q.u.dom.n ∧ e.2 < q.grid.length * 2 := by
    intro e he
    rcases List.mem_append.1 he with he | he
    · exact (hmap _).2 e he
    · exact (hmap _).2 e he
  have r34 := List.rel_append r3 r4
  have hpts : ∀ b ∈ b3 ++ b4, ∀ x ∈ b, x.1.length + 1 = q.grid.length := by
    intro b hb' x hx
    obtain ⟨k, hk, rfl⟩ := List.mem_iff_getElem.1 hb'
    have hk' : k < (q.u.dom.cutFacets ++ q.u.dom.unfFacets).length := by rw [r34.length_eq]; exact hk
    exact integralRule_length hg ho (fun dom h => hdlen _ dom h) (hfac _ (List.getElem_mem hk')).2 (r34.get hk' hk) hx
  have t1 := cellsQuadGrid_spec q.grid e1 r1.length_eq s1 (fun c hc => hdom c (k5 c hc))
  have t2 := unfQuadGrid_spec q.grid e2 r2.length_eq s2 (fun c hc => hdom c (k5 c hc))
  have t3 := quadFacetPointsGrid_spec q.grid hg e3 f3 r3.length_eq s3 e4 f4 r4.length_eq s4 (fun e he => (hfac e he).2) hpts
    (fun e he => hdom _ (hfac e he).1)
  refine ⟨x4.1, _, _, _, ?_, cut, q.u.dom.cutFacets, q.u.dom.unfFacets, ⟨k2, k3⟩, (hmap _).1, (hmap _).1, ⟨b1, r1, rfl⟩, ⟨b2, r2, rfl⟩,
    ⟨b3 ++ b4, r34, rfl⟩⟩
  unfold quadratureCpp cppCells cppUnf cppFacets createQuadrature createUnfQuadrature createFacetsQuadrature
  simp only [k1, Option.bind_some, read_new, if_pos hn0, hx1, t1, hrel, hx2, t2, List.length_map, true_and, hz, hx3, hx4, t3, Option.map_some]

/-! ### Facets drawn twice -/

theorem facetRule_unique {t : QuadType K} {o : QOracle K} {g : Grid K} {d : Dom} {n c f : Nat} {a b : Bool} {r r' : List (Node K)}
    (h : IsFacetRule t o g d n c f a b r) (h' : IsFacetRule t o g d n c f a b r') : r = r' := by
  rcases h with ⟨p1, rfl⟩ | ⟨p1, p2, rfl⟩ | ⟨p1, p2, x1, x2, p3, p4, h⟩ <;>
    rcases h' with ⟨q1, rfl⟩ | ⟨q1, q2, rfl⟩ | ⟨q1, q2, y1, y2, q3, q4, h'⟩ <;>
    first
    | rfl
    | (exfalso; have hh := p1.symm.trans q1; simp at hh; done)
    | (exfalso; have hh := p2.symm.trans q2; simp at hh; done)
    | skip
  obtain rfl : x1 = y1 := by rw [p3] at q3; exact Option.some.inj q3
  obtain rfl : x2 = y2 := by rw [p4] at q4; exact Option.some.inj q4
  rcases h with ⟨u1, dom, u2, rfl⟩ | ⟨u1, u2, rfl⟩ <;> rcases h' with ⟨v1, dom', v2, rfl⟩ | ⟨v1, v2, rfl⟩
  · obtain rfl : dom = dom' := by rw [u2] at v2; exact Option.some.inj v2
    rfl
  · rw [v1, v2] at u1; simp at u1
  · rw [u1, u2] at v1; simp at v1
  · rfl

theorem integralRule_unique {t : QuadType K} {o : QOracle K} {g : Grid K} {d : Dom} {n c f : Nat} {r r' : List (Node K)}
    (h : IsIntegralFacetRule t o g d n .exterior c f r) (h' : IsIntegralFacetRule t o g d n .exterior c f r') : r = r' := by
  rcases h with ⟨p1, h⟩ | ⟨p1, p2, h⟩ | ⟨p1, p2, h⟩ <;> rcases h' with ⟨q1, h'⟩ | ⟨q1, q2, h'⟩ | ⟨q1, q2, h'⟩ <;>
    first
    | exact facetRule_unique h h'
    | (rw [h, h'])
    | (exfalso; have hh := p1.symm.trans q1; simp at hh; done)
    | (exfalso; have hh := p2.symm.trans q2; simp at hh; done)

theorem vertices_pairs {α β γ : Type} (ents : List α) (bs : List (List β)) (v : α → β → γ) :
    vertices ents bs v = (vertices ents bs Prod.mk).map fun y => v y.1 y.2 := by
  unfold vertices
  rw [List.map_flatMap]
  simp [Function.comp_def]

theorem mem_vertices {α β : Type} {R : α → List β → Prop} (hu : ∀ e b b', R e b → R e b' → b = b') {ents : List α} {bs : List (List β)}
    (h : List.Forall₂ R ents bs) {e : α} (he : e ∈ ents) {b : List β} (hb : R e b) {x : β} (hx : x ∈ b) :
    (e, x) ∈ vertices ents bs Prod.mk := by
  induction h with
  | nil => simp at he
  | cons h1 _ ih =>
    unfold vertices at ih ⊢
    rw [List.zip_cons_cons, List.flatMap_cons, List.mem_append]
    rcases List.mem_cons.1 he with rfl | he
    · left
      rw [hu _ _ _ h1 hb]
      exact List.mem_map.2 ⟨x, hx, rfl⟩
    · exact .inr (ih he)

/-- **C82** (failure): a facet that is cut and has unfitted boundary (status `cut_unf`, say) is drawn twice: each node of its rule is at
two positions of the third data set, with the same point, cell, facet and weight. So its weights do not add up to the measure. -/
theorem C82_facets_twice (q : QDomain K) (hq : CppOk q) (ho : FacetDims q.oracle q.grid) (history : List (QuadCall K))
    (hd : ∀ c ∈ history, c.dim = 2 ∨ c.dim = 3) (ch : Cache K)
    (hr : QuadCall.execAll q.debug q.rules history Cache.init = some ch) (n : Nat) (hn : 1 ≤ n ∧ n ≤ q.rules.nMax)
    {ch' : Cache K} {cells unf facets : PointSet K} (h : quadratureCpp q n ch = some (ch', cells, unf, facets)) {c f : Nat}
    (h1 : q.u.dom.isCutFacet c f = some true) (h2 : q.u.dom.hasUnfFacet c f = some true) {b : List (Node K)}
    (hb : IsIntegralFacetRule q.rules q.oracle q.grid q.u.dom n .exterior c f b) {x : Node K} (hx : x ∈ b) :
    ∃ i j : Nat, i < j ∧ ∀ k ∈ [i, j], facets.points[k]? = some (onFacet q.grid c f x.1) ∧ facets.lexCells[k]? = some c ∧
      facets.weights[k]? = some x.2 ∧ (facets.lexFacets.getD [])[k]? = some f := by
  obtain ⟨ch2, cells2, unf2, facets2, e, cut, cf, uf, -, m1, m2, -, -, bs, r, rfl⟩ := C82_quadrature q hq ho history hd ch hr n hn
  rw [h] at e
  obtain rfl : facets = _ := by simp only [Option.some.injEq, Prod.mk.injEq] at e; exact e.2.2.2
  obtain ⟨b1, b2, r1, r2, rfl⟩ : ∃ b1 b2, List.Forall₂ (fun e => IsIntegralFacetRule q.rules q.oracle q.grid q.u.dom n .exterior e.1 e.2) cf b1 ∧
      List.Forall₂ (fun e => IsIntegralFacetRule q.rules q.oracle q.grid q.u.dom n .exterior e.1 e.2) uf b2 ∧ bs = b1 ++ b2 :=
    ⟨bs.take cf.length, bs.drop cf.length, by simpa using List.forall₂_take cf.length r, by simpa using List.forall₂_drop cf.length r, by simp⟩
  have hu : ∀ (e : Nat × Nat) (b b' : List (Node K)), IsIntegralFacetRule q.rules q.oracle q.grid q.u.dom n .exterior e.1 e.2 b →
      IsIntegralFacetRule q.rules q.oracle q.grid q.u.dom n .exterior e.1 e.2 b' → b = b' := fun _ _ _ => integralRule_unique
  obtain ⟨i, hi, ei⟩ := List.mem_iff_getElem.1 (mem_vertices hu r1 ((m1.2 c f).2 h1) hb hx)
  obtain ⟨j, hj, ej⟩ := List.mem_iff_getElem.1 (mem_vertices hu r2 ((m2.2 c f).2 h2) hb hx)
  refine ⟨i, (vertices cf b1 Prod.mk).length + j, by omega, ?_⟩
  have key : ∀ k ∈ [i, (vertices cf b1 Prod.mk).length + j], (vertices (cf ++ uf) (b1 ++ b2) Prod.mk)[k]? = some ((c, f), x) := by
    intro k hk
    rw [vertices_append _ _ _ _ _ r1.length_eq]
    simp only [List.mem_cons, List.not_mem_nil, or_false] at hk
    rcases hk with rfl | rfl
    · rw [List.getElem?_append_left hi, List.getElem?_eq_getElem hi, ei]
    · rw [List.getElem?_append_right (by omega), Nat.add_sub_cancel_left, List.getElem?_eq_getElem hj, ej]
  intro k hk
  simp only [Option.getD_some]
  refine ⟨?_, ?_, ?_, ?_⟩ <;> rw [vertices_pairs, List.getElem?_map, key k hk] <;> rfl

/-! ### Normals -/

/-- **C82** (failure): the points are drawn in the cell, but the normals are those of the unit cube: for functions that are not
polynomials, in a cell whose sides have different lengths, the normal drawn at a point where both components of the gradient are nonzero is
not parallel to the gradient. -/
theorem C82_normals_fail (o : QOracle K) (ho : o.isBezier = false) (i0 i1 : K × K) (n : Nat) {x : Node K} (hx : x ∈ o.surfGen [i0, i1] n)
    {a b : K} (hg : o.grad x.1 = [a, b]) (ha : a ≠ 0) (hb : b ≠ 0) (hl : i0.2 - i0.1 ≠ i1.2 - i1.1) (hn : ∀ v : List K, v ≠ [0, 0] → o.norm v ≠ 0)
    (h0 : i0.2 - i0.1 ≠ 0) :
    ∃ w p r, (Box.scaleTo01 [i0, i1] x.1, w, [p, r]) ∈ cutSurfaceRule o [i0, i1] n ∧ a * r ≠ b * p := by
  have hN : o.norm [a, b] ≠ 0 := hn _ (by simp [ha])
  have hM : o.norm [a / o.norm [a, b] * (i0.2 - i0.1), b / o.norm [a, b] * (i1.2 - i1.1)] ≠ 0 := hn _ (by
    intro h
    have := (List.cons.inj h).1
    exact (mul_ne_zero (div_ne_zero ha hN) h0) this)
  refine ⟨x.2 * o.norm [a / o.norm [a, b] * (i0.2 - i0.1), b / o.norm [a, b] * (i1.2 - i1.1)] / Box.volume [i0, i1],
    a / o.norm [a, b] * (i0.2 - i0.1) / o.norm [a / o.norm [a, b] * (i0.2 - i0.1), b / o.norm [a, b] * (i1.2 - i1.1)],
    b / o.norm [a, b] * (i1.2 - i1.1) / o.norm [a / o.norm [a, b] * (i0.2 - i0.1), b / o.norm [a, b] * (i1.2 - i1.1)], ?_, ?_⟩
  · unfold cutSurfaceRule
    rw [if_neg (by simp [ho])]
    refine List.mem_map.2 ⟨x, hx, ?_⟩
    simp only [hg, List.map_cons, List.map_nil, Box.lengths, List.zipWith_cons_cons, List.zipWith_nil_left]
  · intro h
    apply hl
    generalize o.norm [a / o.norm [a, b] * (i0.2 - i0.1), b / o.norm [a, b] * (i1.2 - i1.1)] = M at hM h
    generalize o.norm [a, b] = N at hN h
    field_simp at h
    exact h.symm

/-! ### Grids of cells -/

theorem getElem?_flatMap_const {α β : Type} (m : Nat) (hm : 0 < m) (f : α → List β) (L : List α) (h : ∀ a ∈ L, (f a).length = m) (c : Nat) :
    (L.flatMap f)[c]? = L[c / m]?.bind fun a => (f a)[c % m]? := by
  induction L generalizing c with
  | nil => simp
  | cons a L ih =>
    have ha := h a (by simp)
    rw [List.flatMap_cons]
    by_cases hc : c < m
    · rw [List.getElem?_append_left (by omega), Nat.div_eq_of_lt hc, Nat.mod_eq_of_lt hc]
      rfl
    · obtain ⟨k, rfl⟩ : ∃ k, c = k + m := ⟨c - m, by omega⟩
      rw [List.getElem?_append_right (by omega), ha, Nat.add_sub_cancel, ih (fun a ha => h a (by simp [ha])),
        Nat.add_div_right _ hm, Nat.add_mod_right]
      rfl

theorem rectilinear_spec (g : Grid K) (hv : ∀ bs ∈ g, 1 < bs.length) :
    (rectilinear g).length = listProd g.numCellsDir ∧
      ∀ c, c < listProd g.numCellsDir → (rectilinear g)[c]? = some (g.cellDomainTid (unflatRec g.numCellsDir c)) := by
  induction g with
  | nil =>
    refine ⟨rfl, fun c hc => ?_⟩
    have : c = 0 := by simpa [Grid.numCellsDir, listProd] using hc
    subst this
    rfl
  | cons bs g ih =>
    obtain ⟨i1, i2⟩ := ih (fun b hb => hv b (by simp [hb]))
    have hb := hv bs (by simp)
    have hlen : ∀ b : Box K, ((bs.zip bs.tail).map fun iv => iv :: b).length = bs.length - 1 := by intro b; simp
    rw [Grid.numCellsDir_cons]
    refine ⟨?_, fun c hc => ?_⟩
    · rw [rectilinear, List.length_flatMap]
      simp only [hlen, List.map_const', List.sum_replicate, i1, smul_eq_mul, listProd]
      exact Nat.mul_comm _ _
    · have hc' : c / (bs.length - 1) < listProd (Grid.numCellsDir g) := by
        rw [Nat.div_lt_iff_lt_mul (by omega), Nat.mul_comm]; exact hc
      have hm : c % (bs.length - 1) < bs.length - 1 := Nat.mod_lt _ (by omega)
      have hz : (bs.zip bs.tail)[c % (bs.length - 1)]? = some (bs.getD (c % (bs.length - 1)) 0, bs.getD (c % (bs.length - 1) + 1) 0) := by
        rw [List.getElem?_zip_eq_some]
        constructor
        · rw [List.getD_eq_getElem?_getD, List.getElem?_eq_getElem (by omega)]; rfl
        · show _ = some (bs.getD (c % (bs.length - 1) + 1) 0)
          rw [List.getElem?_tail, List.getD_eq_getElem?_getD, List.getElem?_eq_getElem (by omega)]; rfl
      rw [rectilinear, getElem?_flatMap_const (bs.length - 1) (by omega) _ _ (fun b _ => hlen b), i2 _ hc', Option.bind_some,
        List.getElem?_map, hz]
      rfl

/-- **C82** (grids): the data set of a grid has the cells of the grid, in their order: cell `c` is the box of the cell `c` of the grid, with
the id `c`. -/
theorem C82_grid (g : Grid K) (hv : g.Valid) (h1 : 1 ≤ g.length) (h3 : g.length ≤ 3) :
    ∃ cells, cartGrid g = some cells ∧ cells.length = g.numCells ∧
      ∀ c, c < g.numCells → ∃ box, g.cellDomain c = some box ∧ cells[c]? = some ⟨box, c⟩ := by
  obtain ⟨i1, i2⟩ := rectilinear_spec g (fun bs hb => (hv bs hb).1)
  have hN : g.numCells = listProd g.numCellsDir := tsize_eq _
  have hT : tsize (g.map fun bs => bs.length - 1) = listProd g.numCellsDir := tsize_eq _
  refine ⟨_, by unfold cartGrid; rw [if_pos ⟨h1, h3, by rw [i1, hT]⟩], by simp [i1, hT, hN], fun c hc => ?_⟩
  rw [hN] at hc
  refine ⟨g.cellDomainTid (unflatRec g.numCellsDir c), by unfold Grid.cellDomain; rw [unflat_eq hc]; rfl, ?_⟩
  rw [List.getElem?_zipWith, i2 c hc, hT, List.getElem?_range hc]

/-! ### Cells by status -/

/-- The number that marks a status in the data: 0 full, 1 cut, 2 the others. -/
def statusCode : Status → Nat
  | .full => 0
  | .cut => 1
  | _ => 2

/-- The cells of a status are wanted. -/
def wanted (cut full empty : Bool) : Status → Bool
  | .full => full
  | .cut => cut
  | _ => empty

theorem foldl_set_spec {α : Type} (v : α) (ids : List Nat) (a : List α) :
    (ids.foldl (fun a i => a.set i v) a).length = a.length ∧
      ∀ k, k < a.length → (ids.foldl (fun a i => a.set i v) a)[k]? = if k ∈ ids then some v else a[k]? := by
  induction ids generalizing a with
  | nil => simp
  | cons i ids ih =>
    obtain ⟨i1, i2⟩ := ih (a.set i v)
    rw [List.length_set] at i1 i2
    refine ⟨i1, fun k hk => ?_⟩
    rw [List.foldl_cons, i2 k hk, List.getElem?_set]
    by_cases h1 : k ∈ ids
    · simp [h1]
    · by_cases h2 : i = k
      · subst h2; simp [h1, hk]
      · have : ¬ k = i := fun h => h2 h.symm
        simp [h1, h2, this]

theorem setAll_spec {α : Type} (v : α) {ids : List Nat} {a : List α} (h : ∀ i ∈ ids, i < a.length) :
    ∃ b, setAll a ids v = some b ∧ b.length = a.length ∧ ∀ k, k < a.length → b[k]? = if k ∈ ids then some v else a[k]? :=
  ⟨_, by unfold setAll; rw [if_pos h], (foldl_set_spec v ids a).1, (foldl_set_spec v ids a).2⟩

theorem markCells_spec {α : Type} {cells : List α} {n : Nat} (hn : cells.length = n) {cutIds fullIds : List Nat} (h1 : ∀ i ∈ cutIds, i < n)
    (h2 : ∀ i ∈ fullIds, i < n) (cut full empty : Bool) :
    ∃ r, markCells cells n cutIds fullIds cut full empty = some r ∧ (r.map Prod.fst).Sublist cells ∧
      ∀ x st, (x, st) ∈ r ↔ ∃ i : Nat, cells[i]? = some x ∧ (if i ∈ fullIds then full else if i ∈ cutIds then cut else empty) = true ∧
        st = (if i ∈ fullIds then 0 else if i ∈ cutIds then 1 else 2) := by
  obtain ⟨v1, a1, a2, a3⟩ := setAll_spec cut (ids := cutIds) (a := List.replicate n empty) (by simpa using h1)
  rw [List.length_replicate] at a2 a3
  obtain ⟨v2, b1, b2, b3⟩ := setAll_spec full (ids := fullIds) (a := v1) (by rw [a2]; exact h2)
  obtain ⟨s1, c1, c2, c3⟩ := setAll_spec 1 (ids := cutIds) (a := List.replicate n 2) (by simpa using h1)
  rw [List.length_replicate] at c2 c3
  obtain ⟨s2, d1, d2, d3⟩ := setAll_spec 0 (ids := fullIds) (a := s1) (by rw [c2]; exact h2)
  have hv : ∀ i, i < n → v2[i]? = some (if i ∈ fullIds then full else if i ∈ cutIds then cut else empty) := by
    intro i hi
    rw [b3 i (by omega), a3 i hi]
    by_cases e1 : i ∈ fullIds <;> by_cases e2 : i ∈ cutIds <;> simp [e1, e2, hi]
  have hs : ∀ i, i < n → s2[i]? = some (if i ∈ fullIds then 0 else if i ∈ cutIds then 1 else 2) := by
    intro i hi
    rw [d3 i (by omega), c3 i hi]
    by_cases e1 : i ∈ fullIds <;> by_cases e2 : i ∈ cutIds <;> simp [e1, e2, hi]
  refine ⟨((cells.zip s2).zip v2).filterMap fun x => if x.2 then some x.1 else none,
    by unfold markCells; simp only [a1, b1, c1, d1, Option.bind_some, if_pos hn], ?_, fun x st => ?_⟩
  · have key : ∀ (cells : List α) (s : List Nat) (v : List Bool),
        ((((cells.zip s).zip v).filterMap fun x => if x.2 then some x.1 else none).map Prod.fst).Sublist cells := by
      intro cells
      induction cells with
      | nil => intros; simp
      | cons c cells ih =>
        intro s v
        cases s with
        | nil => simp
        | cons s0 s =>
          cases v with
          | nil => simp
          | cons v0 v =>
            cases v0 with
            | true => simpa using ih s v
            | false => simpa using (ih s v).cons c
    exact key cells s2 v2
  · rw [List.mem_filterMap]
    constructor
    · rintro ⟨⟨y, b⟩, hy, e⟩
      obtain ⟨i, hi, ei⟩ := List.mem_iff_getElem.1 hy
      have hi' : i < n := by simp at hi; omega
      have e' := List.getElem?_eq_getElem hi
      rw [ei, List.getElem?_zip_eq_some] at e'
      obtain ⟨e1, e2⟩ := e'
      simp only at e1 e2 e
      cases b with
      | false => simp at e
      | true =>
        obtain rfl : y = (x, st) := by simpa using e
        rw [List.getElem?_zip_eq_some] at e1
        rw [hv i hi'] at e2
        rw [hs i hi'] at e1
        exact ⟨i, e1.1, Option.some.inj e2, (Option.some.inj e1.2).symm⟩
    · rintro ⟨i, e1, e2, rfl⟩
      have hi : i < n := by rw [← hn]; exact (List.getElem?_eq_some_iff.1 e1).1
      refine ⟨((x, _), true), List.mem_of_getElem? (i := i) (List.getElem?_zip_eq_some.2 ⟨List.getElem?_zip_eq_some.2 ⟨e1, hs i hi⟩, ?_⟩), rfl⟩
      rw [hv i hi, e2]

/-- **C82** (cells, C++ domains): the drawn cells are those whose status is asked for (the ones that were not classified as if they were
empty), each once, in increasing order, with their box, their id and the number of their status. -/
theorem C82_domain_cpp (g : Grid K) (hv : g.Valid) (h1 : 1 ≤ g.length) (h3 : g.length ≤ 3) (debug : Bool) (oo : Oracles K)
    (targets : Option (List Nat)) (hdb : debug = false ∨ targets = none) (d : Dom) (hb : build debug oo g targets = .ok d)
    (cut full empty : Bool) :
    ∃ r, domainCpp g d cut full empty = some r ∧ (r.map (·.1.lex)).Pairwise (· < ·) ∧
      ∀ x k, (x, k) ∈ r ↔ g.cellDomain x.lex = some x.box ∧
        ∃ st, HasStatus d.n d.tree x.lex st ∧ wanted cut full empty st = true ∧ k = statusCode st := by
  have hne : g ≠ [] := by rintro rfl; simp at h1
  obtain ⟨d', e1, hF, _⟩ := build_facts debug oo g targets hv hne hdb
  obtain rfl : d = d' := by rw [hb] at e1; exact Except.ok.inj e1
  obtain ⟨d', e1, hdn, _⟩ := build_summary debug oo g targets hv hne hdb
  obtain rfl : d = d' := by rw [hb] at e1; exact Except.ok.inj e1
  have hN : g.numCells = listProd d.n := by rw [hdn]; exact tsize_eq _
  have hT : tsize d.n = listProd d.n := tsize_eq _
  obtain ⟨hw, hroot⟩ := Tree.WF.of_reachable hF.shape.2 hF.reach
  obtain ⟨k1, k2, k3, -⟩ := C09_cells_by_status _ hF.shape d.tree hF.reach
  obtain ⟨cutIds, c1, c2, c3, -⟩ := k1 .cut
  obtain ⟨fullIds, f1, f2, f3, -⟩ := k1 .full
  obtain ⟨cells, g1, g2, g3⟩ := C82_grid g hv h1 h3
  obtain ⟨r, r1, r2, r3⟩ := markCells_spec (n := tsize d.n) (by rw [g2, hN, hT]) (fun i hi => by rw [hT]; exact k3 _ _ i c1 hi)
    (fun i hi => by rw [hT]; exact k3 _ _ i f1 hi) cut full empty
  have hst : ∀ i, i < listProd d.n → ∃ st, HasStatus d.n d.tree i st := by
    intro i hi
    obtain ⟨st, ⟨ids, a, b⟩, -⟩ := k2 i hi
    obtain ⟨ids', a', -, b', -⟩ := k1 st
    obtain rfl : ids = ids' := by rw [a] at a'; exact Option.some.inj a'
    exact ⟨st, (b' i).1 b⟩
  have hcode : ∀ i st, HasStatus d.n d.tree i st →
      (if i ∈ fullIds then full else if i ∈ cutIds then cut else empty) = wanted cut full empty st ∧
      (if i ∈ fullIds then 0 else if i ∈ cutIds then 1 else 2) = statusCode st := by
    intro i st h
    have hfull : i ∈ fullIds ↔ st = .full := by
      rw [f3]
      exact ⟨fun h' => hw.hasStatus_unique h h', fun e => e ▸ h⟩
    have hcut : i ∈ cutIds ↔ st = .cut := by
      rw [c3]
      exact ⟨fun h' => hw.hasStatus_unique h h', fun e => e ▸ h⟩
    rw [if_congr hfull rfl (if_congr hcut rfl rfl), if_congr hfull rfl (if_congr hcut rfl rfl)]
    cases st <;> simp [wanted, statusCode]
  have hlex : cells.map (·.lex) = List.range g.numCells := by
    refine List.ext_getElem? fun k => ?_
    by_cases hk : k < g.numCells
    · obtain ⟨box, -, e⟩ := g3 k hk
      rw [List.getElem?_map, e, List.getElem?_range hk]; rfl
    · rw [List.getElem?_eq_none (by simp; omega), List.getElem?_eq_none (by simp; omega)]
  refine ⟨r, by unfold domainCpp; simp only [g1, c1, f1, Option.bind_some, r1], ?_, fun x k => ?_⟩
  · have := (r2.map (·.lex))
    rw [hlex, List.map_map] at this
    exact List.Pairwise.sublist this List.pairwise_lt_range
  · rw [r3]
    constructor
    · rintro ⟨i, e1, e2, e3⟩
      have hi : i < g.numCells := by rw [← g2]; exact (List.getElem?_eq_some_iff.1 e1).1
      obtain ⟨box, e4, e5⟩ := g3 i hi
      obtain rfl : x = ⟨box, i⟩ := by rw [e1] at e5; exact Option.some.inj e5
      obtain ⟨st, hs⟩ := hst i (by rw [← hN]; exact hi)
      rw [(hcode i st hs).1] at e2
      rw [(hcode i st hs).2] at e3
      exact ⟨e4, st, hs, e2, e3⟩
    · rintro ⟨e1, st, hs, e2, e3⟩
      have hi : x.lex < g.numCells := by
        by_contra hc
        unfold Grid.cellDomain unflat at e1
        rw [if_neg (by simpa [Grid.numCells] using hc)] at e1
        simp at e1
      obtain ⟨box, e4, e5⟩ := g3 x.lex hi
      obtain rfl : box = x.box := by rw [e1] at e4; exact (Option.some.inj e4).symm
      exact ⟨x.lex, e5, by rw [(hcode _ st hs).1]; exact e2, by rw [(hcode _ st hs).2]; exact e3⟩

/-! ### Ids of DOLFINx -/

/-- The ids of DOLFINx of cells given by their ids in the grid: the local cell that is that cell, `-1` if there is none. -/
def CellIds (m : PyMesh) (orig : List Nat) (ids : List Int) : Prop :=
  List.Forall₂ (fun (v : Nat) (id : Int) => (id = -1 ∧ ∀ l, ¬ m.OrigCell l v) ∨ ∃ l : Nat, id = l ∧ m.OrigCell l v) orig ids

theorem dlfCells_ids {argsort : List Int → List Nat} (hs : ∀ l, IsArgsort l (argsort l)) {m : PyMesh} {nRows : Nat} (hm : m.Ok nRows)
    (orig : List Nat) : ∃ ids, m.dlfCells argsort (orig.map Int.ofNat) = some ids ∧ CellIds m orig ids := by
  obtain ⟨ids, h1, h2, h3⟩ := C64_cells_from_original hs m hm orig
  refine ⟨ids, h1, List.forall₂_iff_get.2 ⟨h2.symm, fun i hi hi' => ?_⟩⟩
  rcases h3 i orig[i] (List.getElem?_eq_getElem hi) with ⟨a, b⟩ | ⟨l, a, b, -⟩
  · rw [List.getElem?_eq_getElem hi'] at a
    exact .inl ⟨Option.some.inj a, b⟩
  · rw [List.getElem?_eq_getElem hi'] at a
    exact .inr ⟨l, Option.some.inj a, b⟩

/-- **C82** (quadratures of meshes): for an unfitted Cartesian mesh the three data sets are those of its C++ domain, with, in addition,
the local cell of DOLFINx for each vertex and, for the facets, the facet of DOLFINx on the same side. -/
theorem C82_quadrature_mesh {argsort : List Int → List Nat} (hs : ∀ l, IsArgsort l (argsort l)) (q : QDomain K) (hq : CppOk q) {nRows : Nat}
    (hm : q.u.mesh.Ok nRows) (ho : FacetDims q.oracle q.grid) (history : List (QuadCall K))
    (hd : ∀ c ∈ history, c.dim = 2 ∨ c.dim = 3) (ch : Cache K)
    (hr : QuadCall.execAll q.debug q.rules history Cache.init = some ch) (n : Nat) (hn : 1 ≤ n ∧ n ≤ q.rules.nMax) :
    ∃ ch' cells unf facets i1 i2 i3 i4, quadratureCpp q n ch = some (ch', cells, unf, facets) ∧
      quadraturePy argsort q n ch = some (ch', { cells with dlfCells := some i1 }, { unf with dlfCells := some i2 },
        { facets with dlfCells := some i3, dlfFacets := some i4 }) ∧
      CellIds q.u.mesh cells.lexCells i1 ∧ CellIds q.u.mesh unf.lexCells i2 ∧ CellIds q.u.mesh facets.lexCells i3 ∧
      List.Forall₂ (fun f k => SideFacet q.grid.length k f) (facets.lexFacets.getD []) i4 := by
  obtain ⟨ch', cells, unf, facets, e, cut, cf, uf, -, m1, m2, -, -, bs, r, hfac⟩ := C82_quadrature q hq ho history hd ch hr n hn
  obtain ⟨hv, hg, ⟨debug, oo, targets, hdb, hb⟩, -⟩ := hq
  have hne : q.grid ≠ [] := by intro h; rw [h] at hg; simp at hg
  obtain ⟨d, h1, hF, _⟩ := build_facts debug oo q.grid targets hv hne hdb
  obtain rfl : q.u.dom = d := by rw [hb] at h1; exact Except.ok.inj h1
  obtain ⟨d, h1, hdn, _⟩ := build_summary debug oo q.grid targets hv hne hdb
  obtain rfl : q.u.dom = d := by rw [hb] at h1; exact Except.ok.inj h1
  have hdl : q.u.dom.n.length = q.grid.length := by rw [hdn]; simp [Grid.numCellsDir]
  obtain ⟨i1, a1, b1⟩ := dlfCells_ids hs hm cells.lexCells
  obtain ⟨i2, a2, b2⟩ := dlfCells_ids hs hm unf.lexCells
  obtain ⟨i3, a3, b3⟩ := dlfCells_ids hs hm facets.lexCells
  obtain ⟨fs, hfs⟩ : ∃ fs, facets.lexFacets = some fs := by rw [hfac]; exact ⟨_, rfl⟩
  have hlt : ∀ f ∈ fs, f < 2 * q.grid.length := by
    intro f hf
    have e : fs = vertices (cf ++ uf) bs fun e _ => e.2 := by rw [hfac] at hfs; exact (Option.some.inj hfs).symm
    rw [e] at hf
    unfold vertices at hf
    obtain ⟨y, hy, hf⟩ := List.mem_flatMap.1 hf
    obtain ⟨x, -, rfl⟩ := List.mem_map.1 hf
    have hlt : ∀ (p : FStatus → Bool) c f, q.u.dom.facetQuery p (some false) c f = some true → f < 2 * q.grid.length := by
      intro p c f h
      have := ((facetQuery_iff hF p _ c f).1 h).1
      rw [hdl] at this; omega
    rcases List.mem_append.1 (List.of_mem_zip hy).1 with h | h
    · exact hlt _ _ _ ((m1.2 _ _).1 h)
    · exact hlt _ _ _ ((m2.2 _ _).1 h)
  obtain ⟨t, u, ht, hu, htl, hul, htu⟩ := tables_inverse (dim := q.grid.length) (by omega) (by omega)
  obtain ⟨t', u', ht', hu', hT⟩ := C61_dolfinx_facets q.grid.length (by omega) (by omega)
  obtain rfl : t = t' := by rw [ht] at ht'; exact Option.some.inj ht'
  obtain rfl : u = u' := by rw [hu] at hu'; exact Option.some.inj hu'
  have hside : ∀ f, f < 2 * q.grid.length → ∃ k, u[f]? = some k ∧ SideFacet q.grid.length k f := by
    intro f hf
    obtain ⟨k, e1, e2⟩ := hT.2.2.2 f hf
    have hk : k < 2 * q.grid.length := by rw [← htl]; exact (List.getElem?_eq_some_iff.1 e2).1
    obtain ⟨f', p, e3, e4, e5⟩ := hT.2.2.1 k hk
    obtain rfl : f = f' := by rw [e2] at e3; exact Option.some.inj e3
    exact ⟨k, e1, p, e4, e5⟩
  have htake : ∀ fs : List Nat, (∀ f ∈ fs, f < 2 * q.grid.length) →
      ∃ i4, take u fs = some i4 ∧ List.Forall₂ (fun f k => SideFacet q.grid.length k f) fs i4 := by
    intro fs
    induction fs with
    | nil => intro _; exact ⟨[], rfl, .nil⟩
    | cons f fs ih =>
      intro h
      obtain ⟨k, e1, e2⟩ := hside f (h f (by simp))
      obtain ⟨i4, e3, e4⟩ := ih (fun f hf => h f (by simp [hf]))
      refine ⟨k :: i4, ?_, .cons e2 e4⟩
      unfold take at e3 ⊢
      rw [List.mapM_cons, e1, e3]; rfl
  obtain ⟨i4, c1, c2⟩ := htake fs hlt
  refine ⟨ch', cells, unf, facets, i1, i2, i3, i4, e, ?_, b1, b2, b3, by rw [hfs]; exact c2⟩
  have hdim : q.u.dim = q.grid.length := hdl
  unfold quadraturePy appendCells appendFacets
  simp only [e, a1, a2, a3, Option.bind_some, Option.map_some, hdim, hu, hfs, c1]

/-! ### Cells by status, unfitted meshes -/

/-- The mesh of an unfitted domain, whole in one process: DOLFINx has all the rows, and without a list of active cells those are all
the cells of the grid. -/
structure Serial (u : UDomain) (nRows : Nat) : Prop where
  all : u.mesh.cellIndex.length = nRows
  numLocal : u.numLocal = nRows
  whole : u.mesh.active = none → nRows = listProd u.dom.n

/-- DOLFINx keeps the order of the cells of the grid. -/
def OrderKept (m : PyMesh) : Prop := ∀ l l' v v', l < l' → m.OrigCell l v → m.OrigCell l' v' → v < v'

theorem origCell_unique {m : PyMesh} {l v v' : Nat} (h : m.OrigCell l v) (h' : m.OrigCell l v') : v = v' := by
  unfold PyMesh.OrigCell at h h'
  rw [h] at h'
  simpa using h'

/-- Lists in increasing order with the same members are the same. -/
theorem eq_of_lt_of_mem {l l' : List Nat} (h : l.Pairwise (· < ·)) (h' : l'.Pairwise (· < ·)) (hm : ∀ x, x ∈ l ↔ x ∈ l') : l = l' := by
  have hp : l.Perm l' := (List.perm_ext_iff_of_nodup (h.imp fun a => Nat.ne_of_lt a) (h'.imp fun a => Nat.ne_of_lt a)).2 hm
  exact hp.eq_of_pairwise (fun a b _ _ h1 h2 => by omega) h h'

/-- The cells of the grid that are in the mesh, in increasing order. -/
def meshCells (N : Nat) (m : PyMesh) : List Nat := match m.active with
  | some a => npUnique a
  | none => List.range N

theorem meshCells_spec {u : UDomain} {nRows : Nat} (hu : u.Ok nRows) (hs : Serial u nRows) :
    (meshCells (listProd u.dom.n) u.mesh).Pairwise (· < ·) ∧ ∀ v, v ∈ meshCells (listProd u.dom.n) u.mesh ↔ ∃ l, u.mesh.OrigCell l v := by
  have hsurj : ∀ o, o < nRows → ∃ l : Nat, u.mesh.cellIndex[l]? = some o := by
    intro o ho
    have hp : u.mesh.cellIndex.Perm (List.range nRows) := by
      refine (List.subperm_of_subset hu.mesh.cells_nodup fun i hi => List.mem_range.2 (hu.mesh.cells_lt i hi)).perm_of_length_le ?_
      rw [hs.all]; simp
    exact List.mem_iff_getElem?.1 (hp.mem_iff.2 (List.mem_range.2 ho))
  unfold meshCells
  cases ha : u.mesh.active with
  | none =>
    refine ⟨List.pairwise_lt_range, fun v => ?_⟩
    rw [List.mem_range, ← hs.whole ha]
    simp only [origCell_iff, ha]
    constructor
    · intro h
      obtain ⟨l, e⟩ := hsurj v h
      exact ⟨l, v, e, rfl⟩
    · rintro ⟨l, o, e, rfl⟩
      exact hu.mesh.cells_lt _ (List.mem_of_getElem? e)
  | some a =>
    obtain ⟨h1, h2⟩ := npUnique_spec a
    refine ⟨h1, fun v => ?_⟩
    show v ∈ npUnique a ↔ _
    rw [h2]
    simp only [origCell_iff, ha]
    obtain ⟨-, hlen⟩ := hu.mesh.active a ha
    constructor
    · intro h
      obtain ⟨o, ho⟩ := List.mem_iff_getElem?.1 h
      obtain ⟨l, e⟩ := hsurj o (by rw [← hlen]; exact (List.getElem?_eq_some_iff.1 ho).1)
      exact ⟨l, o, e, ho⟩
    · rintro ⟨l, o, -, e⟩
      exact List.mem_of_getElem? e

/-- **C82** (cells, unfitted meshes; partial: only when DOLFINx keeps the order of the cells, see `C82_mesh_cells_fail`): the drawn cells
are the cells of the mesh whose status is asked for, in increasing order, with their box, their id in the grid, their DOLFINx id and the
number of their status. -/
theorem C82_mesh_cells_partial {argsort : List Int → List Nat} (hs : ∀ l, IsArgsort l (argsort l)) (g : Grid K) (hv : g.Valid) {u : UDomain}
    {nRows : Nat} (hu : u.Ok nRows) (hg : u.dom.n = g.numCellsDir) (hser : Serial u nRows) (hord : OrderKept u.mesh) (s : UDomain.Caches)
    (hk : UDomain.CellCachesOk argsort u s) (cut full empty : Bool) :
    ∃ r s', domainPy argsort g u s cut full empty = some (r, s') ∧ UDomain.CellCachesOk argsort u s' ∧
      (r.map (·.1.1.lex)).Pairwise (· < ·) ∧
      ∀ x (id : Int) k, ((x, id), k) ∈ r ↔ ∃ l : Nat, id = l ∧ u.mesh.OrigCell l x.lex ∧ g.cellDomain x.lex = some x.box ∧
        ∃ st, HasStatus u.dom.n u.dom.tree x.lex st ∧ wanted cut full empty st = true ∧ k = statusCode st := by
  have hdl : g.length = u.dim := by unfold UDomain.dim; rw [hg]; simp [Grid.numCellsDir]
  have hN : g.numCells = listProd u.dom.n := by rw [hg]; exact tsize_eq _
  obtain ⟨cells, g1, g2, g3⟩ := C82_grid g hv (by rw [hdl]; exact hu.dim_pos) (by rw [hdl]; exact hu.dim_le)
  obtain ⟨m1, m2⟩ := meshCells_spec hu hser
  have mlt : ∀ v ∈ meshCells (listProd u.dom.n) u.mesh, v < g.numCells := by
    intro v hv
    obtain ⟨l, hl⟩ := (m2 v).1 hv
    rw [hN]; exact hu.orig_lt l v hl
  -- the local cells and their originals
  obtain ⟨orig, o1, o2⟩ := C64_cells_round_trip hs u.mesh hu.mesh (List.range nRows) (fun l hl => by rw [hser.all]; exact List.mem_range.1 hl)
  have hF := origCells_rel o1
  have hlen : orig.length = nRows := by rw [← hF.length_eq]; simp
  have hrel : ∀ l v : Nat, orig[l]? = some v ↔ u.mesh.OrigCell l v := by
    have hone : ∀ l (hl : l < orig.length), u.mesh.OrigCell l orig[l] := by
      intro l hl
      have := hF.get (i := l) (by simpa [← hlen] using hl) hl
      simpa using this
    intro l v
    constructor
    · intro h
      obtain ⟨hl, rfl⟩ := List.getElem?_eq_some_iff.1 h
      exact hone l hl
    · intro h
      have hl : l < orig.length := by
        rw [hlen, ← hser.all]
        obtain ⟨o, e, -⟩ := (origCell_iff _ _ _).1 h
        exact (List.getElem?_eq_some_iff.1 e).1
      rw [List.getElem?_eq_getElem hl, origCell_unique (hone l hl) h]
  have horig : orig.Pairwise (· < ·) := by
    rw [List.pairwise_iff_getElem]
    intro i j hi hj hij
    exact hord i j _ _ hij ((hrel _ _).1 (List.getElem?_eq_getElem hi)) ((hrel _ _).1 (List.getElem?_eq_getElem hj))
  have hL : meshCells (listProd u.dom.n) u.mesh = orig := by
    refine eq_of_lt_of_mem m1 horig fun v => ?_
    rw [m2, List.mem_iff_getElem?]
    exact exists_congr fun l => (hrel l v).symm
  -- the cells of the data set
  have hlex : cells.map (·.lex) = List.range g.numCells := by
    refine List.ext_getElem? fun k => ?_
    by_cases hk : k < g.numCells
    · obtain ⟨box, -, e⟩ := g3 k hk
      rw [List.getElem?_map, e, List.getElem?_range hk]; rfl
    · rw [List.getElem?_eq_none (by simp; omega), List.getElem?_eq_none (by simp; omega)]
  have hsel : ∃ sel, (match u.mesh.active with
      | some a => take cells (npUnique a)
      | none => some cells) = some sel ∧ sel.map (·.lex) = orig ∧ ∀ x ∈ sel, g.cellDomain x.lex = some x.box := by
    have hbox : ∀ x ∈ cells, g.cellDomain x.lex = some x.box := by
      intro x hx
      obtain ⟨i, hi⟩ := List.mem_iff_getElem?.1 hx
      obtain ⟨box, e1, e2⟩ := g3 i (by rw [← g2]; exact (List.getElem?_eq_some_iff.1 hi).1)
      rw [hi] at e2
      rw [Option.some.inj e2]; exact e1
    unfold meshCells at hL mlt
    cases ha : u.mesh.active with
    | none =>
      rw [ha] at hL
      exact ⟨cells, rfl, by rw [hlex, hN]; exact hL, hbox⟩
    | some a =>
      rw [ha] at hL mlt
      obtain ⟨sel, t1, t2, t3⟩ := take_ok (a := cells) (idx := npUnique a) (fun i hi => by rw [g2]; exact mlt i hi)
      refine ⟨sel, t1, ?_, fun x hx => ?_⟩
      · rw [← hL]
        refine List.ext_getElem? fun k => ?_
        show _ = (npUnique a)[k]?
        by_cases hk : k < (npUnique a).length
        · have hi := mlt _ (List.getElem_mem hk)
          obtain ⟨box, -, e⟩ := g3 _ hi
          rw [List.getElem?_map, t3 k _ (List.getElem?_eq_getElem hk), e, List.getElem?_eq_getElem hk]; rfl
        · rw [List.getElem?_eq_none (by simp; omega), List.getElem?_eq_none (by omega)]
      · obtain ⟨k, hk⟩ := List.mem_iff_getElem?.1 hx
        have hk' : k < (npUnique a).length := by rw [← t2]; exact (List.getElem?_eq_some_iff.1 hk).1
        have e := t3 k _ (List.getElem?_eq_getElem hk')
        rw [hk] at e
        exact hbox x (List.mem_of_getElem? e.symm)
  obtain ⟨sel, s1, s2, s3⟩ := hsel
  have hsl : sel.length = nRows := by rw [← hlen, ← s2]; simp
  have hcart : cartMesh argsort g u.mesh = some (sel.zip ((List.range nRows).map Int.ofNat)) := by
    unfold cartMesh
    have : (sel.map fun (c : GridCell K) => Int.ofNat c.lex) = orig.map Int.ofNat := by rw [← s2]; simp
    rw [g1, Option.bind_some]
    cases ha : u.mesh.active with
    | none =>
      rw [ha] at s1
      obtain rfl : cells = sel := Option.some.inj s1
      rw [Option.bind_some, this, o2]; rfl
    | some a =>
      rw [ha] at s1
      have s1 : take cells (npUnique a) = some sel := s1
      simp only
      rw [s1, Option.bind_some, this, o2]; rfl
  obtain ⟨cutIds, s1', c1, c2, -, c4⟩ := UDomain.C66_cell_queries hs hu .cut (by simp) s hk
  obtain ⟨fullIds, s2', f1, f2, -, f4⟩ := UDomain.C66_cell_queries hs hu .full (by simp) s1' c2
  have hnats : ∀ l : List Nat, nats (l.map Int.ofNat) = some l := by
    intro l
    unfold nats
    induction l with
    | nil => rfl
    | cons a l ih =>
      rw [List.map_cons, List.mapM_cons, ih, if_neg (by simp)]
      rfl
  have hzl : (sel.zip ((List.range nRows).map Int.ofNat)).length = u.numLocal := by simp [hsl, hser.numLocal]
  obtain ⟨r, r1, r2, r3⟩ := markCells_spec hzl (fun i hi => ((c4 i).1 hi).1) (fun i hi => ((f4 i).1 hi).1) cut full empty
  refine ⟨r, s2', by unfold domainPy; simp only [hcart, c1, f1, hnats, Option.bind_some, r1, Option.map_some], f2, ?_, fun x id k => ?_⟩
  · have h1 := r2.map (fun x : GridCell K × Int => x.1.lex)
    rw [List.map_map] at h1
    refine List.Pairwise.sublist h1 ?_
    have : (sel.zip ((List.range nRows).map Int.ofNat)).map (fun x : GridCell K × Int => x.1.lex) = orig := by
      have e : (sel.zip ((List.range nRows).map Int.ofNat)).map Prod.fst = sel := List.map_fst_zip (by simp [hsl])
      rw [← s2]
      conv_rhs => rw [← e]
      rw [List.map_map]; rfl
    rw [this]; exact horig
  · rw [r3]
    obtain ⟨k1, k2, k3, -⟩ := C09_cells_by_status _ hu.facts.shape u.dom.tree hu.facts.reach
    obtain ⟨hw, -⟩ := Tree.WF.of_reachable hu.facts.shape.2 hu.facts.reach
    have hst : ∀ i, i < listProd u.dom.n → ∃ st, HasStatus u.dom.n u.dom.tree i st := by
      intro i hi
      obtain ⟨st, ⟨ids, a, b⟩, -⟩ := k2 i hi
      obtain ⟨ids', a', -, b', -⟩ := k1 st
      obtain rfl : ids = ids' := by rw [a] at a'; exact Option.some.inj a'
      exact ⟨st, (b' i).1 b⟩
    have hcode : ∀ i v st, u.mesh.OrigCell i v → HasStatus u.dom.n u.dom.tree v st →
        (if i ∈ fullIds then full else if i ∈ cutIds then cut else empty) = wanted cut full empty st ∧
        (if i ∈ fullIds then 0 else if i ∈ cutIds then 1 else 2) = statusCode st := by
      intro i v st ho h
      have hi : i < u.numLocal := by
        rw [hser.numLocal, ← hlen]
        exact (List.getElem?_eq_some_iff.1 ((hrel i v).2 ho)).1
      have key : ∀ st', (i < u.numLocal ∧ ∃ v, u.mesh.OrigCell i v ∧ HasStatus u.dom.n u.dom.tree v st') ↔ st = st' := by
        intro st'
        constructor
        · rintro ⟨-, v', a, b⟩
          obtain rfl := origCell_unique ho a
          exact hw.hasStatus_unique h b
        · rintro rfl
          exact ⟨hi, v, ho, h⟩
      have hfull : i ∈ fullIds ↔ st = .full := (f4 i).trans (key .full)
      have hcut : i ∈ cutIds ↔ st = .cut := (c4 i).trans (key .cut)
      rw [if_congr hfull rfl (if_congr hcut rfl rfl), if_congr hfull rfl (if_congr hcut rfl rfl)]
      cases st <;> simp [wanted, statusCode]
    have hz : ∀ i : Nat, (sel.zip ((List.range nRows).map Int.ofNat))[i]? = some (x, id) ↔ sel[i]? = some x ∧ id = i := by
      intro i
      rw [List.getElem?_zip_eq_some]
      refine and_congr_right fun h => ?_
      have hi : i < nRows := by rw [← hsl]; exact (List.getElem?_eq_some_iff.1 h).1
      rw [List.getElem?_map, List.getElem?_range hi]
      show some (Int.ofNat i) = some id ↔ _
      rw [Option.some.injEq]; exact eq_comm
    have hsi : ∀ i : Nat, sel[i]? = some x ↔ u.mesh.OrigCell i x.lex ∧ g.cellDomain x.lex = some x.box := by
      intro i
      constructor
      · intro h
        refine ⟨(hrel i _).1 ?_, s3 x (List.mem_of_getElem? h)⟩
        rw [← s2, List.getElem?_map, h]; rfl
      · rintro ⟨h1, h2⟩
        have h3 := (hrel i _).2 h1
        rw [← s2, List.getElem?_map, Option.map_eq_some_iff] at h3
        obtain ⟨y, e1, e2⟩ := h3
        have h4 := s3 y (List.mem_of_getElem? e1)
        rw [e2, h2] at h4
        rw [e1]
        refine congrArg some ?_
        cases x; cases y
        simp only at e2 h4
        rw [e2, Option.some.inj h4]
    constructor
    · rintro ⟨i, e1, e2, e3⟩
      obtain ⟨a, b⟩ := (hz i).1 e1
      obtain ⟨c, d⟩ := (hsi i).1 a
      obtain ⟨st, hs'⟩ := hst x.lex (hu.orig_lt i _ c)
      rw [(hcode i _ st c hs').1] at e2
      rw [(hcode i _ st c hs').2] at e3
      exact ⟨i, b, c, d, st, hs', e2, e3⟩
    · rintro ⟨i, b, c, d, st, hs', e2, e3⟩
      exact ⟨i, (hz i).2 ⟨(hsi i).2 ⟨c, d⟩, b⟩, by rw [(hcode i _ st c hs').1]; exact e2, by rw [(hcode i _ st c hs').2]; exact e3⟩

theorem argsort_swap {argsort : List Int → List Nat} (hs : ∀ l, IsArgsort l (argsort l)) : argsort [1, 0] = [1, 0] := by
  obtain ⟨h1, h2⟩ := hs [1, 0]
  have hl : (argsort [1, 0]).length = 2 := h1.length_eq
  have hn : (argsort [1, 0]).Nodup := h1.nodup_iff.2 List.nodup_range
  have hm : ∀ x ∈ argsort [1, 0], x < 2 := fun x hx => by simpa using h1.mem_iff.1 hx
  generalize argsort [1, 0] = l at h2 hl hn hm
  match l, hl with
  | [a, b], _ =>
    have key : ∀ a < 2, ∀ b < 2, [a, b].Nodup → ([a, b].map fun i => ([1, 0] : List Int).getD i 0).Pairwise (· ≤ ·) → [a, b] = [1, 0] := by decide
    exact key a (hm a (by simp)) b (hm b (by simp)) hn h2

/-- The mesh of `halfDomain` with its two cells in the other order, as DOLFINx may number them. -/
def swapped : UDomain :=
  { UDomain.halfDomain with mesh := ⟨none, [], [1, 0], []⟩
                            topo := ⟨7, [[4, 2, 5, 6], [0, 1, 2, 3]], [[1], [1], [1, 0], [1], [0], [0], [0]]⟩ }

omit [Field K] [LinearOrder K] [IsStrictOrderedRing K] in
theorem swapped_domain {argsort : List Int → List Nat} (hs : ∀ l, IsArgsort l (argsort l)) (cut full empty : Bool) (g : Grid K) :
    domainPy argsort g swapped {} cut full empty = domainPy (fun _ => [1, 0]) g swapped {} cut full empty := by
  have h : ∀ l, swapped.mesh.dlfCells argsort l = swapped.mesh.dlfCells (fun _ => [1, 0]) l := by
    intro l
    simp only [PyMesh.dlfCells, swapped, Option.bind_some]
    unfold findInArray
    have e : argsort (List.map Int.ofNat [1, 0]) = [1, 0] := argsort_swap hs
    rw [e]
  have hg : UDomain.getCells argsort swapped = UDomain.getCells (fun _ => [1, 0]) swapped := by
    funext st
    unfold UDomain.getCells
    simp only [h]
  have hc : UDomain.cells argsort swapped = UDomain.cells (fun _ => [1, 0]) swapped := by
    funext st s
    unfold UDomain.cells
    rw [hg]
  have hm : cartMesh argsort g swapped.mesh = cartMesh (fun _ => [1, 0]) g swapped.mesh := by
    unfold cartMesh
    simp only [h]
  unfold domainPy
  rw [hc, hm]

/-- **C82** (cells, unfitted meshes, failure): the domain x < 1 of the grid with the cells [0,1] and [1,2] (times [0,1]), whose first cell
is full and whose second cell is empty. If DOLFINx numbers the second cell first, asking for the cut and the full cells draws the empty cell
as a full one, and the full cell is not drawn. -/
theorem C82_mesh_cells_fail {argsort : List Int → List Nat} (hs : ∀ l, IsArgsort l (argsort l)) :
    swapped.mesh.Ok 2 ∧ Serial swapped 2 ∧ swapped.mesh.OrigCell 0 1 ∧ swapped.mesh.OrigCell 1 0 ∧
      HasStatus swapped.dom.n swapped.dom.tree 0 .full ∧ HasStatus swapped.dom.n swapped.dom.tree 1 .empty ∧
      (domainPy argsort [[(0 : ℚ), 1, 2], [0, 1]] swapped {} true true false).map (fun r => r.1.map fun x => (x.1.1.lex, x.1.1.box, x.1.2, x.2)) =
        some [(1, [(1, 2), (0, 1)], 0, statusCode .full)] := by
  refine ⟨⟨by decide, by decide, by decide, by intro a h; simp [swapped] at h⟩, ⟨rfl, rfl, fun _ => ?_⟩, ?_, ?_, ?_, ?_, ?_⟩
  · decide +kernel
  · unfold PyMesh.OrigCell; decide
  · unfold PyMesh.OrigCell; decide
  · have := C09_cells_by_status _ UDomain.halfDomain_ok.facts.shape _ UDomain.halfDomain_ok.facts.reach
    obtain ⟨ids, h1, -, h3, -⟩ := this.1 .full
    refine (h3 0).1 ?_
    have e : (UDomain.halfDomain.dom.tree.getCellIds UDomain.halfDomain.dom.n .full) = some [0] := by decide +kernel
    rw [e] at h1
    rw [← Option.some.inj h1]; decide
  · have := C09_cells_by_status _ UDomain.halfDomain_ok.facts.shape _ UDomain.halfDomain_ok.facts.reach
    obtain ⟨ids, h1, -, h3, -⟩ := this.1 .empty
    refine (h3 1).1 ?_
    have e : (UDomain.halfDomain.dom.tree.getCellIds UDomain.halfDomain.dom.n .empty) = some [1] := by decide +kernel
    rw [e] at h1
    rw [← Option.some.inj h1]; decide
  · rw [swapped_domain hs]
    decide +kernel

/-! ### Facets by status -/

omit [Field K] [LinearOrder K] [IsStrictOrderedRing K] in
/-- **C82** (facets, C++ domains, failure): the facets of a C++ domain, which the documentation accepts, are never drawn. -/
theorem C82_facets_cpp_fail (argsort : List Int → List Nat) (g : Grid K) (d : Dom) (s : UDomain.Caches) (cut full empty : Bool) :
    facetsPlot argsort g (.cpp d) s cut full empty = none := rfl

omit [Field K] [LinearOrder K] [IsStrictOrderedRing K] in
theorem half_domain {argsort : List Int → List Nat} (hs : ∀ l, IsArgsort l (argsort l)) (cut full empty : Bool) (g : Grid K) :
    domainPy argsort g UDomain.halfDomain {} cut full empty = domainPy (fun _ => [0, 1]) g UDomain.halfDomain {} cut full empty := by
  have h : ∀ l, UDomain.halfDomain.mesh.dlfCells argsort l = UDomain.halfDomain.mesh.dlfCells (fun _ => [0, 1]) l := by
    intro l
    simp only [PyMesh.dlfCells, UDomain.halfDomain, Option.bind_some]
    unfold findInArray
    have e : argsort (List.map Int.ofNat [0, 1]) = [0, 1] := UDomain.argsort_two hs
    rw [e]
  have hg : UDomain.getCells argsort UDomain.halfDomain = UDomain.getCells (fun _ => [0, 1]) UDomain.halfDomain := by
    funext st
    unfold UDomain.getCells
    simp only [h]
  have hc : UDomain.cells argsort UDomain.halfDomain = UDomain.cells (fun _ => [0, 1]) UDomain.halfDomain := by
    funext st s
    unfold UDomain.cells
    rw [hg]
  have hm : cartMesh argsort g UDomain.halfDomain.mesh = cartMesh (fun _ => [0, 1]) g UDomain.halfDomain.mesh := by
    unfold cartMesh
    simp only [h]
  unfold domainPy
  rw [hc, hm]

/-- **C82** (facets, unfitted meshes, failure): in the domain x < 1 of two cells, DOLFINx's order kept, the exterior empty facets are the
bottom, the right and the top of the second cell. Drawn are its bottom, its left (the facet between the cells, not an exterior one) and its
top, with the ids of other facets: VTK numbers the edges of a quadrilateral bottom, right, top, left. -/
theorem C82_facets_fail {argsort : List Int → List Nat} (hs : ∀ l, IsArgsort l (argsort l)) :
    (UDomain.halfDomain.Answer (.empty true) 1 2 ∧ ¬ UDomain.halfDomain.Answer (.empty true) 1 1) ∧
      facetsPlot argsort [[(0 : ℚ), 1, 2], [0, 1]] (.mesh UDomain.halfDomain) {} false false true =
        some [⟨1, 0, 2, 2, 0⟩, ⟨1, 2, 2, 3, 3⟩, ⟨1, 3, 2, 0, 1⟩] := by
  refine ⟨⟨⟨5, ⟨_, rfl, rfl⟩, ?_, 1, 1, ?_, ?_, ?_, ?_⟩, ?_⟩, ?_⟩
  · unfold UDomain.Ext; decide
  · unfold PyMesh.OrigCell; decide
  · decide +kernel
  · show SideFacet UDomain.halfDom.n.length 2 1
    have hn : UDomain.halfDom.n = [2, 1] := by decide +kernel
    rw [hn]
    exact ⟨_, rfl, by decide⟩
  · show UDomain.halfDom.isEmptyFacet 1 1 = some true
    decide +kernel
  · rintro ⟨f, ⟨row, h1, h2⟩, h3, -⟩
    obtain rfl : row = [4, 2, 5, 6] := (Option.some.inj h1).symm
    obtain rfl : f = 2 := (Option.some.inj h2).symm
    revert h3
    unfold UDomain.Ext; decide
  · unfold facetsPlot
    simp only [half_domain hs, UDomain.half_ask hs]
    decide +kernel

/-! ### Reparameterizations -/

/-- VTK's types of cells: lines, quadrilaterals and hexahedra, linear or Lagrange's of higher degree. -/
def vtkType (dim degree : Nat) : Nat :=
  match dim with
  | 1 => if degree = 1 then 3 else 68
  | 2 => if degree = 1 then 9 else 70
  | _ => if degree = 1 then 12 else 72

/-- An unstructured grid shows the cells of the connectivity `conn` of a mesh (`order` points per direction) as VTK wants them: every cell
lists all its points, in the order of VTK's nodes. -/
def Shows (gr : Unstructured K) (dim order range : Nat) (points : List (List K)) (conn : List Nat) : Prop :=
  gr.points = points.map (fun p => if range = 2 then p ++ [0] else p) ∧
  gr.types = List.replicate gr.conn.length (vtkType dim (order - 1)) ∧
  gr.conn.length = conn.length / order ^ dim ∧
  ∀ k, k < gr.conn.length → ∃ row, gr.conn[k]? = some (order ^ dim :: row) ∧ row.length = order ^ dim ∧
    ∀ (j : Nat) t, ((vtk dim).nodes dim order)[j]? = some t →
      ∃ n, row[j]? = some n ∧ points.getD n [] = vertex dim order points conn k t

omit [LinearOrder K] [IsStrictOrderedRing K] in
theorem unstructured_spec (points : List (List K)) (w : List Nat) (dim order range : Nat) (h1 : 1 ≤ dim) (h3 : dim ≤ 3) (ho : 1 < order)
    (hw : w.length % order ^ dim = 0) :
    ∃ conn gr, Reparam.connArray w (order ^ dim) = some conn ∧
      unstructured (points.map fun p => if range = 2 then p ++ [0] else p) (order - 1) conn (order ^ dim) dim = some gr ∧
      Shows gr dim order range points w := by
  have hpos : 0 < order ^ dim := Nat.pow_pos (by omega)
  have hd : order - 1 + 1 = order := by omega
  obtain ⟨D, eD, pD⟩ := vtkTids_perm h1 h3 (d := order - 1) (by omega)
  have hD : D = (vtk dim).nodes dim order := by
    have := vtkTids_order h1 h3 (d := order - 1) (by omega)
    rw [eD, hd] at this; exact Option.some.inj this
  have e2 : vtkToLexicg dim (order - 1) = some (D.map fun t => flatIndex t (List.replicate dim order)) := by
    unfold vtkToLexicg; rw [eD, Option.map_some, toLexicg_spec h1 h3 pD, hd]
  rw [hd] at pD
  have hDl : D.length = order ^ dim := by rw [pD.length_eq, length_indices, listProd_replicate]
  have hlt : ∀ t ∈ D, flatIndex t (List.replicate dim order) < order ^ dim := by
    intro t ht
    rw [← listProd_replicate]; exact flatIndex_lt' (pD.mem_iff.1 ht)
  have hc : Reparam.connArray w (order ^ dim) = some (chunks (order ^ dim) w) := by
    unfold Reparam.connArray
    split
    · rename_i h
      rw [List.isEmpty_iff] at h
      rw [h]; simp [chunks]
    · rfl
  have hty : cellType dim (order - 1) = some (vtkType dim (order - 1)) := by
    unfold cellType vtkType
    rcases dims h1 h3 with rfl | rfl | rfl <;> by_cases h : order - 1 = 1 <;> simp [h]
  have hrows : ((chunks (order ^ dim) w).mapM fun row => (take row (D.map fun t => flatIndex t (List.replicate dim order))).map fun r => order ^ dim :: r) =
      some ((List.range (w.length / order ^ dim)).map fun k => order ^ dim :: D.map fun t => w.getD (k * order ^ dim + flatIndex t (List.replicate dim order)) 0) := by
    unfold chunks
    rw [List.mapM_map]
    refine mapM_some _ _ _ fun k hk => ?_
    rw [List.mem_range] at hk
    have hkw : (k + 1) * order ^ dim ≤ w.length := by
      calc (k + 1) * order ^ dim ≤ w.length / order ^ dim * order ^ dim := Nat.mul_le_mul_right _ hk
        _ ≤ w.length := Nat.div_mul_le_self _ _
    rw [Nat.succ_mul] at hkw
    have key : take ((w.drop (k * order ^ dim)).take (order ^ dim)) (D.map fun t => flatIndex t (List.replicate dim order)) =
        some (D.map fun t => w.getD (k * order ^ dim + flatIndex t (List.replicate dim order)) 0) := by
      unfold take
      rw [List.mapM_map]
      refine mapM_some _ _ _ fun t ht => ?_
      have hl := hlt t ht
      show ((w.drop (k * order ^ dim)).take (order ^ dim))[flatIndex t (List.replicate dim order)]? = _
      rw [List.getElem?_take_of_lt hl, List.getElem?_drop, List.getElem?_eq_getElem (by omega), List.getD_eq_getElem?_getD,
        List.getElem?_eq_getElem (by omega)]
      rfl
    show (take ((w.drop (k * order ^ dim)).take (order ^ dim)) _).map _ = _
    rw [key]; rfl
  refine ⟨_, ⟨(List.range (w.length / order ^ dim)).map fun k => order ^ dim :: D.map fun t => w.getD (k * order ^ dim + flatIndex t (List.replicate dim order)) 0,
      List.replicate (w.length / order ^ dim) (vtkType dim (order - 1)), points.map fun p => if range = 2 then p ++ [0] else p⟩, hc, ?_, ?_⟩
  · unfold unstructured
    rw [e2, Option.bind_some, if_pos ⟨by simpa using hDl, by
      intro i hi; obtain ⟨t, ht, rfl⟩ := List.mem_map.1 hi; exact hlt t ht⟩, hrows, Option.bind_some, hty, Option.map_some]
    simp [chunks]
  · refine ⟨rfl, by simp, by simp, fun k hk => ?_⟩
    have hk : k < w.length / order ^ dim := by simpa using hk
    refine ⟨D.map fun t => w.getD (k * order ^ dim + flatIndex t (List.replicate dim order)) 0, by simp [hk], by simpa using hDl, fun j t hj => ?_⟩
    rw [← hD] at hj
    exact ⟨_, by rw [List.getElem?_map, hj]; rfl, rfl⟩

/-- **C82** (reparameterizations): for every reparameterization (whatever its history, see `C53`) the two grids are created and show its
cells and its wirebasket. -/
theorem C82_reparam (E : Env K) (hsrt : IsSort E.srt) (hE : IsEdgeSort E.srtE) (m : Mesh K) (h : Built E m) :
    ∃ cells wires, reparamGrid m = some (cells, wires) ∧ Shows cells m.dim m.order m.range m.points m.conn ∧
      Shows wires 1 m.order m.range m.points m.wires := by
  have hi := (built_inv E hsrt hE m h).1
  obtain ⟨c1, g1, a1, a2, a3⟩ := unstructured_spec m.points m.conn m.dim m.order m.range hi.dim hi.dim3 hi.order hi.whole
  obtain ⟨c2, g2, b1, b2, b3⟩ := unstructured_spec m.points m.wires 1 m.order m.range (by omega) (by omega) hi.order
    (by rw [Nat.pow_one]; exact hi.wholeWires)
  rw [Nat.pow_one] at b1 b2
  refine ⟨g1, g2, ?_, a3, b3⟩
  unfold reparamGrid Reparam.cellsConn Reparam.wirebasketConn ppc
  simp only [a1, b1, Option.bind_some, a2, b2, Option.map_some]

/-! ### Concrete cases (non-vacuity) -/

set_option synthInstance.maxHeartbeats 400000 in
set_option synthInstance.maxSize 1000 in
/-- The domain of `Qugar.Example` meets the hypotheses of `C82_quadrature` and `C82_quadrature_mesh`, and its facet 2 of the cell 1 those of
`C82_facets_twice`. -/
example : ∃ d, build true Example.oracles Example.grid none = .ok d ∧ CppOk (exDomain d) ∧ FacetDims Example.qo Example.grid ∧
    (exDomain d).u.mesh.Ok 3 ∧ d.isCutFacet 1 2 = some true ∧ d.hasUnfFacet 1 2 = some true ∧
    (quadratureCpp (exDomain d) 1 Cache.init).map (fun r => (r.2.1.points, r.2.2.1.points, r.2.2.1.normals, r.2.2.2.points, r.2.2.2.lexFacets)) =
      some ([[5 / 2, 1 / 2, 0]], [[3, 1 / 2, 0]], some [[1, 0, 0]], [[5 / 2, 0, 0], [5 / 2, 1, 0], [5 / 2, 0, 0], [5 / 2, 1, 0]], some [2, 3, 2, 3]) ∧
    (domainCpp Example.grid d true false true).map (fun r => r.map fun x => (x.1.box, x.1.lex, x.2)) =
      some [([(2, 4), (0, 1)], 1, 1), ([(4, 6), (0, 1)], 2, 2)] := by
  have hv : Example.grid.Valid := by
    intro k hk
    simp only [Example.grid, List.mem_cons, List.not_mem_nil, or_false] at hk
    rcases hk with rfl | rfl <;> constructor <;> simp <;> norm_num
  obtain ⟨d, h1, h2⟩ := exists_ok_of (x := build true Example.oracles Example.grid none) (fun d : Dom => d.isCutFacet 1 2 = some true ∧ d.hasUnfFacet 1 2 = some true ∧
    (quadratureCpp (exDomain d) 1 Cache.init).map (fun r => (r.2.1.points, r.2.2.1.points, r.2.2.1.normals, r.2.2.2.points, r.2.2.2.lexFacets)) =
      some ([[5 / 2, 1 / 2, 0]], [[3, 1 / 2, 0]], some [[1, 0, 0]], [[5 / 2, 0, 0], [5 / 2, 1, 0], [5 / 2, 0, 0], [5 / 2, 1, 0]], some [2, 3, 2, 3]) ∧
    (domainCpp Example.grid d true false true).map (fun r => r.map fun x => (x.1.box, x.1.lex, x.2)) =
      some [([(2, 4), (0, 1)], 1, 1), ([(4, 6), (0, 1)], 2, 2)]) (by decide +kernel)
  refine ⟨d, h1, ⟨hv, .inl rfl, ⟨true, Example.oracles, none, .inr rfl, h1⟩, rfl⟩, ⟨?_, ?_⟩, ⟨show [2, 0, 1].Nodup by decide,
    show ∀ i ∈ [2, 0, 1], i < 3 by decide, show [2, 0, 1] ≠ [] by decide, fun a h => by cases h⟩, h2⟩
  · intro c dom f n _ x hx
    simp only [Example.qo, List.mem_cons, List.not_mem_nil, or_false] at hx
    rcases hx with rfl | rfl <;> rfl
  · intro c dom f n _ x hx
    simp [Example.qo] at hx

/-- `halfDomain` meets the hypotheses of `C82_mesh_cells_partial`. -/
example : UDomain.halfDomain.Ok 2 ∧ Serial UDomain.halfDomain 2 ∧ OrderKept UDomain.halfDomain.mesh ∧
    UDomain.halfDomain.dom.n = Grid.numCellsDir [[(0 : ℚ), 1, 2], [0, 1]] := by
  refine ⟨UDomain.halfDomain_ok, ⟨rfl, rfl, fun _ => by decide +kernel⟩, fun l l' v v' h h1 h2 => ?_, by decide +kernel⟩
  rw [origCell_iff] at h1 h2
  obtain ⟨o, a, b⟩ := h1
  obtain ⟨o', a', b'⟩ := h2
  have e : o = v := b
  have e' : o' = v' := b'
  have key : ∀ l v : Nat, ([0, 1] : List Nat)[l]? = some v → l = v := by
    intro l v h
    match l, h with
    | 0, h => exact Option.some.inj h
    | 1, h => exact Option.some.inj h
  have := key l o a
  have := key l' o' a'
  omega

set_option synthInstance.maxHeartbeats 400000 in
set_option synthInstance.maxSize 1000 in
/-- A cell of degree 2 of a reparameterization of dimension 2 in the plane (`C82_reparam`): VTK's order of its nine points. -/
example : (reparamGrid (K := ℚ) { dim := 2, range := 2, order := 3, points := (List.range 9).map fun i => [((i % 3 : Nat) : ℚ), ((i / 3 : Nat) : ℚ)],
                                  conn := List.range 9, wires := [0, 1, 2] }).map (fun r => (r.1.conn, r.1.types, r.2.conn, r.2.types, r.1.points.getD 5 [])) =
    some ([[9, 0, 2, 8, 6, 1, 5, 7, 3, 4]], [70], [[3, 0, 2, 1]], [68], [2, 1, 0]) := by decide +kernel

end Qugar.Py.Plot
