import Verif.Model.PyQuad
import Verif.Props.Quadrature
import Verif.Props.QuadTotal
import Verif.Props.QuadExamples
import Verif.Props.PyUnfitted
import Verif.Props.PyFacetQuad
/-
Property theorems C76 (quadratures through the Python layer: the rule returned for a local cell or facet is the rule of the cell or
facet of the original mesh that it is).
-/
namespace Qugar.Py.Quad
open Spec Spec.Cell TS

variable {K : Type} [Field K] [LinearOrder K] [IsStrictOrderedRing K]

/-! ### Arrays passed to C++ -/

theorem mapM_getElem_range (b : List Nat) (s n : Nat) (h : s + n ≤ b.length) :
    ((List.range n).mapM fun k => b[s + k]?) = some ((b.drop s).take n) := by
  induction n with
  | zero => simp
  | succ n ih =>
    rw [List.range_succ, List.mapM_append, ih (by omega)]
    have h1 : b[s + n]? = some b[s + n] := List.getElem?_eq_getElem (by omega)
    have h2 : (b.drop s)[n]? = some b[s + n] := by rw [List.getElem?_drop]; exact h1
    simp [h1, List.take_add_one, h2]

/-- **C76** (arrays): arrays whose entries are consecutive in memory are read as they are. -/
theorem C76_arrays (a : NdArray) (h1 : a.stride = 1) (hb : a.start + a.size ≤ a.buffer.length) :
    ∃ l, a.entries = some l ∧ a.read = some l := by
  refine ⟨(a.buffer.drop a.start).take a.size, ?_, mapM_getElem_range _ _ _ hb⟩
  rw [← mapM_getElem_range _ _ _ hb]
  unfold NdArray.entries
  refine congrArg (fun f : Nat → Option Nat => (List.range a.size).mapM f) ?_
  funext k
  have h0 : ¬ ((a.start : Int) + k * a.stride < 0) := by rw [h1]; omega
  have h2 : ((a.start : Int) + k * a.stride).toNat = a.start + k := by rw [h1]; omega
  simp only [h0, if_false, h2]

theorem read_new (l : List Nat) : (NdArray.new l).read = some l := by
  have := mapM_getElem_range l 0 l.length (by omega)
  unfold NdArray.read NdArray.new
  simpa using this

/-- **C76** fails for other arrays: the wrappers accept any array and read consecutive memory. The cells of the facets that
`MeshFacets.unique` leaves are a column of an array of pairs: cells 5 and 7 with facets 2 and 0 are read as "cells" 5 and 2. -/
theorem C76_strided_arrays_fail :
    (NdArray.firstColumn (uniqueF [(7, 0), (5, 2), (7, 0)])).entries = some [5, 7] ∧
      (NdArray.firstColumn (uniqueF [(7, 0), (5, 2), (7, 0)])).read = some [5, 2] := by
  decide

/-! ### Cells -/

theorem origCells_rel {m : PyMesh} {dlf orig : List Nat} (h : m.origCells dlf = some orig) :
    List.Forall₂ (fun l v => m.OrigCell l v) dlf orig := by
  have key : ∀ {a idx r : List Nat}, take a idx = some r → List.Forall₂ (fun i x => a[i]? = some x) idx r := by
    intro a idx
    induction idx with
    | nil => intro r hr; simp [take] at hr; subst hr; exact .nil
    | cons i idx ih =>
      intro r hr
      unfold take at hr
      rw [List.mapM_cons] at hr
      cases h1 : a[i]? with
      | none => rw [h1] at hr; simp at hr
      | some x =>
        cases h2 : idx.mapM (fun i => a[i]?) with
        | none => rw [h1, h2] at hr; simp at hr
        | some r' =>
          rw [h1, h2] at hr
          obtain rfl : x :: r' = r := by simpa using hr
          exact .cons h1 (ih h2)
  unfold PyMesh.origCells at h
  cases h1 : take m.cellIndex dlf with
  | none => rw [h1] at h; simp at h
  | some o =>
    rw [h1, Option.bind_some] at h
    have r1 := key h1
    cases ha : m.active with
    | none =>
      rw [ha] at h
      obtain rfl := Option.some.inj h
      exact r1.imp fun l v hv => (origCell_iff m l v).2 ⟨v, hv, by rw [ha]⟩
    | some a =>
      rw [ha] at h
      have r2 := key h
      have comp : ∀ {l1 l2 l3 : List Nat}, List.Forall₂ (fun i x => m.cellIndex[i]? = some x) l1 l2 →
          List.Forall₂ (fun i x => a[i]? = some x) l2 l3 → List.Forall₂ (fun l v => m.OrigCell l v) l1 l3 := by
        intro l1 l2 l3 q1
        induction q1 generalizing l3 with
        | nil => intro q2; cases q2; exact .nil
        | cons hx _ ih =>
          intro q2
          cases q2 with
          | cons hy q2 => exact .cons ((origCell_iff m _ _).2 ⟨_, hx, by rw [ha]; exact hy⟩) (ih q2)
      exact comp r1 r2

theorem forall₂_comp {α β γ : Type} {R : α → β → Prop} {S : β → γ → Prop} {l1 : List α} {l2 : List β} {l3 : List γ}
    (h1 : List.Forall₂ R l1 l2) (h2 : List.Forall₂ S l2 l3) : List.Forall₂ (fun a c => ∃ b, R a b ∧ S b c) l1 l3 := by
  induction h1 generalizing l3 with
  | nil => cases h2; exact .nil
  | cons h _ ih => cases h2 with | cons h' t => exact .cons ⟨_, h, h'⟩ (ih t)

/-- **C76** (cells): whatever was asked before, the cells of the returned object are the given ones, and the points and weights are
the concatenation, in the order of the given local cells, of the rules with the number of Gauss points of the degree that the status of
the original cell of each of them prescribes. -/
theorem C76_cells (q : QDomain K) (hg : q.grid.length = 2 ∨ q.grid.length = 3) (history : List (QuadCall K))
    (hd : ∀ c ∈ history, c.dim = 2 ∨ c.dim = 3) (ch ch' : Cache K)
    (hr : QuadCall.execAll q.debug q.rules history Cache.init = some ch) (degree : Nat) (cells : List Nat) (r : CustomQuad K)
    (h : createCells q degree cells ch = some (ch', r)) :
    r.cells = cells ∧ r.nPts.length = cells.length ∧ r.points.length = r.weights.length ∧ r.nPts.sum = r.points.length ∧
      ∃ blocks, List.Forall₂ (fun l b => ∃ v, q.u.mesh.OrigCell l v ∧
          IsCellRule q.rules q.oracle q.grid q.u.dom (UDomain.numGaussPoints degree) v b) cells blocks ∧
        Stored blocks r.nPts r.points r.weights := by
  unfold createCells cppCells at h
  rw [Option.bind_eq_some_iff] at h
  obtain ⟨orig, h1, h⟩ := h
  rw [Option.map_eq_some_iff] at h
  obtain ⟨⟨ch1, x⟩, h2, h3⟩ := h
  rw [read_new, Option.bind_some] at h2
  cases h3
  obtain ⟨-, l1, l2, l3, bs, b1, b2⟩ := C18_cell_quadrature q.debug q.rules history hd ch ch1 hr q.oracle q.grid hg q.u.dom orig _ x h2
  have hrel := origCells_rel h1
  exact ⟨rfl, by rw [l2, hrel.length_eq], l1, l3, bs, forall₂_comp hrel b1, b2⟩

/-- What ties the Python object to the C++ one: the C++ domain was built on the grid, the mesh has the cells of the grid (or some of
them). -/
structure QDomain.Ok (q : QDomain K) (nRows : Nat) : Prop where
  valid : q.grid.Valid
  dim : q.grid.length = 2 ∨ q.grid.length = 3
  built : ∃ debug oo targets, (debug = false ∨ targets = none) ∧ build debug oo q.grid targets = .ok q.u.dom
  mesh : q.u.mesh.Ok nRows
  cells : ∀ l v, q.u.mesh.OrigCell l v → v < q.grid.numCells
  release : q.debug = false

theorem numGauss_le {degree nMax : Nat} (h : degree + 1 ≤ 2 * nMax) :
    1 ≤ UDomain.numGaussPoints degree ∧ UDomain.numGaussPoints degree ≤ nMax := by
  obtain ⟨h1, -, h3⟩ := UDomain.C66_gauss degree
  exact ⟨h1, h3 nMax (by omega) (by omega)⟩

theorem origCells_some {q : QDomain K} {nRows : Nat} (hq : q.Ok nRows) {cells : List Nat}
    (hc : ∀ l ∈ cells, l < q.u.mesh.cellIndex.length) :
    ∃ orig, q.u.mesh.origCells cells = some orig ∧ ∀ v ∈ orig, v < q.grid.numCells := by
  obtain ⟨argsort, hs⟩ := argsort_exists
  obtain ⟨orig, h1, -⟩ := C64_cells_round_trip hs q.u.mesh hq.mesh cells hc
  refine ⟨orig, h1, fun v hv => ?_⟩
  obtain ⟨k, hk, rfl⟩ := List.mem_iff_getElem.1 hv
  have hrel := origCells_rel h1
  exact hq.cells _ _ (hrel.get (by rw [hrel.length_eq]; exact hk) hk)

/-- **C76** (cells, no failure): for local cells and degrees that the tables of rules reach, the quadrature is created. -/
theorem C76_cells_total (q : QDomain K) {nRows : Nat} (hq : q.Ok nRows) (history : List (QuadCall K))
    (hd : ∀ c ∈ history, c.dim = 2 ∨ c.dim = 3) (ch : Cache K)
    (hr : QuadCall.execAll q.debug q.rules history Cache.init = some ch) (degree : Nat) (hn : degree + 1 ≤ 2 * q.rules.nMax)
    (cells : List Nat) (hc : ∀ l ∈ cells, l < q.u.mesh.cellIndex.length) :
    ∃ x, createCells q degree cells ch = some x := by
  obtain ⟨debug, oo, targets, hdb, hb⟩ := hq.built
  obtain ⟨orig, h1, h2⟩ := origCells_some hq hc
  obtain ⟨d, x, e1, e2⟩ := C18_cell_quadrature_total debug q.debug oo q.grid targets hq.valid hq.dim hdb q.rules history hd ch hr q.oracle
    orig h2 _ (numGauss_le hn)
  obtain rfl : q.u.dom = d := by rw [hb] at e1; exact Except.ok.inj e1
  unfold createCells cppCells
  rw [h1, Option.bind_some, read_new, Option.bind_some, e2]
  exact ⟨_, rfl⟩

/-! ### Unfitted boundaries -/

/-- **C76** (unfitted boundaries): the same, with the normals, for the parts of the unfitted boundary in the interior of the cells:
the parts on facets are not included. -/
theorem C76_unfitted (q : QDomain K) (hg : q.grid.length = 2 ∨ q.grid.length = 3) (history : List (QuadCall K))
    (hd : ∀ c ∈ history, c.dim = 2 ∨ c.dim = 3) (ch ch' : Cache K)
    (hr : QuadCall.execAll q.debug q.rules history Cache.init = some ch) (degree : Nat) (cells : List Nat) (r : CustomQuadUnf K)
    (h : createUnf q degree cells ch = some (ch', r)) :
    r.cells = cells ∧ r.nPts.length = cells.length ∧ r.points.length = r.weights.length ∧ r.points.length = r.normals.length ∧
      r.nPts.sum = r.points.length ∧
      ∃ blocks, List.Forall₂ (fun l b => ∃ v, q.u.mesh.OrigCell l v ∧
          IsUnfRule q.rules q.oracle q.grid q.u.dom (UDomain.numGaussPoints degree) false false v b) cells blocks ∧
        UStored blocks r.nPts r.points r.weights r.normals := by
  unfold createUnf cppUnf at h
  rw [Option.bind_eq_some_iff] at h
  obtain ⟨orig, h1, h⟩ := h
  rw [Option.map_eq_some_iff] at h
  obtain ⟨⟨ch1, x⟩, h2, h3⟩ := h
  rw [read_new, Option.bind_some] at h2
  cases h3
  obtain ⟨-, l1, l1', l2, l3, bs, b1, b2⟩ := C51_unfitted_boundary_quadrature q.debug q.rules history hd ch ch1 hr q.oracle q.grid hg
    q.u.dom orig _ _ _ x h2
  have hrel := origCells_rel h1
  exact ⟨rfl, by rw [l2, hrel.length_eq], l1, l1', l3, bs, forall₂_comp hrel b1, b2⟩

/-- **C76** (unfitted boundaries, no point of a facet): the rule of a cell has no point that lies on a facet of the cell with an
unfitted boundary (these belong to the quadratures of facets): nothing is counted twice. -/
theorem C76_unfitted_off_facets {t : QuadType K} {o : QOracle K} {g : Grid K} {d : Dom} {n v : Nat} {b : List (UNode K)}
    (h : IsUnfRule t o g d n false false v b) {dom : Box K} (hdom : g.cellDomain v = some dom) {f : Nat} (hf : f < g.length * 2)
    (hu : d.hasUnfFacet v f = some true) {x : UNode K} (hx : x ∈ b) : ¬ OnFacet o dom f x := by
  rcases h with ⟨-, rfl⟩ | ⟨-, inner, facets, rfl, hin, hl, hfac⟩
  · simp at hx
  · have hnil : facets.flatten = [] := by
      rw [List.flatten_eq_nil_iff]
      intro l hl'
      obtain ⟨k, hk, rfl⟩ := List.mem_iff_getElem.1 hl'
      have := hfac k hk
      simpa using this
    rw [hnil, List.append_nil] at hx
    rcases hin with ⟨-, rfl⟩ | ⟨-, dom', hd', rfl⟩
    · simp at hx
    · obtain rfl : dom = dom' := by rw [hdom] at hd'; exact Option.some.inj hd'
      have := of_decide_eq_true (List.mem_filter.1 hx).2
      exact this f hf hu

/-- **C76** (unfitted boundaries, no failure). -/
theorem C76_unfitted_total (q : QDomain K) {nRows : Nat} (hq : q.Ok nRows) (history : List (QuadCall K))
    (hd : ∀ c ∈ history, c.dim = 2 ∨ c.dim = 3) (ch : Cache K)
    (hr : QuadCall.execAll q.debug q.rules history Cache.init = some ch) (degree : Nat) (hn : degree + 1 ≤ 2 * q.rules.nMax)
    (cells : List Nat) (hc : ∀ l ∈ cells, l < q.u.mesh.cellIndex.length) :
    ∃ x, createUnf q degree cells ch = some x := by
  obtain ⟨debug, oo, targets, hdb, hb⟩ := hq.built
  obtain ⟨orig, h1, h2⟩ := origCells_some hq hc
  obtain ⟨d, x, e1, e2⟩ := C51_unfitted_quadrature_total debug q.debug oo q.grid targets hq.valid hq.dim hdb q.rules history hd ch hr
    q.oracle false false orig h2 _ (numGauss_le hn)
  obtain rfl : q.u.dom = d := by rw [hb] at e1; exact Except.ok.inj e1
  unfold createUnf cppUnf
  rw [h1, Option.bind_some, read_new, Option.bind_some, hq.release, e2]
  exact ⟨_, rfl⟩

/-! ### Facets -/

theorem sideFacet_lt {dim k f : Nat} (h1 : 1 ≤ dim) (h3 : dim ≤ 3) (hk : k < 2 * dim) (h : SideFacet dim k f) : f < 2 * dim := by
  by_contra hf
  obtain ⟨p, a, b⟩ := h
  have hlen : ∀ dim, dim < 4 → 1 ≤ dim → ∀ i, i < (basix dim).corners.length → ((basix dim).corner i).length = dim := by decide +kernel
  have key : ∀ dim, dim < 4 → 1 ≤ dim → ∀ k, k < 2 * dim →
      (((basix dim).facets dim)[k]?).all (fun p => decide (spanned (basix dim) dim p ≠ [] ∧
        spanned (basix dim) dim p ≠ List.range (basix dim).corners.length)) = true := by decide +kernel
  have hk' := key dim (by omega) h1 k hk
  rw [a] at hk'
  simp only [Option.all_some, decide_eq_true_eq] at hk'
  have hget : ∀ i ∈ List.range (basix dim).corners.length, ((basix dim).corner i).getD (f / 2) 0 = 0 := by
    intro i hi
    rw [List.getD_eq_default _ _ (by rw [hlen dim (by omega) h1 i (List.mem_range.1 hi)]; omega)]
  rcases Nat.mod_two_eq_zero_or_one f with e | e
  · apply hk'.2
    rw [← b]
    unfold lexFacetCorners
    rw [List.filter_eq_self]
    intro i hi
    rw [hget i hi, e]; rfl
  · apply hk'.1
    rw [← b]
    unfold lexFacetCorners
    rw [List.filter_eq_nil_iff]
    intro i hi
    rw [hget i hi, e]; decide

/-- The cells of Cartesian meshes. -/
def cube : Nat → FacetQuad.Cell
  | 2 => .quadrilateral
  | 3 => .hexahedron
  | _ => .interval

/-- **C76** (facet points): the points of the rule of a facet of the original cell, once mapped by the Python layer to the facet of the
DOLFINx cell (`C68`), are the points of that side of the unit cell: the coordinates in the other directions are the same, in the same
order. -/
theorem C76_facet_points {F : Type} [CommRing F] {dim k f : Nat} (hd : dim = 2 ∨ dim = 3) (hk : k < 2 * dim) (h : SideFacet dim k f)
    (pt : List F) (hp : pt.length + 1 = dim) :
    FacetQuad.mapPoint (cube dim) k pt = some (pt.insertIdx (f / 2) (if f % 2 = 0 then 0 else 1)) := by
  have hf := sideFacet_lt (by omega) (by omega) hk h
  have key : ∀ dim, dim < 4 → 2 ≤ dim → ∀ k, k < 2 * dim → ∀ f, f < 2 * dim →
      (((basix dim).facets dim)[k]?).all (fun p => decide (lexFacetCorners (basix dim) f = spanned (basix dim) dim p →
        (if k < dim then f = 2 * (dim - 1 - k) else f = 2 * (k - dim) + 1))) = true := by decide +kernel
  obtain ⟨p, a, b⟩ := h
  have := key dim (by omega) (by omega) k hk f hf
  rw [a] at this
  simp only [Option.all_some, decide_eq_true_eq] at this
  have e := this b
  have hc : (cube dim).cube = some dim := by rcases hd with rfl | rfl <;> rfl
  rw [FacetQuad.C68_map_cube (cube dim) dim hc k hk pt hp]
  have hins : ∀ (i : Nat) (x : F), i ≤ pt.length → FacetQuad.onFace i x pt = pt.insertIdx i x := by
    intro i x hi
    unfold FacetQuad.onFace
    clear hp
    induction pt generalizing i with
    | nil => obtain rfl : i = 0 := by simpa using hi
             rfl
    | cons y ys ih =>
      cases i with
      | zero => rfl
      | succ i => simp [ih i (by simpa using hi)]
  split at e <;> rename_i hlt
  · rw [if_pos hlt, hins _ _ (by omega), e, if_pos (by omega)]
    congr 2; omega
  · rw [if_neg hlt, hins _ _ (by omega), e, if_neg (by omega)]
    congr 2; omega

/-- **C76** (facets): the same for facets given by local cells and DOLFINx facets: each one gets the rule, for the kind of integral, of
the facet of the original cell on the same side. -/
theorem C76_facets (q : QDomain K) {nRows : Nat} (hm : q.u.mesh.Ok nRows) (hg : q.grid.length = 2 ∨ q.grid.length = 3)
    (hdim : q.u.dim = q.grid.length) (history : List (QuadCall K))
    (hd : ∀ c ∈ history, c.dim = 2 ∨ c.dim = 3) (ch ch' : Cache K)
    (hr : QuadCall.execAll q.debug q.rules history Cache.init = some ch) (degree : Nat) (facets : Facets)
    (hf : ∀ p ∈ facets, p.1 < q.u.mesh.cellIndex.length ∧ p.2 < 2 * q.grid.length) (ext : Bool) (r : CustomQuadFacet K)
    (h : createFacets q degree facets ext ch = some (ch', r)) :
    r.facets = facets ∧ r.nPts.length = facets.length ∧ r.points.length = r.weights.length ∧ r.nPts.sum = r.points.length ∧
      ∃ blocks, List.Forall₂ (fun (p : Nat × Nat) b => ∃ v f, q.u.mesh.OrigCell p.1 v ∧ SideFacet q.grid.length p.2 f ∧
          IsIntegralFacetRule q.rules q.oracle q.grid q.u.dom (UDomain.numGaussPoints degree)
            (if ext then .exterior else .interior) v f b) facets blocks ∧
        Stored blocks r.nPts r.points r.weights := by
  obtain ⟨argsort, hs⟩ := argsort_exists
  obtain ⟨b, t1, t2, t3, -⟩ := C65_original hs q.u.mesh hm q.grid.length (by omega) (by omega) facets hf
  unfold createFacets cppFacets at h
  rw [hdim, t1, Option.bind_some] at h
  rw [Option.map_eq_some_iff] at h
  obtain ⟨⟨ch1, x⟩, h2, h3⟩ := h
  rw [read_new, Option.bind_some, read_new, Option.bind_some] at h2
  cases h3
  obtain ⟨-, -, l0, l1, l2, l3, bs, b1, b2⟩ := C19_facet_quadrature q.debug q.rules history hd ch ch1 hr q.oracle q.grid hg q.u.dom _
    _ _ _ x h2
  rw [List.length_map, t2] at l2
  refine ⟨rfl, l2, l1, l3, bs, ?_, b2⟩
  have hz : (b.map Prod.fst).zip (b.map Prod.snd) = b := by
    rw [List.zip_map']; simp
  rw [hz] at b1
  have hrel : List.Forall₂ (fun (p q' : Nat × Nat) => q.u.mesh.OrigCell p.1 q'.1 ∧ SideFacet q.grid.length p.2 q'.2) facets b :=
    List.forall₂_iff_get.2 ⟨t2.symm, fun i h1 h2 => t3 i _ _ (by simp [List.getElem?_eq_getElem h1]) (by simp [List.getElem?_eq_getElem h2])⟩
  exact (forall₂_comp hrel b1).imp fun p bl ⟨q', ⟨e1, e2⟩, e3⟩ => ⟨q'.1, q'.2, e1, e2, e3⟩

/-- **C76** (facets, no failure). -/
theorem C76_facets_total (q : QDomain K) {nRows : Nat} (hq : q.Ok nRows) (hdim : q.u.dim = q.grid.length) (history : List (QuadCall K))
    (hd : ∀ c ∈ history, c.dim = 2 ∨ c.dim = 3) (ch : Cache K)
    (hr : QuadCall.execAll q.debug q.rules history Cache.init = some ch) (degree : Nat) (hn : degree + 1 ≤ 2 * q.rules.nMax)
    (facets : Facets) (hf : ∀ p ∈ facets, p.1 < q.u.mesh.cellIndex.length ∧ p.2 < 2 * q.grid.length) (ext : Bool) :
    ∃ x, createFacets q degree facets ext ch = some x := by
  obtain ⟨argsort, hs⟩ := argsort_exists
  obtain ⟨b, t1, t2, t3, -⟩ := C65_original hs q.u.mesh hq.mesh q.grid.length (by have := hq.dim; omega) (by have := hq.dim; omega) facets hf
  obtain ⟨debug, oo, targets, hdb, hb⟩ := hq.built
  have hall : ∀ p' ∈ b, p'.1 < q.grid.numCells ∧ p'.2 < q.grid.length * 2 := by
    intro p' hp'
    obtain ⟨k, hk, rfl⟩ := List.mem_iff_getElem.1 hp'
    obtain ⟨e1, e2⟩ := t3 k facets[k] b[k] (List.getElem?_eq_getElem (by omega)) (List.getElem?_eq_getElem hk)
    have := sideFacet_lt (by have := hq.dim; omega) (by have := hq.dim; omega)
      (hf facets[k] (List.getElem_mem _)).2 e2
    exact ⟨hq.cells _ _ e1, by omega⟩
  obtain ⟨d, x, e1, e2⟩ := C19_facet_quadrature_total debug q.debug oo q.grid targets hq.valid hq.dim hdb q.rules history hd ch hr
    q.oracle (if ext then .exterior else .interior) (b.map Prod.fst) (b.map Prod.snd) (by simp)
    (fun c hc => by obtain ⟨p, hp, rfl⟩ := List.mem_map.1 hc; exact (hall p hp).1)
    (fun c hc => by obtain ⟨p, hp, rfl⟩ := List.mem_map.1 hc; exact (hall p hp).2) _ (numGauss_le hn)
  obtain rfl : q.u.dom = d := by rw [hb] at e1; exact Except.ok.inj e1
  unfold createFacets cppFacets
  rw [hdim, t1, Option.bind_some, read_new, Option.bind_some, read_new, Option.bind_some, hq.release, e2]
  exact ⟨_, rfl⟩

/-! ### Example -/

/-- The domain of `Qugar.Example` with its three cells in another local order. -/
def exDomain (d : Dom) : QDomain ℚ :=
  ⟨⟨⟨none, [], [2, 0, 1], []⟩, ⟨0, [], []⟩, fun _ => false, (0, 0), 3, d⟩, Example.midpoint, Example.qo, Example.grid, false⟩

/-- C76 non-vacuity: local cell 2 is the (cut) original cell 1, local cell 1 the (full) cell 0; facet 1 of DOLFINx is the facet 0
(left) of the cell. -/
example : ∃ d, build true Example.oracles Example.grid none = .ok d ∧
    (createCells (exDomain d) 1 [2, 1] Cache.init).map (·.2) =
      some ⟨[2, 1], [1, 1], [[1 / 4, 1 / 2], [1 / 2, 1 / 2]], [1 / 2, 1]⟩ ∧
    (createUnf (exDomain d) 1 [0, 2] Cache.init).map (·.2) =
      some ⟨[0, 2], [0, 1], [[1 / 2, 1 / 2]], [1], [[1, 0]]⟩ ∧
    (createFacets (exDomain d) 2 [(2, 1), (2, 2)] false Cache.init).map (·.2) =
      some ⟨[(2, 1), (2, 2)], [2, 0], [[1 / 2], [1 / 2]], [1 / 2, 1 / 2]⟩ :=
  exists_ok_of (fun d : Dom =>
    (createCells (exDomain d) 1 [2, 1] Cache.init).map (·.2) =
      some ⟨[2, 1], [1, 1], [[1 / 4, 1 / 2], [1 / 2, 1 / 2]], [1 / 2, 1]⟩ ∧
    (createUnf (exDomain d) 1 [0, 2] Cache.init).map (·.2) =
      some ⟨[0, 2], [0, 1], [[1 / 2, 1 / 2]], [1], [[1, 0]]⟩ ∧
    (createFacets (exDomain d) 2 [(2, 1), (2, 2)] false Cache.init).map (·.2) =
      some ⟨[(2, 1), (2, 2)], [2, 0], [[1 / 2], [1 / 2]], [1 / 2, 1 / 2]⟩) (by decide +kernel)

/-- C76 non-vacuity: that domain meets `QDomain.Ok`. -/
example : ∃ d, build true Example.oracles Example.grid none = .ok d ∧ (exDomain d).Ok 3 := by
  have hv : Example.grid.Valid := by
    intro k hk
    simp only [Example.grid, List.mem_cons, List.not_mem_nil, or_false] at hk
    rcases hk with rfl | rfl <;> constructor <;> simp <;> norm_num
  obtain ⟨d, h1, -⟩ := build_facts true Example.oracles Example.grid none hv (by simp [Example.grid]) (.inr rfl)
  refine ⟨d, h1, hv, .inl rfl, ⟨true, Example.oracles, none, .inr rfl, h1⟩, ⟨show [2, 0, 1].Nodup by decide, show ∀ i ∈ [2, 0, 1], i < 3 by decide, show [2, 0, 1] ≠ [] by decide, fun a h => ?_⟩, ?_, rfl⟩
  · cases h
  · intro l v h
    rw [origCell_iff] at h
    obtain ⟨o, h2, h3⟩ := h
    have e : o = v := h3
    subst e
    have := List.mem_of_getElem? h2
    simp only [exDomain, List.mem_cons, List.not_mem_nil, or_false] at this
    show o < 3
    omega

end Qugar.Py.Quad
