import Verif.Props.PyIntegral
import Verif.Props.PyPlotFacets
/-
C91: an integral over exterior facets assembled with the generated functions is the sum over the nodes of the cut facets and the standard
kernel in the full ones.
-/
namespace Qugar.Py.Integral

open Pack Assemble Quad Spec

/-! ### Specification -/

section
variable {K : Type} [Field K] [LinearOrder K]

/-- `nodes` is the rule of facet `k` of the local cell `c` (both in the numbering of DOLFINx), in the unit cell: the rule, for exterior
integrals, of the facet of the original cell on the same side, with the coordinate of that side. -/
def IsSideRule (q : QDomain K) (s : QuadSpec) (c k : Nat) (nodes : List (UNode K)) : Prop :=
  ∃ v f b, q.u.mesh.OrigCell c v ∧ SideFacet q.grid.length k f ∧
    IsIntegralFacetRule q.rules q.oracle q.grid q.u.dom (UDomain.numGaussPoints s.degree) .exterior v f b ∧
    nodes = b.map fun x => (x.1.insertIdx (f / 2) (if f % 2 = 0 then 0 else 1), x.2, [])

end

/-- The Python domain is in a state that queries of cells and of facets lead to; the empty facets for interior integrals are not asked
for, or do no harm (`C66_history_fails`). -/
inductive Asked (argsort : List Int → List Nat) (u : UDomain) : UDomain.Caches → Prop
  | start : Asked argsort u {}
  | cells {s : UDomain.Caches} (st : Status) {r : List Int} {s' : UDomain.Caches} : Asked argsort u s → st ≠ .unknown →
      UDomain.cells argsort u st s = some (r, s') → Asked argsort u s'
  | facets {s : UDomain.Caches} (q : UDomain.Query) {r : Facets} {s' : UDomain.Caches} : Asked argsort u s → (q ≠ .empty false ∨ u.NoInteriorUnf) →
      UDomain.ask argsort u q s = some (r, s') → Asked argsort u s'

/-- What facet `k` of cell `c`, with coefficients `row`, has to add to the element tensor: a cut facet, the sum over the nodes of its
rules; an empty facet, nothing; others, the kernel of FFCx with its static data. -/
def FacetAdds {P K R : Type} [Field K] [LinearOrder K] [AddCommMonoid R] (S : Scalars K R) (B : Tables.Basix P K) (I : Kernel.Info)
    (tables : List (List (Tables.Table P))) (first : Kernel.Loop R) (rest : List (Kernel.Loop R)) (q : QDomain K) (specs : List QuadSpec)
    (ratio : Nat) (row : List K) (c k : Nat) (U : Kernel.Values R) (δ : Nat → R) : Prop :=
  (q.u.Answer (.cut true) c k → ∃ rules : Nat → List (UNode K),
    (∀ (m n : Nat) s, I.quads[m]? = some n → specs[m]? = some s → IsSideRule q s c k (rules n)) ∧
    cellSum (atNode S B tables (coefOf S ratio row) U) I first.pre rules (first :: rest) = some δ) ∧
  (q.u.Answer (.empty true) c k → δ = 0) ∧
  (¬ q.u.Answer (.cut true) c k → ¬ q.u.Answer (.empty true) c k →
    Kernel.run { U with input := fun a k => if a = 0 then (coefOf S ratio row k).getD (U.input 0 k) else U.input a k } I.tdim
      ((first :: rest).map (Kernel.skip I)) .empty [] 0 = some δ)

/-! ### The states of the domain -/

theorem Asked.cellsOk {argsort : List Int → List Nat} (hs : ∀ l, IsArgsort l (argsort l)) {u : UDomain} {nRows : Nat} (hu : u.Ok nRows)
    {s : UDomain.Caches} (h : Asked argsort u s) : UDomain.CellCachesOk argsort u s := by
  induction h with
  | start => exact ⟨by rintro r ⟨⟩, by rintro r ⟨⟩, by rintro r ⟨⟩⟩
  | cells st _ hst h ih =>
    obtain ⟨r', s', h1, h2, -⟩ := UDomain.C66_cell_queries hs hu st hst _ ih
    rw [h] at h1
    obtain ⟨-, rfl⟩ := Prod.mk.inj (Option.some.inj h1)
    exact h2
  | facets q _ _ h ih =>
    obtain ⟨e1, e2, e3⟩ := UDomain.ask_cells q _ _ _ h
    unfold UDomain.CellCachesOk
    rw [e1, e2, e3]
    exact ih

theorem asked_facets {argsort : List Int → List Nat} (hs : ∀ l, IsArgsort l (argsort l)) {u : UDomain} {nRows : Nat} (hu : u.Ok nRows)
    {s : UDomain.Caches} (h : Asked argsort u s) (q : UDomain.Query) (hq : q ≠ .empty false ∨ u.NoInteriorUnf) :
    ∃ r s', UDomain.ask argsort u q s = some (r, s') ∧ ∀ c k, (c, k) ∈ r ↔ u.Answer q c k := by
  obtain ⟨r, h1, h2⟩ := UDomain.ask_step hs hu
  have key : UDomain.CachesOk r s := by
    induction h with
    | start => refine ⟨?_, ?_, ?_, ?_, ?_, ?_⟩ <;> intro x hx <;> simp at hx
    | cells st _ hst h ih => exact Plot.getCells_caches st h ih
    | facets q _ hq h ih =>
      obtain ⟨s', e1, e2⟩ := h2 q _ hq ih
      rw [h] at e1
      obtain ⟨-, rfl⟩ := Prod.mk.inj (Option.some.inj e1)
      exact e2
  obtain ⟨s', e1, -⟩ := h2 q s hq key
  exact ⟨r q, s', e1, (h1 q hq).2⟩

section
variable {K : Type} [Field K] [LinearOrder K] [IsStrictOrderedRing K]

/-! ### The rules -/

theorem isFacetRule_unique {t : QuadType K} {o : QOracle K} {g : Grid K} {d : Dom} {n c f : Nat} {x y : Bool} {a b : List (Node K)}
    (ha : IsFacetRule t o g d n c f x y a) (hb : IsFacetRule t o g d n c f x y b) : a = b := by
  rcases ha with ⟨h1, rfl⟩ | ⟨h1, h2, rfl⟩ | ⟨h1, h2, i1, u1, h3, h4, h5⟩ <;>
    rcases hb with ⟨g1, rfl⟩ | ⟨g1, g2, rfl⟩ | ⟨g1, g2, i2, u2, g3, g4, g5⟩
  · rfl
  · rw [h1] at g1; simp at g1
  · rw [h1] at g1; simp at g1
  · rw [h1] at g1; simp at g1
  · rfl
  · rw [h2] at g2; simp at g2
  · rw [h1] at g1; simp at g1
  · rw [h2] at g2; simp at g2
  · rw [h3] at g3
    rw [h4] at g4
    obtain rfl := Option.some.inj g3
    obtain rfl := Option.some.inj g4
    rcases h5 with ⟨h5, dom, hd, rfl⟩ | ⟨h5, h6, rfl⟩ <;> rcases g5 with ⟨g5, dom', hd', rfl⟩ | ⟨g5, g6, rfl⟩
    · rw [hd] at hd'
      obtain rfl := Option.some.inj hd'
      rfl
    · rw [g5, g6] at h5; simp at h5
    · rw [h5, h6] at g5; simp at g5
    · rfl

theorem isSideRule_unique {q : QDomain K} (hd : q.grid.length = 2 ∨ q.grid.length = 3) {s : QuadSpec} {c k : Nat} (hk : k < 2 * q.grid.length)
    {a b : List (UNode K)} (ha : IsSideRule q s c k a) (hb : IsSideRule q s c k b) : a = b := by
  obtain ⟨v, f, x, a1, a2, a3, rfl⟩ := ha
  obtain ⟨v', f', y, b1, b2, b3, rfl⟩ := hb
  obtain rfl := UDomain.OrigCell_inj a1 b1
  have h1 : 1 ≤ q.grid.length := by omega
  have h3 : q.grid.length ≤ 3 := by omega
  obtain rfl := UDomain.sideFacet_inj h1 h3 hk (sideFacet_lt h1 h3 hk a2) (sideFacet_lt h1 h3 hk b2) a2 b2
  have : x = y := by
    rcases a3 with ⟨h1, h2⟩ | ⟨h1, h2, h3⟩ | ⟨h1, h2, rfl⟩ <;> rcases b3 with ⟨g1, g2⟩ | ⟨g1, g2, g3⟩ | ⟨g1, g2, rfl⟩
    · exact isFacetRule_unique h2 g2
    · rw [h1] at g1; simp at g1
    · rw [h1] at g1; simp at g1
    · rw [h1] at g1; simp at g1
    · exact isFacetRule_unique h3 g3
    · rw [h2] at g2; simp at g2
    · rw [h1] at g1; simp at g1
    · rw [h2] at g2; simp at g2
    · rfl
  rw [this]

theorem cellType_eq (d : Nat) : cellType d = cube d := by
  unfold cellType cube
  rfl

theorem cube_facts {d : Nat} (hd : d = 2 ∨ d = 3) : (cube d).topology.length = 2 * d ∧ (cube d).facetDim + 1 = d := by
  rcases hd with rfl | rfl <;> exact ⟨rfl, rfl⟩

/-- The points of the facets, mapped. -/
theorem mapQuad_blocks {d : Nat} (hd : d = 2 ∨ d = 3) {facets : Facets} {blocks : List (List (Node K))} {sides : List Nat}
    (h1 : List.Forall₂ (fun (p : Nat × Nat) (f : Nat) => p.2 < 2 * d ∧ SideFacet d p.2 f) facets sides) (h2 : facets.length = blocks.length)
    (hdim : ∀ b ∈ blocks, ∀ x ∈ b, x.1.length + 1 = d) :
    FacetQuad.mapQuad (cellType d) false [] (blocks.map List.length) ((blocks.map fun b => b.map (·.1)).flatten) facets =
      some ((List.zipWith (fun (f : Nat) b => b.map fun (x : Node K) => x.1.insertIdx (f / 2) (if f % 2 = 0 then 0 else 1)) sides blocks).flatten) := by
  have hc := cube_facts hd
  have hlen : (FacetQuad.rep (facets.map Prod.snd) (blocks.map List.length)).length = ((blocks.map fun b => b.map (·.1)).flatten).length := by
    rw [FacetQuad.rep_length _ _ (by simp [h2]), List.length_flatten, List.map_map]
    simp [Function.comp_def]
  have hps : ∀ x ∈ (blocks.map fun b => b.map (·.1)).flatten, x.length + 1 = d := by
    intro x hx
    obtain ⟨l, hl, hx⟩ := List.mem_flatten.1 hx
    obtain ⟨b, hb, rfl⟩ := List.mem_map.1 hl
    obtain ⟨y, hy, rfl⟩ := List.mem_map.1 hx
    exact hdim b hb y hy
  have hfs : ∀ f ∈ FacetQuad.rep (facets.map Prod.snd) (blocks.map List.length), f < 2 * d := by
    intro f hf
    obtain ⟨p, hp, rfl⟩ := List.mem_map.1 (FacetQuad.mem_rep hf)
    obtain ⟨i, hi, rfl⟩ := List.mem_iff_getElem.1 hp
    have := h1.get hi (by rw [← h1.length_eq]; exact hi)
    exact this.1
  obtain ⟨r, e1, e2, e3⟩ := FacetQuad.C68_map_all (cube d) ((blocks.map fun b => b.map (·.1)).flatten) _ hlen
    (by rw [hc.1]; exact hfs) (fun x hx => by have := hps x hx; omega)
  have e4 : r = List.zipWith (fun f x => (FacetQuad.mapPoint (cube d) f x).getD []) (FacetQuad.rep (facets.map Prod.snd) (blocks.map List.length))
      ((blocks.map fun b => b.map (·.1)).flatten) := by
    refine List.ext_getElem (by rw [List.length_zipWith, hlen, e2]; simp) fun i i1 i2 => ?_
    have i3 : i < ((blocks.map fun b => b.map (·.1)).flatten).length := by rw [← e2]; exact i1
    have i4 : i < (FacetQuad.rep (facets.map Prod.snd) (blocks.map List.length)).length := by rw [hlen]; exact i3
    have := e3 i _ _ (List.getElem?_eq_getElem i3) (List.getElem?_eq_getElem i4)
    rw [List.getElem_zipWith, ← this, List.getElem?_eq_getElem i1, Option.getD_some]
  rw [FacetQuad.mapQuad, cellType_eq]
  simp only [Bool.false_eq_true, if_false, Option.bind_some]
  rw [e1, e4]
  refine congrArg some ?_
  clear e1 e2 e3 e4 hlen hps hfs r
  induction h1 generalizing blocks with
  | nil => cases blocks <;> simp_all [FacetQuad.rep]
  | cons h _ ih =>
    cases blocks with
    | nil => simp at h2
    | cons b blocks =>
      rename_i p f ps fs _
      have hrep : FacetQuad.rep ((p :: ps).map Prod.snd) ((b :: blocks).map List.length) =
          List.replicate b.length p.2 ++ FacetQuad.rep (ps.map Prod.snd) (blocks.map List.length) := rfl
      rw [hrep, List.map_cons, List.flatten_cons, List.zipWith_append (by simp), ih (by simpa using h2)
        (fun b hb => hdim b (List.mem_cons_of_mem _ hb)), List.zipWith_cons_cons, List.flatten_cons]
      refine congrArg (· ++ _) ?_
      have hb := hdim b List.mem_cons_self
      clear ih hdim h2 hrep
      induction b with
      | nil => rfl
      | cons x b ihb =>
        rw [List.length_cons, List.replicate_succ, List.map_cons, List.zipWith_cons_cons, List.map_cons,
          ihb (fun y hy => hb y (List.mem_cons_of_mem _ hy)),
          C76_facet_points hd h.1 h.2 x.1 (hb x List.mem_cons_self)]
        rfl

/-- A quadrature is created, with the nodes of the rules of the facets. -/
theorem createFacetQuad_spec (q : QDomain K) {nRows : Nat} (hq : q.Ok nRows) (hdim : q.u.dim = q.grid.length)
    (hpd : Plot.FacetDims q.oracle q.grid) (facets : Facets)
    (hf : ∀ p ∈ facets, p.1 < q.u.mesh.cellIndex.length ∧ p.2 < 2 * q.grid.length) (s : QuadSpec) (hb : s.boundary = false)
    (hn : s.degree + 1 ≤ 2 * q.rules.nMax) (ch : Cache K) (hr : Reached q ch) :
    ∃ ch' x blocks, createFacetQuad q facets s ch = some (ch', x) ∧ Reached q ch' ∧
      List.Forall₂ (fun (p : Nat × Nat) b => IsSideRule q s p.1 p.2 b) facets blocks ∧ Packed q.grid.length s.boundary blocks x := by
  obtain ⟨history, hd, hh⟩ := hr
  obtain ⟨⟨ch', r⟩, hx⟩ := C76_facets_total q hq hdim history hd ch hh s.degree hn facets hf true
  obtain ⟨-, -, -, -, blocks, h1, h2, h3, h4⟩ := C76_facets q hq.mesh hq.dim hdim history hd ch ch' hh s.degree facets hf true r hx
  simp only [if_true] at h1
  have hlen := h1.length_eq
  have h13 : 1 ≤ q.grid.length ∧ q.grid.length ≤ 3 := by have := hq.dim; omega
  -- the sides
  have hsd : ∃ sides : List Nat, List.Forall₂ (fun (p : Nat × Nat) (f : Nat) => p.2 < 2 * q.grid.length ∧ SideFacet q.grid.length p.2 f) facets sides ∧
      List.Forall₂ (fun (p : Nat × Nat) b => IsSideRule q s p.1 p.2 b) facets (List.zipWith (fun (f : Nat) (b : List (Node K)) =>
        b.map fun x => (x.1.insertIdx (f / 2) (if f % 2 = 0 then 0 else 1), x.2, [])) sides blocks) ∧
      ∀ b ∈ blocks, ∀ x ∈ b, x.1.length + 1 = q.grid.length := by
    clear hx h2 h3 h4 hlen
    induction h1 with
    | nil => exact ⟨[], .nil, .nil, by simp⟩
    | cons h _ ih =>
      obtain ⟨sides, k1, k2, k3⟩ := ih (fun p hp => hf p (List.mem_cons_of_mem _ hp))
      obtain ⟨v, f, a1, a2, a3⟩ := h
      have hk := (hf _ List.mem_cons_self).2
      refine ⟨f :: sides, .cons ⟨hk, a2⟩ k1, .cons ⟨v, f, _, a1, a2, a3, rfl⟩ k2, ?_⟩
      intro b hb x hx
      rcases List.mem_cons.1 hb with rfl | hb
      · refine Plot.integralRule_length hq.dim hpd (fun dom hdom => cellDomain_length hq.valid hdom) ?_ a3 hx
        have := sideFacet_lt h13.1 h13.2 hk a2
        omega
      · exact k3 b hb x hx
  obtain ⟨sides, k1, k2, k3⟩ := hsd
  have hmap := mapQuad_blocks hq.dim k1 hlen k3
  have hnp : r.nPts.map Int.toNat = blocks.map List.length := by
    rw [h2, List.map_map]
    rfl
  refine ⟨ch', _, _, by
    rw [createFacetQuad, if_neg (by rw [hb]; simp), hx, Option.bind_some]
    simp only [hnp, h3, hmap, Option.map_some]
    rfl, ?_, k2, ?_⟩
  · have hx' := hx
    unfold createFacets cppFacets at hx'
    rw [Option.bind_eq_some_iff] at hx'
    obtain ⟨orig, o1, o2⟩ := hx'
    rw [Option.map_eq_some_iff] at o2
    obtain ⟨⟨ch1, y⟩, o3, o4⟩ := o2
    rw [read_new, Option.bind_some, read_new, Option.bind_some] at o3
    cases o4
    refine ⟨history ++ [.facets q.oracle q.grid q.u.dom .exterior (orig.map Prod.fst) (orig.map Prod.snd) (UDomain.numGaussPoints s.degree)], ?_,
      execAll_snoc hh (r := .facets y) ?_⟩
    · intro c hc
      rcases List.mem_append.1 hc with hc | hc
      · exact hd c hc
      · obtain rfl := List.mem_singleton.1 hc
        exact hq.dim
    · rw [QuadCall.exec]
      simp only [if_true] at o3
      rw [o3]
      rfl
  · have hsl : sides.length = blocks.length := by rw [← k1.length_eq, hlen]
    refine ⟨rfl, ?_, ?_, ?_, rfl, rfl, ?_, ?_⟩
    · show blocks.map List.length = _
      refine List.ext_getElem (by simp [hsl]) fun i i1 i2 => ?_
      simp
    · show (List.flatten _).flatten = _
      rw [List.flatten_flatten]
      congr 1
      rw [List.map_zipWith, List.map_zipWith]
      congr 1
      funext f b
      rw [List.map_map]
      rfl
    · show r.weights = _
      rw [h4]
      congr 1
      refine List.ext_getElem (by simp [hsl]) fun i i1 i2 => ?_
      simp [Function.comp_def]
    · rw [hb]; rfl
    · intro b hbm y hy
      obtain ⟨k, hk, rfl⟩ := List.mem_iff_getElem.1 hbm
      rw [List.getElem_zipWith] at hy
      obtain ⟨x, hx, rfl⟩ := List.mem_map.1 hy
      have hk1 : k < sides.length := by rw [List.length_zipWith] at hk; omega
      have hk2 : k < blocks.length := by rw [List.length_zipWith] at hk; omega
      have hx' := k3 _ (List.getElem_mem hk2) x hx
      have := k1.get (by rw [k1.length_eq]; exact hk1) hk1
      have hfl := sideFacet_lt h13.1 h13.2 this.1 this.2
      simp only [List.get_eq_getElem] at hfl
      refine ⟨?_, by rw [hb]; simp⟩
      rw [List.length_insertIdx, if_pos (by omega)]
      exact hx'

theorem createFacetQuads_spec (q : QDomain K) {nRows : Nat} (hq : q.Ok nRows) (hdim : q.u.dim = q.grid.length)
    (hpd : Plot.FacetDims q.oracle q.grid) (facets : Facets)
    (hf : ∀ p ∈ facets, p.1 < q.u.mesh.cellIndex.length ∧ p.2 < 2 * q.grid.length) :
    ∀ (specs : List QuadSpec), (∀ s ∈ specs, s.boundary = false ∧ s.degree + 1 ≤ 2 * q.rules.nMax) →
      ∀ ch, Reached q ch → ∃ ch' xs, createFacetQuads q facets specs ch = some (ch', xs) ∧ Reached q ch' ∧
        List.Forall₂ (fun s x => ∃ blocks, List.Forall₂ (fun (p : Nat × Nat) b => IsSideRule q s p.1 p.2 b) facets blocks ∧
          Packed q.grid.length s.boundary blocks x) specs xs
  | [], _, ch, hr => ⟨ch, [], rfl, hr, .nil⟩
  | s :: specs, hn, ch, hr => by
    obtain ⟨hb, hn1⟩ := hn s (List.mem_cons_self ..)
    obtain ⟨ch1, x, blocks, h1, h2, h3, h4⟩ := createFacetQuad_spec q hq hdim hpd facets hf s hb hn1 ch hr
    obtain ⟨ch2, xs, k1, k2, k3⟩ := createFacetQuads_spec q hq hdim hpd facets hf specs (fun s hs => hn s (List.mem_cons_of_mem _ hs)) ch1 h2
    refine ⟨ch2, x :: xs, ?_, k2, .cons ⟨blocks, h3, h4⟩ k3⟩
    rw [createFacetQuads, h1, Option.bind_some, k1]
    rfl

end

/-! ### The properties -/

section
variable {P K R : Type} [Field K] [LinearOrder K] [IsStrictOrderedRing K] [AddCommMonoid R]

/-- What is assumed of an integral over exterior facets: the domain was built, the facets are facets of classified cells of the mesh, the
data of the integral belong together (with no unfitted boundary), the kernel is one of FFCx. -/
structure FacetGood (B : Tables.Basix P K) (I : Kernel.Info) (tables : List (List (Tables.Table P))) (first : Kernel.Loop R)
    (rest : List (Kernel.Loop R)) (q : QDomain K) (nRows : Nat) (types : Types) (cols : Nat) (old : List (List K)) (domain : Facets)
    (specs : List QuadSpec) : Prop where
  built : q.Ok nRows
  mesh : q.u.Ok nRows
  points : Plot.FacetDims q.oracle q.grid
  data : Consistent B I tables q.grid.length specs
  degrees : ∀ s ∈ specs, s.boundary = false ∧ s.degree + 1 ≤ 2 * q.rules.nMax
  typesOk : types.Ok
  facets : ∀ p ∈ domain, q.u.Known p.1 ∧ ∃ f, q.u.topo.FacetOf p.1 p.2 f
  rows : old.length = domain.length
  row : ∀ r ∈ old, r.length = cols * types.ratio
  kernel : KernelOk I tables first rest cols

variable {B : Tables.Basix P K} {I : Kernel.Info} {tables : List (List (Tables.Table P))} {first : Kernel.Loop R}
  {rest : List (Kernel.Loop R)} {q : QDomain K} {nRows : Nat} {types : Types} {cols : Nat} {old : List (List K)} {domain : Facets}
  {specs : List QuadSpec}

theorem FacetGood.dim (G : FacetGood B I tables first rest q nRows types cols old domain specs) : q.u.dim = q.grid.length := by
  obtain ⟨debug, oo, targets, hdb, hb⟩ := G.built.built
  obtain ⟨d, h1, h2, -⟩ := build_summary debug oo q.grid targets G.built.valid
    (by intro h; have := G.built.dim; rw [h] at this; simp at this) hdb
  rw [hb] at h1
  obtain rfl := Except.ok.inj h1
  show q.u.dom.n.length = _
  rw [h2]
  simp [Grid.numCellsDir]

theorem FacetGood.bounds (G : FacetGood B I tables first rest q nRows types cols old domain specs) {p : Nat × Nat} (hp : p ∈ domain) :
    p.1 < q.u.mesh.cellIndex.length ∧ p.2 < 2 * q.grid.length := by
  obtain ⟨-, f, row, h1, h2⟩ := G.facets p hp
  rw [← G.dim, ← G.mesh.rows row (List.mem_of_getElem? h1), ← G.mesh.numCells]
  exact ⟨(List.getElem?_eq_some_iff.1 h1).1, (List.getElem?_eq_some_iff.1 h2).1⟩

theorem FacetGood.input {argsort : List Int → List Nat} (hs : ∀ l, IsArgsort l (argsort l))
    (G : FacetGood B I tables first rest q nRows types cols old domain specs) {s : UDomain.Caches} (hk : Asked argsort q.u s)
    {ch : Cache K} (hr : Reached q ch) :
    ∃ s' ch' i, facetInput argsort q types cols old domain specs s ch = some ((s', ch'), i) ∧ Asked argsort q.u s' ∧
      Reached q ch' ∧ i.types = types ∧ i.n = domain.length ∧ i.interior = false ∧ i.cols = cols ∧ i.old = old ∧ i.Ok ∧
      Linked B I false tables i ∧
      (∀ e, e ∈ i.custom ↔ ∃ p, domain[e]? = some p ∧ q.u.Answer (.cut true) p.1 p.2) ∧
      (∀ e, e ∈ i.empty ↔ ∃ p, domain[e]? = some p ∧ q.u.Answer (.empty true) p.1 p.2) ∧
      List.Forall₂ (fun s x => ∃ blocks, List.Forall₂ (fun (p : Nat × Nat) b => IsSideRule q s p.1 p.2 b)
        (i.custom.map fun e => domain.getD e (0, 0)) blocks ∧ Packed q.grid.length s.boundary blocks x) specs i.quads := by
  obtain ⟨r1, s1, a1, a2⟩ := asked_facets hs G.mesh hk (.cut true) (.inl (by simp))
  have hk1 : Asked argsort q.u s1 := .facets _ hk (.inl (by simp)) a1
  obtain ⟨r2, s2, b1, b2⟩ := asked_facets hs G.mesh hk1 (.empty true) (.inl (by simp))
  have hiff : ∀ (r : Facets) (qy : UDomain.Query), (∀ c k, (c, k) ∈ r ↔ q.u.Answer qy c k) → ∀ e, e ∈ commonRows domain r ↔
      ∃ p, domain[e]? = some p ∧ q.u.Answer qy p.1 p.2 := by
    intro r qy h e
    rw [mem_commonRows]
    exact exists_congr fun p => and_congr_right fun _ => h p.1 p.2
  have hcu := hiff r1 _ a2
  have hem := hiff r2 _ b2
  have hlt : ∀ {e : Nat} {p : Nat × Nat}, domain[e]? = some p → e < domain.length := fun h => (List.getElem?_eq_some_iff.1 h).1
  have hfac : ∀ p ∈ (commonRows domain r1).map (fun e => domain.getD e (0, 0)), p.1 < q.u.mesh.cellIndex.length ∧ p.2 < 2 * q.grid.length := by
    intro p hp
    obtain ⟨e, he, rfl⟩ := List.mem_map.1 hp
    obtain ⟨p, h1, -⟩ := (hcu e).1 he
    rw [List.getD_eq_getElem?_getD, h1, Option.getD_some]
    exact G.bounds (List.mem_of_getElem? h1)
  obtain ⟨ch', xs, c1, c2, c3⟩ := createFacetQuads_spec q G.built G.dim G.points _ hfac specs G.degrees ch hr
  refine ⟨s2, ch', ⟨types, domain.length, false, cols, old, commonRows domain r1, commonRows domain r2, xs⟩, ?_,
    .facets _ hk1 (.inl (by simp)) b1, c2, rfl, rfl, rfl, rfl, rfl, ?_, ?_, hcu, hem, c3⟩
  · unfold facetInput
    rw [a1, Option.bind_some]
    simp only
    rw [c1, Option.bind_some, b1, Option.map_some]
  · refine ⟨G.typesOk, G.rows, G.row, nodup_commonRows _ _, ?_, ?_, ?_, ?_⟩
    · intro e he
      obtain ⟨p, h, -⟩ := (hcu e).1 he
      exact hlt h
    · intro e he
      obtain ⟨p, h, -⟩ := (hem e).1 he
      exact hlt h
    · intro e he he'
      obtain ⟨p, a1, a2⟩ := (hcu e).1 he
      obtain ⟨p', b1, b2⟩ := (hem e).1 he'
      rw [a1] at b1
      obtain rfl := Option.some.inj b1
      obtain ⟨hkn, f, hf⟩ := G.facets p (List.mem_of_getElem? a1)
      exact (UDomain.C66_exterior_partition G.mesh hf hkn).2.1 ⟨a2, b2⟩
    · intro x hx
      obtain ⟨k, hk, rfl⟩ := List.mem_iff_getElem.1 hx
      obtain ⟨blocks, d1, d2⟩ := c3.get (by rw [c3.length_eq]; exact hk) hk
      have := d2.ok
      rw [← d1.length_eq, List.length_map] at this
      exact this
  · have D := G.data
    refine ⟨D.names, D.length, ?_, D.interior.symm, D.known, D.all, D.distinct, D.wellFormed, fun x hx hc => .inl (D.dims x hx hc), D.one⟩
    have hsh := shapes_of_packed c3
    show xs.map Pack.Quad.shape = _
    rw [hsh, D.tdim, D.interior]
    have := congrArg (List.map fun b => (⟨q.grid.length, false, false, b⟩ : Pack.Shape)) D.specs
    rw [List.map_map, List.map_map] at this
    exact this

/-- **C91** (no failure): the quadratures are created and the coefficients are packed, whatever was asked before. -/
theorem C91_total {argsort : List Int → List Nat} (hs : ∀ l, IsArgsort l (argsort l))
    (toNat : K → Nat) (hn : ∀ n : Nat, toNat (n : K) = n)
    (G : FacetGood B I tables first rest q nRows types cols old domain specs) {s : UDomain.Caches} (hk : Asked argsort q.u s)
    {ch : Cache K} (hr : Reached q ch) :
    ∃ s' ch' i mem, facetInput argsort q types cols old domain specs s ch = some ((s', ch'), i) ∧ pack i = some mem ∧
      Asked argsort q.u s' ∧ Reached q ch' := by
  obtain ⟨s', ch', i, h1, h2, h3, -, -, hint, -, -, hi, -⟩ := G.input hs hk hr
  obtain ⟨mem, h4, -⟩ := C67_kernel toNat hn i hi hint
  exact ⟨s', ch', i, mem, h1, h4, h2, h3⟩

/-- **C91** (a facet): in every thread and whatever was executed before, the call for a facet of the integral adds to the element tensor
what it has to: in a cut facet, the sum over the nodes of its rules; in an empty facet, nothing; in the others, what the kernel of FFCx
adds. -/
theorem C91_facet_partial [DecidableEq P] {argsort : List Int → List Nat} (hs : ∀ l, IsArgsort l (argsort l))
    (toNat : K → Nat) (hn : ∀ n : Nat, toNat (n : K) = n) (S : Scalars K R)
    (G : FacetGood B I tables first rest q nRows types cols old domain specs) {s : UDomain.Caches} (hk : Asked argsort q.u s)
    {ch : Cache K} (hr : Reached q ch) {x : UDomain.Caches × Cache K} {i : Pack.Input K} {mem : List (Slot K)}
    (h1 : facetInput argsort q types cols old domain specs s ch = some (x, i)) (h2 : pack i = some mem)
    {e c k : Nat} {row : List K} (he : domain[e]? = some (c, k)) (hrow : old[e]? = some row)
    {st : Tables.State P K} (hst : Tables.Reachable B st) (U : Kernel.Values R) {δ : Nat → R}
    (hδ : FacetAdds S B I tables first rest q specs types.ratio row c k U δ) (A : Nat → R) :
    ∃ st', (⟨toNat, S, B, I, false, tables, first :: rest, types, cols, mem⟩ : Job P K R).call (i.rowPos e) st U A = some (st', A + δ) ∧
      Tables.Reachable B st' := by
  obtain ⟨s', ch', i', a1, -, -, ht, hin, hint, hcol, hold, hi, L, hcu, hem, hquads⟩ := G.input hs hk hr
  rw [h1] at a1
  obtain rfl : i = i' := congrArg Prod.snd (Option.some.inj a1)
  subst ht hcol hold
  have hel : e < i.n := by rw [hin]; exact (List.getElem?_eq_some_iff.1 he).1
  have hiff : ∀ (l : List Nat) (qy : UDomain.Query), (∀ e, e ∈ l ↔ ∃ p, domain[e]? = some p ∧ q.u.Answer qy p.1 p.2) →
      (e ∈ l ↔ q.u.Answer qy c k) := by
    intro l qy h
    rw [h e]
    constructor
    · rintro ⟨p, d1, d2⟩
      rw [he] at d1
      obtain rfl := Option.some.inj d1
      exact d2
    · intro h; exact ⟨(c, k), he, h⟩
  have hcu' := hiff i.custom _ hcu
  have hem' := hiff i.empty _ hem
  refine call_adds toNat hn S hi L hint G.kernel h2 hel hrow hst U ?_ (fun h => hδ.2.1 (hem'.1 h))
    (fun h h' => hδ.2.2 (fun k => h (hcu'.2 k)) fun k => h' (hem'.2 k)) A
  intro j hj
  obtain ⟨rules, r1, r2⟩ := hδ.1 (hcu'.1 (List.mem_of_getElem? hj))
  refine ⟨rules, fun m n hm => ?_, r2⟩
  have hjl := (List.getElem?_eq_some_iff.1 hj).1
  have hsl : specs.length = I.quads.length := by
    have := congrArg List.length G.data.specs
    simpa using this
  have hml : m < specs.length := by rw [hsl]; exact (List.getElem?_eq_some_iff.1 hm).1
  have hml' : m < i.quads.length := by rw [← hquads.length_eq]; exact hml
  obtain ⟨blocks, d1, d2⟩ := hquads.get hml hml'
  simp only [List.get_eq_getElem] at d1 d2
  have hjb : j < blocks.length := by rw [← d1.length_eq, List.length_map]; exact hjl
  have f2 := d1.get (by rw [d1.length_eq]; exact hjb) hjb
  simp only [List.get_eq_getElem, List.getElem_map] at f2
  have hbd : specs[m].boundary = I.boundary n := by
    have h3 : (specs.map fun s => s.boundary)[m]? = (I.quads.map I.boundary)[m]? := by rw [G.data.specs]
    rw [List.getElem?_map, List.getElem?_map, hm, List.getElem?_eq_getElem hml] at h3
    exact Option.some.inj h3
  have hie : i.custom[j] = e := (List.getElem?_eq_some_iff.1 hj).2
  rw [hie, List.getD_eq_getElem?_getD, he, Option.getD_some] at f2
  have hb : blocks[j] = rules n := isSideRule_unique G.built.dim (G.bounds (List.mem_of_getElem? he)).2 f2
    (r1 m n _ hm (List.getElem?_eq_getElem hml))
  refine ⟨_, blocks, List.getElem?_eq_getElem hml', ?_, by rw [List.getElem?_eq_getElem hjb, hb]⟩
  rw [G.data.tdim, ← hbd]
  exact d2

/-- **C91** (scalars): DOLFINx adds to one number the values of all the facets of the integral: what every facet has to add, each
once. -/
theorem C91_scalar_partial [DecidableEq P] {argsort : List Int → List Nat} (hs : ∀ l, IsArgsort l (argsort l))
    (toNat : K → Nat) (hn : ∀ n : Nat, toNat (n : K) = n) (S : Scalars K R)
    (G : FacetGood B I tables first rest q nRows types cols old domain specs) {s : UDomain.Caches} (hk : Asked argsort q.u s)
    {ch : Cache K} (hr : Reached q ch) {x : UDomain.Caches × Cache K} {i : Pack.Input K} {mem : List (Slot K)}
    (h1 : facetInput argsort q types cols old domain specs s ch = some (x, i)) (h2 : pack i = some mem)
    (U : Nat → Kernel.Values R) (δ : Nat → Nat → R)
    (hδ : ∀ e, e < domain.length → ∃ c k row, domain[e]? = some (c, k) ∧ old[e]? = some row ∧
      FacetAdds S B I tables first rest q specs types.ratio row c k (U e) (δ e))
    {st : Tables.State P K} (hst : Tables.Reachable B st) (A : Nat → R) :
    ∃ st', assembleScalar (⟨toNat, S, B, I, false, tables, first :: rest, types, cols, mem⟩ : Job P K R)
        ((List.range domain.length).map fun e => (i.rowPos e, U e)) st A =
          some (st', A + ((List.range domain.length).map δ).sum) ∧ Tables.Reachable B st' := by
  refine scalar_sum (fun e he st hst A => ?_) hst A
  obtain ⟨c, k, row, a1, a3, a4⟩ := hδ e he
  exact C91_facet_partial hs toNat hn S G hk hr h1 h2 a1 a3 hst (U e) a4 A

/-- **C91** (vectors): entry `d` of the global vector gets what every facet has to add in its entries numbered `d`; the element tensors
of the facets do not mix. -/
theorem C91_vector_partial [DecidableEq P] {argsort : List Int → List Nat} (hs : ∀ l, IsArgsort l (argsort l))
    (toNat : K → Nat) (hn : ∀ n : Nat, toNat (n : K) = n) (S : Scalars K R)
    (G : FacetGood B I tables first rest q nRows types cols old domain specs) {s : UDomain.Caches} (hk : Asked argsort q.u s)
    {ch : Cache K} (hr : Reached q ch) {x : UDomain.Caches × Cache K} {i : Pack.Input K} {mem : List (Slot K)}
    (h1 : facetInput argsort q types cols old domain specs s ch = some (x, i)) (h2 : pack i = some mem)
    (U : Nat → Kernel.Values R) (dofs : Nat → List Nat) (δ : Nat → Nat → R)
    (hδ : ∀ e, e < domain.length → ∃ c k row, domain[e]? = some (c, k) ∧ old[e]? = some row ∧
      FacetAdds S B I tables first rest q specs types.ratio row c k (U e) (δ e))
    {st : Tables.State P K} (hst : Tables.Reachable B st) (b : Nat → R) :
    ∃ st' b', assembleVector (⟨toNat, S, B, I, false, tables, first :: rest, types, cols, mem⟩ : Job P K R)
        ((List.range domain.length).map fun e => (i.rowPos e, U e, dofs e)) st b = some (st', b') ∧ Tables.Reachable B st' ∧
      ∀ d, b' d = b d + ((List.range domain.length).map fun e =>
        (((dofs e).zipIdx.filter fun p => p.1 == d).map fun p => δ e p.2).sum).sum := by
  refine vector_sum (fun e he st hst A => ?_) hst b
  obtain ⟨c, k, row, a1, a3, a4⟩ := hδ e he
  exact C91_facet_partial hs toNat hn S G hk hr h1 h2 a1 a3 hst (U e) a4 A

end

end Qugar.Py.Integral
