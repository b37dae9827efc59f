import Verif.Props.PyIntegralFacet
import Verif.Props.PyIntegralMeasure
/-
C95: what DOLFINx assembles over facets of the boundary of the mesh is the sum of the integrals over their parts inside of the domain.
-/
namespace Qugar.Py.Integral

open Pack Assemble Quad Spec BoxMeasure Integrals
open MeasureTheory hiding integral

/-! ### Specification -/

/-- The box of facet `f` of the box `b`, in the other directions. -/
def facetBox (b : List (ℝ × ℝ)) (f : Nat) : List (ℝ × ℝ) := b.eraseIdx (f / 2)

/-- The point of facet `f` of the box `b` that has the coordinates `y` in the other directions. -/
noncomputable def onFacet (b : List (ℝ × ℝ)) (f : Nat) (y : List ℝ) : List ℝ :=
  y.insertIdx (f / 2) (if f % 2 = 0 then (b.getD (f / 2) (0, 0)).1 else (b.getD (f / 2) (0, 0)).2)

/-- The part of facet `f` of cell `v` of the grid that is in `D`. -/
def facetPart (g : Grid ℝ) (D : List ℝ → Prop) (v f : Nat) : Set (Fin (g.length - 1) → ℝ) :=
  {y | y ∈ region (g.length - 1) (facetBox (boxOf g v) f) ∧ D (onFacet (boxOf g v) f (List.ofFn y))}

/-- The integral of `F` over that part. -/
noncomputable def facetIntegral (g : Grid ℝ) (D : List ℝ → Prop) (F : List ℝ → ℝ) (v f : Nat) : ℝ :=
  integralOver (facetPart g D v f) fun y => F (onFacet (boxOf g v) f y)

/-- The status that the classification of the code gives to facet `f` of cell `v`, if the sign of the level set function is not determined
there. -/
noncomputable def facetVerdict (oo : Oracles ℝ) (g : Grid ℝ) (v f : Nat) : FStatus :=
  match oo.cell (boxOf g v) with
  | .empty => .empty
  | .full => .full
  | s => oo.facet (boxOf g v) f s

/-- The points of a cut facet of the boundary of the grid: those of Algoim except the ones on an unfitted boundary of the facet that faces
inwards. -/
noncomputable def facetNodes (o : QOracle ℝ) (b : List (ℝ × ℝ)) (f n : Nat) (st : FStatus) : List (Node ℝ) :=
  (cutFacetRule o b f n).filter fun x => !decide (FacetPointRemoved o b f st.hasUnfitted st.isCut false false x.1)

/-- Accuracy of the ingredients that do not belong to the code in the facets `fs` of cells near the interface, for the domain `D`: the
classification moves a measure of at most `κ` from a side to the other, and the points in cut facets, which are in them, integrate `F`
with an error of at most `η`. -/
structure FacetAccurate (oo : Oracles ℝ) (o : QOracle ℝ) (g : Grid ℝ) (D : List ℝ → Prop) (F : List ℝ → ℝ) (n : Nat) (κ η : ℝ)
    (fs : List (Nat × Nat)) : Prop where
  empty : ∀ p ∈ fs, p.1 ∈ nearCells oo g → (facetVerdict oo g p.1 p.2).isEmpty = true → measureOf (facetPart g D p.1 p.2) ≤ κ
  full : ∀ p ∈ fs, p.1 ∈ nearCells oo g → facetVerdict oo g p.1 p.2 = .full ∨ facetVerdict oo g p.1 p.2 = .fullUnf →
    measureOf (region (g.length - 1) (facetBox (boxOf g p.1) p.2) \ facetPart g D p.1 p.2) ≤ κ
  cut : ∀ p ∈ fs, p.1 ∈ nearCells oo g →
    (facetVerdict oo g p.1 p.2).isCut = true ∨ facetVerdict oo g p.1 p.2 = .unf ∨ facetVerdict oo g p.1 p.2 = .unfExt →
    (∀ x ∈ facetNodes o (boxOf g p.1) p.2 n (facetVerdict oo g p.1 p.2), InUnitCube x.1) ∧
    |ruleSum (facetBox (boxOf g p.1) p.2) ((facetNodes o (boxOf g p.1) p.2 n (facetVerdict oo g p.1 p.2)).map fun x => x.1)
      ((facetNodes o (boxOf g p.1) p.2 n (facetVerdict oo g p.1 p.2)).map fun x => x.2) (fun y => F (onFacet (boxOf g p.1) p.2 y)) -
        facetIntegral g D F p.1 p.2| ≤ η

/-- The domain and the integrand, in the facets: measurable, integrable and bounded. -/
structure OnFacets (g : Grid ℝ) (D : List ℝ → Prop) (F : List ℝ → ℝ) (M : ℝ) (fs : List (Nat × Nat)) : Prop where
  measurable : ∀ p ∈ fs, MeasurableSet {y : Fin (g.length - 1) → ℝ | D (onFacet (boxOf g p.1) p.2 (List.ofFn y))}
  integrable : ∀ p ∈ fs, IntegrableOn (fun y => F (onFacet (boxOf g p.1) p.2 (List.ofFn y))) (region (g.length - 1) (facetBox (boxOf g p.1) p.2))
  bound : ∀ p ∈ fs, ∀ y ∈ region (g.length - 1) (facetBox (boxOf g p.1) p.2), |F (onFacet (boxOf g p.1) p.2 (List.ofFn y))| ≤ M

/-- The kernel generated by FFCx computes the integral in the facet `f` of the cell `v`: with any points in the unit cube of the facet, what
they give; with its static data, the integral up to an error of `δ` per unit of area. `L k` is what entry `k` of the result gets of the
element tensor. -/
structure ComputesFacet {P : Type} (S : Scalars ℝ ℝ) (B : Tables.Basix P ℝ) (I : Kernel.Info) (tables : List (List (Tables.Table P)))
    (first : Kernel.Loop ℝ) (rest : List (Kernel.Loop ℝ)) (ratio : Nat) (g : Grid ℝ) (F : Nat → List ℝ → ℝ) (δ : ℝ) (row : List ℝ) (v f : Nat)
    (U : Kernel.Values ℝ) (L : Nat → (Nat → ℝ) → ℝ) : Prop where
  rule : ∀ nodes : List (Node ℝ), (∀ x ∈ nodes, x.1.length + 1 = g.length ∧ InUnitCube x.1) → ∃ a,
    cellSum (atNode S B tables (coefOf S ratio row) U) I first.pre
      (fun _ => nodes.map fun x => (x.1.insertIdx (f / 2) (if f % 2 = 0 then 0 else 1), x.2, [])) (first :: rest) = some a ∧
    ∀ k, L k a = ruleSum (facetBox (boxOf g v) f) (nodes.map fun x => x.1) (nodes.map fun x => x.2) fun y => F k (onFacet (boxOf g v) f y)
  static : ∃ a, Kernel.run { U with input := fun a k => if a = 0 then (coefOf S ratio row k).getD (U.input 0 k) else U.input a k } I.tdim
      ((first :: rest).map (Kernel.skip I)) .empty [] 0 = some a ∧
    ∀ k, |L k a - integralOver (region (g.length - 1) (facetBox (boxOf g v) f)) (fun y => F k (onFacet (boxOf g v) f y))| ≤
      δ * boxVolume (facetBox (boxOf g v) f)

/-! ### Proofs -/

theorem facetBox_length {b : List (ℝ × ℝ)} {f : Nat} (hf : f < 2 * b.length) : (facetBox b f).length = b.length - 1 := by
  rw [facetBox, List.length_eraseIdx_of_lt (by omega)]

theorem insert_mem : ∀ (b : List (ℝ × ℝ)) (i : Nat) (y : List ℝ) (x : ℝ), i < b.length → (b.getD i (0, 0)).1 ≤ x → x ≤ (b.getD i (0, 0)).2 →
    InClosedBox 0 (b.eraseIdx i) y → InClosedBox 0 b (y.insertIdx i x)
  | [], _, _, _, h, _, _, _ => by simp at h
  | iv :: b, 0, y, x, _, h1, h2, h => by
    rw [List.insertIdx_zero]
    refine .cons ⟨?_, ?_⟩ h
    · simpa using h1
    · simpa using h2
  | iv :: b, i + 1, y, x, hi, h1, h2, h => by
    rw [List.eraseIdx_cons_succ] at h
    cases h with
    | cons h3 h4 =>
      rw [List.insertIdx_succ_cons]
      refine .cons h3 (insert_mem b i _ x (by simpa using hi) ?_ ?_ h4)
      · simpa using h1
      · simpa using h2

theorem onFacet_mem {b : List (ℝ × ℝ)} (hlt : ∀ iv ∈ b, iv.1 < iv.2) {f : Nat} (hf : f < 2 * b.length) {y : List ℝ}
    (h : InClosedBox 0 (facetBox b f) y) : InClosedBox 0 b (onFacet b f y) := by
  have hi : f / 2 < b.length := by omega
  have hm : (b.getD (f / 2) (0, 0)).1 < (b.getD (f / 2) (0, 0)).2 := by
    rw [List.getD_eq_getElem?_getD, List.getElem?_eq_getElem hi]
    exact hlt _ (List.getElem_mem hi)
  unfold onFacet
  refine insert_mem b _ _ _ hi ?_ ?_ h
  · split
    · exact le_rfl
    · exact hm.le
  · split
    · exact hm.le
    · exact le_rfl

/-- The status of a facet. -/
theorem facet_status {debug : Bool} {oo : Oracles ℝ} {g : Grid ℝ} (hv : g.Valid) (hne : g ≠ []) (hm : 0 ≤ oo.margin) {phi : List ℝ → ℝ}
    (hs : SoundSign phi oo.sign) {d : Dom} (h1 : build debug oo g none = .ok d) {v f : Nat} (hc : v < g.numCells) (hf : f < 2 * g.length) :
    ∃ st : FStatus, ((d.isEmptyFacet v f = some true ↔ st.isEmpty = true) ∧ (d.isCutFacet v f = some true ↔ st.isCut = true) ∧
        (d.isFullUnfFacet v f = some true ↔ st.isFullUnfitted = true) ∧ (d.hasUnfFacet v f = some true ↔ st.hasUnfitted = true)) ∧
      (st.isCut = true ∨ st.hasUnfitted = true → d.isFullUnfFacet v f = some st.isFullUnfitted ∧ d.isFullFacet v f = some st.isFull ∧
        d.isCutFacet v f = some st.isCut ∧ d.hasUnfFacet v f = some st.hasUnfitted) ∧
      ((v ∈ nearCells oo g ∧ st = facetVerdict oo g v f) ∨ (st = .empty ∧ ∀ x, InClosedBox 0 (boxOf g v) x → 0 < phi x) ∨
        (st = .full ∧ ∀ x, InClosedBox 0 (boxOf g v) x → phi x < 0)) := by
  obtain ⟨d', h1', hreach, hcells⟩ := C12_decomposition_sound debug oo g hv hne hm phi hs
  have : d = d' := by rw [h1] at h1'; simpa using h1'
  subst this
  obtain ⟨d', h1'', hn', _⟩ := build_summary debug oo g none hv hne (Or.inr rfl)
  have : d = d' := by rw [h1] at h1''; simpa using h1''
  subst this
  obtain ⟨d', hb1, hF, -⟩ := build_facts debug oo g none hv hne (Or.inr rfl)
  have : d = d' := by rw [h1] at hb1; simpa using hb1
  subst this
  have hN : g.numCells = listProd g.numCellsDir := tsize_eq _
  have hnl : d.n.length = g.length := by rw [hn']; simp [Grid.numCellsDir]
  have huniq {a b} (h : HasStatus d.n d.tree v a) (h' : HasStatus d.n d.tree v b) : a = b :=
    (Tree.WF.of_reachable hF.shape.2 hF.reach).1.hasStatus_unique h h'
  obtain ⟨s1, -, -, -⟩ := boxOf_spec g hv v hc
  obtain ⟨b', hb', hunk, hcase⟩ := hcells v (by omega)
  rw [s1] at hb'
  obtain rfl := Option.some.inj hb'
  rw [← hn'] at hcase
  have hnone : ∀ st : FStatus, FacetRecord d v = none →
      (st = .empty ∧ HasStatus d.n d.tree v .empty ∨ st = .full ∧ HasStatus d.n d.tree v .full) →
      ((d.isEmptyFacet v f = some true ↔ st.isEmpty = true) ∧ (d.isCutFacet v f = some true ↔ st.isCut = true) ∧
        (d.isFullUnfFacet v f = some true ↔ st.isFullUnfitted = true) ∧ (d.hasUnfFacet v f = some true ↔ st.hasUnfitted = true)) ∧
      (st.isCut = true ∨ st.hasUnfitted = true → d.isFullUnfFacet v f = some st.isFullUnfitted ∧ d.isFullFacet v f = some st.isFull ∧
        d.isCutFacet v f = some st.isCut ∧ d.hasUnfFacet v f = some st.hasUnfitted) := by
    intro st hr hst
    obtain ⟨-, e2, e3, e4, e5⟩ := hF.facet_targets.2 v f (by omega) hr
    rw [e2, e3, e4, e5]
    rcases hst with ⟨rfl, h⟩ | ⟨rfl, h⟩
    · simp [h, FStatus.isEmpty, FStatus.isCut, FStatus.isFullUnfitted, FStatus.hasUnfitted]
    · have : ¬ HasStatus d.n d.tree v .empty := fun h' => absurd (huniq h h') (by decide)
      simp [this, FStatus.isEmpty, FStatus.isCut, FStatus.isFullUnfitted, FStatus.hasUnfitted]
  rcases hcase with ⟨q1, q2, q3⟩ | ⟨q1, q2, q3⟩ | ⟨q1, q2, q3⟩
  · exact ⟨.empty, (hnone _ q2 (.inl ⟨rfl, q1⟩)).1, (hnone _ q2 (.inl ⟨rfl, q1⟩)).2, .inr (.inl ⟨rfl, q3⟩)⟩
  · exact ⟨.full, (hnone _ q2 (.inr ⟨rfl, q1⟩)).1, (hnone _ q2 (.inr ⟨rfl, q1⟩)).2, .inr (.inr ⟨rfl, q3⟩)⟩
  · have hnear : v ∈ nearCells oo g := by
      unfold nearCells
      rw [List.mem_filter]
      exact ⟨List.mem_range.2 hc, by simpa [Box.extendDelta] using q1⟩
    have hrec : ∀ s, FacetRecord d v = some ((List.range (g.length * 2)).map fun f => oo.facet (boxOf g v) f s) →
        ((d.isEmptyFacet v f = some true ↔ (oo.facet (boxOf g v) f s).isEmpty = true) ∧
          (d.isCutFacet v f = some true ↔ (oo.facet (boxOf g v) f s).isCut = true) ∧
          (d.isFullUnfFacet v f = some true ↔ (oo.facet (boxOf g v) f s).isFullUnfitted = true) ∧
          (d.hasUnfFacet v f = some true ↔ (oo.facet (boxOf g v) f s).hasUnfitted = true)) ∧
        ((oo.facet (boxOf g v) f s).isCut = true ∨ (oo.facet (boxOf g v) f s).hasUnfitted = true →
          d.isFullUnfFacet v f = some (oo.facet (boxOf g v) f s).isFullUnfitted ∧ d.isFullFacet v f = some (oo.facet (boxOf g v) f s).isFull ∧
          d.isCutFacet v f = some (oo.facet (boxOf g v) f s).isCut ∧ d.hasUnfFacet v f = some (oo.facet (boxOf g v) f s).hasUnfitted) := by
      intro s hr
      have key : ∀ (p : FStatus → Bool) (o : Option Bool), d.facetQuery p o v f = some (p (oo.facet (boxOf g v) f s)) := by
        intro p o
        unfold Dom.facetQuery
        rw [if_pos (show f < d.nFacets by unfold Dom.nFacets; omega)]
        have e : d.facets.find? v = FacetRecord d v := rfl
        rw [e, hr]
        show Option.map p _ = _
        rw [List.getElem?_map, List.getElem?_range (by omega)]
        rfl
      unfold Dom.isEmptyFacet Dom.isCutFacet Dom.isFullUnfFacet Dom.hasUnfFacet Dom.isFullFacet
      simp only [key]
      simp
    unfold classifierVerdict at q2 q3
    cases he : oo.cell (boxOf g v) <;> simp only [he] at q2 q3
    · have e : facetVerdict oo g v f = oo.facet (boxOf g v) f .cut := by simp [facetVerdict, he]
      exact ⟨facetVerdict oo g v f, by rw [e]; exact (hrec _ q3).1, by rw [e]; exact (hrec _ q3).2, .inl ⟨hnear, rfl⟩⟩
    · have e : facetVerdict oo g v f = .full := by simp [facetVerdict, he]
      exact ⟨facetVerdict oo g v f, by rw [e]; exact (hnone _ q3 (.inr ⟨rfl, q2⟩)).1, by rw [e]; exact (hnone _ q3 (.inr ⟨rfl, q2⟩)).2,
        .inl ⟨hnear, rfl⟩⟩
    · have e : facetVerdict oo g v f = .empty := by simp [facetVerdict, he]
      exact ⟨facetVerdict oo g v f, by rw [e]; exact (hnone _ q3 (.inl ⟨rfl, q2⟩)).1, by rw [e]; exact (hnone _ q3 (.inl ⟨rfl, q2⟩)).2,
        .inl ⟨hnear, rfl⟩⟩
    · have e : facetVerdict oo g v f = oo.facet (boxOf g v) f .fullUnf := by simp [facetVerdict, he]
      refine ⟨facetVerdict oo g v f, ?_⟩
      split at q2
      · rename_i hall
        rw [if_pos hall] at q3
        rw [e, hall f (by omega)]
        exact ⟨(hnone _ q3 (.inr ⟨rfl, q2⟩)).1, (hnone _ q3 (.inr ⟨rfl, q2⟩)).2, .inl ⟨hnear, rfl⟩⟩
      · rename_i hall
        rw [if_neg hall] at q3
        rw [e]
        exact ⟨(hrec _ q3).1, (hrec _ q3).2, .inl ⟨hnear, rfl⟩⟩

set_option maxHeartbeats 400000 in
/-- What a facet has to add, and the error. -/
theorem facet_adds {P : Type} {B : Tables.Basix P ℝ} {I : Kernel.Info} {tables : List (List (Tables.Table P))}
    {first : Kernel.Loop ℝ} {rest : List (Kernel.Loop ℝ)} {q : QDomain ℝ} {nRows : Nat} {types : Types} {cols : Nat} {old : List (List ℝ)}
    {domain : Facets} {sp : QuadSpec} (S : Scalars ℝ ℝ)
    (G : FacetGood B I tables first rest q nRows types cols old domain [sp])
    (debug : Bool) (oo : Oracles ℝ) (hd : build debug oo q.grid none = .ok q.u.dom) (hm : 0 ≤ oo.margin)
    (phi : List ℝ → ℝ) (hsound : SoundSign phi oo.sign) (D : List ℝ → Prop) (hD1 : ∀ x, phi x < 0 → D x) (hD2 : ∀ x, D x → phi x ≤ 0)
    (F : Nat → List ℝ → ℝ) (M : ℝ) (hM0 : 0 ≤ M) (κ η δ : ℝ) (hκ : 0 ≤ κ) (hδ : 0 ≤ δ) (fs : List (Nat × Nat))
    (hO : ∀ j, OnFacets q.grid D (F j) M fs)
    (hA : ∀ j, FacetAccurate oo q.oracle q.grid D (F j) (UDomain.numGaussPoints sp.degree) κ η fs)
    {c k v f : Nat} {row : List ℝ} (hdom : (c, k) ∈ domain) (hcv : q.u.mesh.OrigCell c v) (hside : SideFacet q.grid.length k f)
    (hmem : (v, f) ∈ fs) (hext : ∀ x, q.u.topo.FacetOf c k x → q.u.Ext x) (hbd : q.grid.onBoundary v f = some true)
    (U : Kernel.Values ℝ) (L : Nat → (Nat → ℝ) → ℝ) (hL : ∀ j, L j 0 = 0)
    (hC : ComputesFacet S B I tables first rest types.ratio q.grid F δ row v f U L) :
    ∃ δe : Nat → ℝ, FacetAdds S B I tables first rest q [sp] types.ratio row c k U δe ∧
      ∀ j, |L j δe - facetIntegral q.grid D (F j) v f| ≤
        (if v ∈ nearCells oo q.grid then max η (M * κ) else 0) + δ * boxVolume (facetBox (boxOf q.grid v) f) := by
  have hv := G.built.valid
  have hdim := G.built.dim
  have hne : q.grid ≠ [] := by intro h; rw [h] at hdim; simp at hdim
  have h1 : 1 ≤ q.grid.length := by omega
  have h3 : q.grid.length ≤ 3 := by omega
  have hk : k < 2 * q.grid.length := (G.bounds hdom).2
  have hf : f < 2 * q.grid.length := sideFacet_lt h1 h3 hk hside
  obtain ⟨d, h17, hn, _⟩ := build_summary debug oo q.grid none hv hne (Or.inr rfl)
  have : q.u.dom = d := by rw [hd] at h17; simpa using h17
  subst this
  have hlt : v < q.grid.numCells := by
    have h2 := G.mesh.orig_lt c v hcv
    rw [hn] at h2
    have : q.grid.numCells = listProd q.grid.numCellsDir := tsize_eq _
    omega
  obtain ⟨s1, s2, s3, s4⟩ := boxOf_spec q.grid hv v hlt
  obtain ⟨st, ⟨t1, t2, t3, t4⟩, t5, t6⟩ := facet_status hv hne hm hsound hd hlt hf
  have hsays : ∀ p, q.u.Says p c k ↔ p v f = some true := by
    intro p
    constructor
    · rintro ⟨v', g', a1, a2, a3, a4⟩
      rw [G.dim] at a2 a3
      rw [UDomain.OrigCell_inj hcv a1, UDomain.sideFacet_inj h1 h3 hk hf a2 hside a3]
      exact a4
    · intro h; exact ⟨v, f, hcv, by rw [G.dim]; exact hf, by rw [G.dim]; exact hside, h⟩
  obtain ⟨-, fid, hfid⟩ := G.facets _ hdom
  have hx := hext fid hfid
  have huniq : ∀ f', q.u.topo.FacetOf c k f' → f' = fid := by
    rintro f' ⟨row', a, b⟩
    obtain ⟨row, a', b'⟩ := hfid
    simp only at a' b'
    rw [a] at a'
    obtain rfl := Option.some.inj a'
    rw [b] at b'
    exact Option.some.inj b'
  have hcutA : q.u.Answer (.cut true) c k ↔ st.isCut = true ∨ st = .unf ∨ st = .unfExt := by
    have e : q.u.Answer (.cut true) c k ↔ st.isCut = true ∨ (st.hasUnfitted = true ∧ ¬ st.isFullUnfitted = true) := by
      unfold UDomain.Answer
      simp only [hsays, t2, t3, t4]
      constructor
      · rintro ⟨f', -, ⟨-, h⟩ | ⟨-, h1, h2⟩⟩
        · exact .inl h
        · exact .inr ⟨h1, h2⟩
      · rintro (h | ⟨h1, h2⟩)
        · exact ⟨fid, hfid, .inl ⟨hx, h⟩⟩
        · exact ⟨fid, hfid, .inr ⟨hx.1, h1, h2⟩⟩
    rw [e]
    cases st <;> simp [FStatus.isCut, FStatus.hasUnfitted, FStatus.isFullUnfitted]
  have hemA : q.u.Answer (.empty true) c k ↔ st.isEmpty = true := by
    unfold UDomain.Answer
    simp only [hsays, t1]
    constructor
    · rintro ⟨f', -, -, h⟩; exact h
    · intro h; exact ⟨fid, hfid, hx, h⟩
  have hfb : (facetBox (boxOf q.grid v) f).length = q.grid.length - 1 := by rw [facetBox_length (by omega), s2]
  have hfpos : ∀ iv ∈ facetBox (boxOf q.grid v) f, iv.1 < iv.2 := fun iv hiv => s3 iv (List.mem_of_mem_eraseIdx hiv)
  have hvol : 0 ≤ δ * boxVolume (facetBox (boxOf q.grid v) f) := mul_nonneg hδ (boxVolume_pos hfpos).le
  have hfin := volume_region_lt_top hfb
  have hsub : facetPart q.grid D v f ⊆ region (q.grid.length - 1) (facetBox (boxOf q.grid v) f) := fun y hy => hy.1
  have hnear0 : 0 ≤ if v ∈ nearCells oo q.grid then max η (M * κ) else 0 := by
    split
    · exact (mul_nonneg hM0 hκ).trans (le_max_right _ _)
    · exact le_rfl
  by_cases hcut : q.u.Answer (.cut true) c k
  · -- the nodes of the rules
    have hst := hcutA.1 hcut
    have hnear : v ∈ nearCells oo q.grid ∧ st = facetVerdict oo q.grid v f := by
      rcases t6 with h | ⟨rfl, -⟩ | ⟨rfl, -⟩
      · exact h
      · simp [FStatus.isCut] at hst
      · simp [FStatus.isCut] at hst
    have hst' := hst
    rw [hnear.2] at hst'
    have hP : (∀ x ∈ facetNodes q.oracle (boxOf q.grid v) f (UDomain.numGaussPoints sp.degree) st, x.1.length + 1 = q.grid.length ∧ InUnitCube x.1) := by
      intro x hx'
      refine ⟨Plot.cutFacetRule_length hdim G.points s1 s2 (by omega) (List.mem_filter.1 hx').1, ?_⟩
      rw [hnear.2] at hx'
      exact ((hA 0).cut (v, f) hmem hnear.1 hst').1 x hx'
    obtain ⟨a, b1, b2⟩ := hC.rule _ hP
    have hcu : st.isCut = true ∨ st.hasUnfitted = true := by
      rcases hst with h | rfl | rfl
      · exact .inl h
      · exact .inr rfl
      · exact .inr rfl
    obtain ⟨u1, u2, u3, u4⟩ := t5 hcu
    have hnf : st.isFullUnfitted = false ∧ st.isFull = false := by
      revert hst
      cases st <;> simp [FStatus.isCut, FStatus.isFullUnfitted, FStatus.isFull]
    rw [hnf.1] at u1
    rw [hnf.2] at u2
    refine ⟨a, ⟨fun _ => ⟨_, ?_, b1⟩, fun h => ?_, fun h => absurd hcut h⟩, fun j => ?_⟩
    · intro m n s _ hs'
      rcases m with _ | m
      · obtain rfl : sp = s := by simpa using hs'
        exact ⟨v, f, _, hcv, hside, .inl ⟨hbd, .inr (.inr ⟨u1, u2, _, _, u3, u4, .inl ⟨hcu, _, s1, rfl⟩⟩)⟩, rfl⟩
      · simp at hs'
    · have := hemA.1 h
      revert hst this
      cases st <;> simp [FStatus.isCut, FStatus.isEmpty]
    · rw [b2 j, if_pos hnear.1, hnear.2]
      have := ((hA j).cut (v, f) hmem hnear.1 hst').2
      linarith [le_max_left η (M * κ)]
  by_cases hem : q.u.Answer (.empty true) c k
  · -- nothing
    refine ⟨0, ⟨fun h => absurd h hcut, fun _ => rfl, fun _ h => absurd hem h⟩, fun j => ?_⟩
    rw [hL j, zero_sub, abs_neg]
    have hst := hemA.1 hem
    rcases t6 with ⟨n1, n2⟩ | ⟨-, hpos⟩ | ⟨rfl, -⟩
    · rw [if_pos n1]
      rw [n2] at hst
      have hdiff := abs_integralOver_le hsub hfin (fun y => F j (onFacet (boxOf q.grid v) f y)) M κ hM0 ((hO j).bound (v, f) hmem)
        ((hA j).empty (v, f) hmem n1 hst)
      unfold facetIntegral
      linarith [le_max_right η (M * κ)]
    · have : facetPart q.grid D v f = ∅ := by
        rw [Set.eq_empty_iff_forall_notMem]
        rintro y ⟨y1, y2⟩
        exact absurd (hD2 _ y2) (not_le.2 (hpos _ (onFacet_mem s3 (by omega) y1)))
      unfold facetIntegral
      rw [this]
      simp only [integralOver, Measure.restrict_empty, integral_zero_measure, abs_zero]
      exact add_nonneg hnear0 hvol
    · simp [FStatus.isEmpty] at hst
  · -- the static data
    obtain ⟨a, b1, b2⟩ := hC.static
    refine ⟨a, ⟨fun h => absurd h hcut, fun h => absurd h hem, fun _ _ => b1⟩, fun j => ?_⟩
    have hst : st = .full ∨ st = .fullUnf := by
      rw [hcutA] at hcut
      rw [hemA] at hem
      revert hcut hem
      cases st <;> simp [FStatus.isCut, FStatus.isEmpty]
    have hb := b2 j
    rcases t6 with ⟨n1, n2⟩ | ⟨rfl, -⟩ | ⟨-, hneg⟩
    · rw [if_pos n1]
      rw [n2] at hst
      have hdiff := abs_integralOver_le (S := region (q.grid.length - 1) (facetBox (boxOf q.grid v) f) \ facetPart q.grid D v f) Set.diff_subset
        hfin (fun y => F j (onFacet (boxOf q.grid v) f y)) M κ hM0 ((hO j).bound (v, f) hmem) ((hA j).full (v, f) hmem n1 hst)
      have hpart : facetPart q.grid D v f = region (q.grid.length - 1) (facetBox (boxOf q.grid v) f) ∩
          {y | D (onFacet (boxOf q.grid v) f (List.ofFn y))} := rfl
      have hsplit : facetIntegral q.grid D (F j) v f +
          integralOver (region (q.grid.length - 1) (facetBox (boxOf q.grid v) f) \ facetPart q.grid D v f)
            (fun y => F j (onFacet (boxOf q.grid v) f y)) =
          integralOver (region (q.grid.length - 1) (facetBox (boxOf q.grid v) f)) (fun y => F j (onFacet (boxOf q.grid v) f y)) := by
        unfold facetIntegral integralOver
        rw [hpart, Set.diff_self_inter]
        exact integral_inter_add_diff ((hO j).measurable (v, f) hmem) ((hO j).integrable (v, f) hmem)
      rw [abs_le] at hdiff hb ⊢
      have := le_max_right η (M * κ)
      constructor <;> linarith [hdiff.1, hdiff.2, hb.1, hb.2]
    · simp at hst
    · have : facetPart q.grid D v f = region (q.grid.length - 1) (facetBox (boxOf q.grid v) f) := by
        refine Set.Subset.antisymm hsub fun y hy => ⟨hy, hD1 _ (hneg _ (onFacet_mem s3 (by omega) hy))⟩
      unfold facetIntegral
      rw [this]
      exact hb.trans (le_add_of_nonneg_left hnear0)

/-- Sums of the errors of the facets. -/
theorem facets_error (oo : Oracles ℝ) (g : Grid ℝ) (D : List ℝ → Prop) (F : List ℝ → ℝ) (b δ : ℝ) : ∀ (fs : List (Nat × Nat)) (r : Nat → ℝ),
    (∀ (e : Nat) (o : Nat × Nat), fs[e]? = some o → |r e - facetIntegral g D F o.1 o.2| ≤
      (if o.1 ∈ nearCells oo g then b else 0) + δ * boxVolume (facetBox (boxOf g o.1) o.2)) →
    |((List.range fs.length).map r).sum - (fs.map fun o => facetIntegral g D F o.1 o.2).sum| ≤
      (fs.filter fun o => decide (o.1 ∈ nearCells oo g)).length * b + δ * (fs.map fun o => boxVolume (facetBox (boxOf g o.1) o.2)).sum
  | [], r, _ => by simp
  | o :: fs, r, h => by
    have i1 := h 0 o rfl
    have i2 := facets_error oo g D F b δ fs (fun e => r (e + 1)) fun e o' ho => h (e + 1) o' (by simpa using ho)
    rw [List.length_cons, List.range_succ_eq_map, List.map_cons, List.map_map, List.sum_cons, List.map_cons, List.sum_cons, List.map_cons,
      List.sum_cons, List.filter_cons]
    have e : (List.map (r ∘ Nat.succ) (List.range fs.length)) = List.map (fun e => r (e + 1)) (List.range fs.length) := rfl
    rw [e]
    simp only [decide_eq_true_eq]
    rw [abs_le] at i1 i2 ⊢
    by_cases hc : o.1 ∈ nearCells oo g
    · rw [if_pos hc] at i1 ⊢
      rw [List.length_cons]
      push_cast
      constructor <;> linarith [i1.1, i1.2, i2.1, i2.2]
    · rw [if_neg hc] at i1 ⊢
      constructor <;> linarith [i1.1, i1.2, i2.1, i2.2]

/-! ### The properties -/

/-- **C95** (functionals). What DOLFINx assembles with the generated functions over exterior facets of the mesh on the boundary of the grid: it
succeeds, whatever was asked of the domain, of the C++ library and of the thread before, and adds the integrals of `F` over the parts of
those facets in the domain `D`, up to the errors of Algoim and of the classification in the facets of cells near the interface and the
error of the kernel of FFCx in the other ones. `fs` are the facets in the numbering of the C++ library. -/
theorem C95_functional {P : Type} [DecidableEq P] {B : Tables.Basix P ℝ} {I : Kernel.Info} {tables : List (List (Tables.Table P))}
    {first : Kernel.Loop ℝ} {rest : List (Kernel.Loop ℝ)} {q : QDomain ℝ} {nRows : Nat} {types : Types} {cols : Nat} {old : List (List ℝ)}
    {domain : Facets} {sp : QuadSpec} {argsort : List Int → List Nat} (hs : ∀ l, IsArgsort l (argsort l))
    (toNat : ℝ → Nat) (hn : ∀ n : Nat, toNat (n : ℝ) = n) (S : Scalars ℝ ℝ)
    (G : FacetGood B I tables first rest q nRows types cols old domain [sp])
    (debug : Bool) (oo : Oracles ℝ) (hd : build debug oo q.grid none = .ok q.u.dom) (hm : 0 ≤ oo.margin)
    (phi : List ℝ → ℝ) (hsound : SoundSign phi oo.sign) (D : List ℝ → Prop) (hD1 : ∀ x, phi x < 0 → D x) (hD2 : ∀ x, D x → phi x ≤ 0)
    (F : List ℝ → ℝ) (M : ℝ) (hM0 : 0 ≤ M) (κ η δ : ℝ) (hκ : 0 ≤ κ) (hδ : 0 ≤ δ) (fs : List (Nat × Nat)) (hO : OnFacets q.grid D F M fs)
    (hA : FacetAccurate oo q.oracle q.grid D F (UDomain.numGaussPoints sp.degree) κ η fs)
    (hfs : List.Forall₂ (fun p o => q.u.mesh.OrigCell p.1 o.1 ∧ SideFacet q.grid.length p.2 o.2) domain fs)
    (hext : ∀ p ∈ domain, ∀ x, q.u.topo.FacetOf p.1 p.2 x → q.u.Ext x) (hbd : ∀ o ∈ fs, q.grid.onBoundary o.1 o.2 = some true)
    (U : Nat → Kernel.Values ℝ)
    (hU : ∀ (e : Nat) (o : Nat × Nat) row, fs[e]? = some o → old[e]? = some row →
      ComputesFacet S B I tables first rest types.ratio q.grid (fun _ => F) δ row o.1 o.2 (U e) fun _ a => a 0)
    {s : UDomain.Caches} (hk : Asked argsort q.u s) {ch : Cache ℝ} (hr : Reached q ch) {st : Tables.State P ℝ}
    (hst : Tables.Reachable B st) (A : Nat → ℝ) :
    ∃ s' ch' i mem st' A', facetInput argsort q types cols old domain [sp] s ch = some ((s', ch'), i) ∧ pack i = some mem ∧
      assembleScalar (⟨toNat, S, B, I, false, tables, first :: rest, types, cols, mem⟩ : Job P ℝ ℝ)
        ((List.range domain.length).map fun e => (i.rowPos e, U e)) st A = some (st', A') ∧
      |A' 0 - (A 0 + (fs.map fun o => facetIntegral q.grid D F o.1 o.2).sum)| ≤
        (fs.filter fun o => decide (o.1 ∈ nearCells oo q.grid)).length * max η (M * κ) +
          δ * (fs.map fun o => boxVolume (facetBox (boxOf q.grid o.1) o.2)).sum := by
  obtain ⟨s', ch', i, mem, h1, h2, -, -⟩ := C91_total hs toNat hn G hk hr
  have hlen := hfs.length_eq
  have hfac : ∀ e, ∃ δe : Nat → ℝ, e < fs.length → ∃ c k o row, domain[e]? = some (c, k) ∧ fs[e]? = some o ∧ old[e]? = some row ∧
      FacetAdds S B I tables first rest q [sp] types.ratio row c k (U e) δe ∧
      |δe 0 - facetIntegral q.grid D F o.1 o.2| ≤
        (if o.1 ∈ nearCells oo q.grid then max η (M * κ) else 0) + δ * boxVolume (facetBox (boxOf q.grid o.1) o.2) := by
    intro e
    by_cases he : e < fs.length
    swap
    · exact ⟨0, fun h => absurd h he⟩
    have hed : e < domain.length := by omega
    have hp := hfs.get hed he
    simp only [List.get_eq_getElem] at hp
    have heo : e < old.length := by rw [G.rows]; exact hed
    have hrow := List.getElem?_eq_getElem heo
    have hC := hU e _ _ (List.getElem?_eq_getElem he) hrow
    obtain ⟨δe, a1, a2⟩ := facet_adds S G debug oo hd hm phi hsound D hD1 hD2 (fun _ => F) M hM0 κ η δ hκ hδ fs (fun _ => hO) (fun _ => hA)
      (c := domain[e].1) (k := domain[e].2) (List.getElem_mem hed) hp.1 hp.2 (List.getElem_mem he) (hext _ (List.getElem_mem hed))
      (hbd _ (List.getElem_mem he)) (U e) (fun _ a => a 0) (fun _ => rfl) hC
    exact ⟨δe, fun _ => ⟨_, _, _, _, List.getElem?_eq_getElem hed, List.getElem?_eq_getElem he, hrow, a1, a2 0⟩⟩
  choose δs hδs using hfac
  obtain ⟨st', e1, -⟩ := C91_scalar_partial hs toNat hn S G hk hr h1 h2 U δs (by
    intro e he
    obtain ⟨c, k, o, row, a1, -, a3, a4, -⟩ := hδs e (by omega)
    exact ⟨c, k, row, a1, a3, a4⟩) hst A
  refine ⟨s', ch', i, mem, st', _, h1, h2, e1, ?_⟩
  have hsum : (A + ((List.range domain.length).map δs).sum) 0 = A 0 + ((List.range fs.length).map fun e => δs e 0).sum := by
    rw [Pi.add_apply, hlen]
    congr 1
    have key : ∀ l : List Nat, ((l.map δs).sum : Nat → ℝ) 0 = (l.map fun e => δs e 0).sum := by
      intro l
      induction l with
      | nil => rfl
      | cons e l ih => rw [List.map_cons, List.sum_cons, List.map_cons, List.sum_cons, Pi.add_apply, ih]
    exact key _
  rw [hsum, add_sub_add_left_eq_sub]
  refine facets_error oo q.grid D F _ δ fs _ ?_
  intro e o ho
  obtain ⟨c, k, o', row, -, a1, -, -, a2⟩ := hδs e (List.getElem?_eq_some_iff.1 ho).1
  rw [ho] at a1
  obtain rfl := Option.some.inj a1
  exact a2

/-- **C95** (vectors and matrices): entry `d` of the global tensor gets the integrals of `F d`, for all the entries. `dofs e` has the numbers of
the entries of the element tensor. -/
theorem C95_tensor {P : Type} [DecidableEq P] {B : Tables.Basix P ℝ} {I : Kernel.Info} {tables : List (List (Tables.Table P))}
    {first : Kernel.Loop ℝ} {rest : List (Kernel.Loop ℝ)} {q : QDomain ℝ} {nRows : Nat} {types : Types} {cols : Nat} {old : List (List ℝ)}
    {domain : Facets} {sp : QuadSpec} {argsort : List Int → List Nat} (hs : ∀ l, IsArgsort l (argsort l))
    (toNat : ℝ → Nat) (hn : ∀ n : Nat, toNat (n : ℝ) = n) (S : Scalars ℝ ℝ)
    (G : FacetGood B I tables first rest q nRows types cols old domain [sp])
    (debug : Bool) (oo : Oracles ℝ) (hd : build debug oo q.grid none = .ok q.u.dom) (hm : 0 ≤ oo.margin)
    (phi : List ℝ → ℝ) (hsound : SoundSign phi oo.sign) (D : List ℝ → Prop) (hD1 : ∀ x, phi x < 0 → D x) (hD2 : ∀ x, D x → phi x ≤ 0)
    (F : Nat → List ℝ → ℝ) (M : ℝ) (hM0 : 0 ≤ M) (κ η δ : ℝ) (hκ : 0 ≤ κ) (hδ : 0 ≤ δ) (fs : List (Nat × Nat))
    (hO : ∀ d, OnFacets q.grid D (F d) M fs)
    (hA : ∀ d, FacetAccurate oo q.oracle q.grid D (F d) (UDomain.numGaussPoints sp.degree) κ η fs)
    (hfs : List.Forall₂ (fun p o => q.u.mesh.OrigCell p.1 o.1 ∧ SideFacet q.grid.length p.2 o.2) domain fs)
    (hext : ∀ p ∈ domain, ∀ x, q.u.topo.FacetOf p.1 p.2 x → q.u.Ext x) (hbd : ∀ o ∈ fs, q.grid.onBoundary o.1 o.2 = some true)
    (U : Nat → Kernel.Values ℝ)
    (dofs : Nat → List Nat) (hU : ∀ (e : Nat) (o : Nat × Nat) row, fs[e]? = some o → old[e]? = some row →
      ComputesFacet S B I tables first rest types.ratio q.grid F δ row o.1 o.2 (U e) fun d a => entry (dofs e) a d)
    {s : UDomain.Caches} (hk : Asked argsort q.u s) {ch : Cache ℝ} (hr : Reached q ch) {st : Tables.State P ℝ}
    (hst : Tables.Reachable B st) (b : Nat → ℝ) :
    ∃ s' ch' i mem st' b', facetInput argsort q types cols old domain [sp] s ch = some ((s', ch'), i) ∧ pack i = some mem ∧
      assembleVector (⟨toNat, S, B, I, false, tables, first :: rest, types, cols, mem⟩ : Job P ℝ ℝ)
        ((List.range domain.length).map fun e => (i.rowPos e, U e, dofs e)) st b = some (st', b') ∧
      ∀ d, |b' d - (b d + (fs.map fun o => facetIntegral q.grid D (F d) o.1 o.2).sum)| ≤
        (fs.filter fun o => decide (o.1 ∈ nearCells oo q.grid)).length * max η (M * κ) +
          δ * (fs.map fun o => boxVolume (facetBox (boxOf q.grid o.1) o.2)).sum := by
  obtain ⟨s', ch', i, mem, h1, h2, -, -⟩ := C91_total hs toNat hn G hk hr
  have hlen := hfs.length_eq
  have hfac : ∀ e, ∃ δe : Nat → ℝ, e < fs.length → ∃ c k o row, domain[e]? = some (c, k) ∧ fs[e]? = some o ∧ old[e]? = some row ∧
      FacetAdds S B I tables first rest q [sp] types.ratio row c k (U e) δe ∧
      ∀ d, |entry (dofs e) δe d - facetIntegral q.grid D (F d) o.1 o.2| ≤
        (if o.1 ∈ nearCells oo q.grid then max η (M * κ) else 0) + δ * boxVolume (facetBox (boxOf q.grid o.1) o.2) := by
    intro e
    by_cases he : e < fs.length
    swap
    · exact ⟨0, fun h => absurd h he⟩
    have hed : e < domain.length := by omega
    have hp := hfs.get hed he
    simp only [List.get_eq_getElem] at hp
    have heo : e < old.length := by rw [G.rows]; exact hed
    have hrow := List.getElem?_eq_getElem heo
    have hC := hU e _ _ (List.getElem?_eq_getElem he) hrow
    obtain ⟨δe, a1, a2⟩ := facet_adds S G debug oo hd hm phi hsound D hD1 hD2 F M hM0 κ η δ hκ hδ fs hO hA
      (c := domain[e].1) (k := domain[e].2) (List.getElem_mem hed) hp.1 hp.2 (List.getElem_mem he) (hext _ (List.getElem_mem hed))
      (hbd _ (List.getElem_mem he)) (U e) (fun d a => entry (dofs e) a d) (fun d => by simp [entry]) hC
    exact ⟨δe, fun _ => ⟨_, _, _, _, List.getElem?_eq_getElem hed, List.getElem?_eq_getElem he, hrow, a1, a2⟩⟩
  choose δs hδs using hfac
  obtain ⟨st', b', e1, -, e2⟩ := C91_vector_partial hs toNat hn S G hk hr h1 h2 U dofs δs (by
    intro e he
    obtain ⟨c, k, o, row, a1, -, a3, a4, -⟩ := hδs e (by omega)
    exact ⟨c, k, row, a1, a3, a4⟩) hst b
  refine ⟨s', ch', i, mem, st', b', h1, h2, e1, fun d => ?_⟩
  rw [e2 d, add_sub_add_left_eq_sub, hlen]
  refine facets_error oo q.grid D (F d) _ δ fs (fun e => entry (dofs e) (δs e) d) ?_
  intro e o ho
  obtain ⟨c, k, o', row, -, a1, -, -, a2⟩ := hδs e (List.getElem?_eq_some_iff.1 ho).1
  rw [ho] at a1
  obtain rfl := Option.some.inj a1
  exact a2 d

end Qugar.Py.Integral
