import Verif.Props.PyIntegralFacetMeasure
/-
C96: what DOLFINx assembles over the unfitted boundary is the integral over the surface.
-/
namespace Qugar.Py.Integral

open Pack Assemble Quad Spec BoxMeasure Integrals
open MeasureTheory hiding integral

/-! ### Specification -/

/-- Euclidean length. -/
noncomputable def euclid (v : List ℝ) : ℝ := √(v.map fun x => x ^ 2).sum

/-- The normal in the box `b` of a surface whose normal in the unit cube is `n`, not normalized. -/
noncomputable def boxNormal (b : List (ℝ × ℝ)) (n : List ℝ) : List ℝ := List.zipWith (fun iv x => x / (iv.2 - iv.1)) b n

/-- The area in the box `b` of a piece of plane of the unit cube with area 1 and normal `n`. -/
noncomputable def stretch (b : List (ℝ × ℝ)) (n : List ℝ) : ℝ := boxVolume b * euclid (boxNormal b n)

/-- The normal in the box, of length 1. -/
noncomputable def unitNormal (b : List (ℝ × ℝ)) (n : List ℝ) : List ℝ := (boxNormal b n).map fun x => x / euclid (boxNormal b n)

/-- What points with weights and normals in the unit cube give for the function `F` of the point and of the normal in the box `b`. -/
noncomputable def surfaceSum (b : List (ℝ × ℝ)) (nodes : List (UNode ℝ)) (F : List ℝ → List ℝ → ℝ) : ℝ :=
  (nodes.map fun x => x.2.1 * stretch b x.2.2 *
    F (List.zipWith (fun iv t => iv.1 + t * (iv.2 - iv.1)) b x.1) (unitNormal b x.2.2)).sum

/-- The points on the unfitted boundary inside of a cut cell: those of Algoim, except the ones on facets classified as unfitted boundary. -/
noncomputable def surfaceNodes (oo : Oracles ℝ) (o : QOracle ℝ) (g : Grid ℝ) (v n : Nat) : List (UNode ℝ) :=
  (cutSurfaceRule o (boxOf g v) n).filter fun x =>
    decide (∀ f < g.length * 2, (facetVerdict oo g v f).hasUnfitted = true → ¬ OnFacet o (boxOf g v) f x)

/-- `μ` is a measure on the surface where `phi` vanishes: the rest has measure zero, and so have the faces that the cells share. The integrand
is integrable and bounded. -/
structure OnSurface (g : Grid ℝ) (phi : List ℝ → ℝ) (μ : Measure (Fin g.length → ℝ)) (F : List ℝ → ℝ) (M : ℝ) : Prop where
  finite : μ (region g.length g.domain) < ⊤
  supported : μ {x | phi (List.ofFn x) ≠ 0} = 0
  faces : ∀ v < g.numCells, ∀ w < g.numCells, v ≠ w → μ (region g.length (boxOf g v) ∩ region g.length (boxOf g w)) = 0
  integrable : IntegrableOn (fun x => F (List.ofFn x)) (region g.length g.domain) μ
  bound : ∀ x ∈ region g.length g.domain, |F (List.ofFn x)| ≤ M

/-- The integral of `F` over a part of the surface. -/
noncomputable def surfaceIntegral {d : Nat} (μ : Measure (Fin d → ℝ)) (S : Set (Fin d → ℝ)) (F : List ℝ → ℝ) : ℝ :=
  ∫ x in S, F (List.ofFn x) ∂μ

/-- Accuracy of the ingredients that do not belong to the code in the cells near the interface: the surface in cells that are not classified
as cut has an area of at most `κ`, and the points in cut cells, which are in them, integrate the function with an error of at most `η`
(`F` is the integrand as a function of the point and of the normal, `f` as a function of the point of the surface). -/
structure SurfaceAccurate (oo : Oracles ℝ) (o : QOracle ℝ) (g : Grid ℝ) (μ : Measure (Fin g.length → ℝ)) (F : List ℝ → List ℝ → ℝ)
    (f : List ℝ → ℝ) (n : Nat) (κ η : ℝ) : Prop where
  other : ∀ c ∈ nearCells oo g, oo.cell (boxOf g c) ≠ .cut → (μ (region g.length (boxOf g c))).toReal ≤ κ
  cut : ∀ c ∈ nearCells oo g, oo.cell (boxOf g c) = .cut →
    (∀ x ∈ surfaceNodes oo o g c n, InUnitCube x.1) ∧
    |surfaceSum (boxOf g c) (surfaceNodes oo o g c n) F - surfaceIntegral μ (region g.length (boxOf g c)) f| ≤ η

/-- The kernel generated by FFCx computes the integral over the surface in the cell `v`: with any points in the unit cube and any normals, what
they give; with its static data, nothing. `L k` is what entry `k` of the result gets of the element tensor. -/
structure ComputesSurface {P : Type} (S : Scalars ℝ ℝ) (B : Tables.Basix P ℝ) (I : Kernel.Info) (tables : List (List (Tables.Table P)))
    (first : Kernel.Loop ℝ) (rest : List (Kernel.Loop ℝ)) (ratio : Nat) (g : Grid ℝ) (F : Nat → List ℝ → List ℝ → ℝ) (row : List ℝ) (v : Nat)
    (U : Kernel.Values ℝ) (L : Nat → (Nat → ℝ) → ℝ) : Prop where
  rule : ∀ nodes : List (UNode ℝ), (∀ x ∈ nodes, x.1.length = g.length ∧ x.2.2.length = g.length ∧ InUnitCube x.1) → ∃ a,
    cellSum (atNode S B tables (coefOf S ratio row) U) I first.pre (fun _ => nodes) (first :: rest) = some a ∧
    ∀ k, L k a = surfaceSum (boxOf g v) nodes (F k)
  static : ∃ a, Kernel.run { U with input := fun a k => if a = 0 then (coefOf S ratio row k).getD (U.input 0 k) else U.input a k } I.tdim
      ((first :: rest).map (Kernel.skip I)) .empty [] 0 = some a ∧ ∀ k, L k a = 0

/-! ### Proofs -/

/-- What the decomposition says about a cell, for its surface. -/
theorem surface_status {debug : Bool} {oo : Oracles ℝ} {g : Grid ℝ} (hv : g.Valid) (hne : g ≠ []) (hm : 0 ≤ oo.margin) {phi : List ℝ → ℝ}
    (hs : SoundSign phi oo.sign) {d : Dom} (h1 : build debug oo g none = .ok d) {v : Nat} (hc : v < g.numCells) :
    (HasStatus d.n d.tree v .cut ∧ v ∈ nearCells oo g ∧ oo.cell (boxOf g v) = .cut ∧ d.isCellWithUnf v = some true ∧
      ∀ f < g.length * 2, d.hasUnfFacet v f = some (facetVerdict oo g v f).hasUnfitted) ∨
    (¬ HasStatus d.n d.tree v .cut ∧ ((v ∈ nearCells oo g ∧ oo.cell (boxOf g v) ≠ .cut) ∨
      ∀ x, InClosedBox 0 (boxOf g v) x → phi x ≠ 0)) := by
  obtain ⟨d', h1', hreach, hcells⟩ := C12_decomposition_sound debug oo g hv hne hm phi hs
  have : d = d' := by rw [h1] at h1'; simpa using h1'
  subst this
  obtain ⟨d', h1'', hn', _⟩ := build_summary debug oo g none hv hne (Or.inr rfl)
  have : d = d' := by rw [h1] at h1''; simpa using h1''
  subst this
  obtain ⟨d', hb1, hF, -⟩ := build_facts debug oo g none hv hne (Or.inr rfl)
  have : d = d' := by rw [h1] at hb1; simpa using hb1
  subst this
  obtain ⟨d', h17, _, _, _, _, hcut, hunf, _⟩ := C17_full_cells_with_unfitted_boundary debug oo g none hv hne (Or.inr rfl)
  have : d = d' := by rw [h1] at h17; simpa using h17
  subst this
  have hN : g.numCells = listProd g.numCellsDir := tsize_eq _
  have hnl : d.n.length = g.length := by rw [hn']; simp [Grid.numCellsDir]
  have huniq {a b} (h : HasStatus d.n d.tree v a) (h' : HasStatus d.n d.tree v b) : a = b :=
    (Tree.WF.of_reachable hF.shape.2 hF.reach).1.hasStatus_unique h h'
  obtain ⟨s1, -, -, -⟩ := boxOf_spec g hv v hc
  obtain ⟨b', hb', hunk, hcase⟩ := hcells v (by omega)
  rw [s1] at hb'
  obtain rfl := Option.some.inj hb'
  rw [← hn'] at hcase
  rcases hcase with ⟨q1, q2, q3⟩ | ⟨q1, q2, q3⟩ | ⟨q1, q2, q3⟩
  · exact .inr ⟨fun h => absurd (huniq h q1) (by decide), .inr fun x hx => (q3 x hx).ne'⟩
  · exact .inr ⟨fun h => absurd (huniq h q1) (by decide), .inr fun x hx => (q3 x hx).ne⟩
  · have hnear : v ∈ nearCells oo g := by
      unfold nearCells
      rw [List.mem_filter]
      exact ⟨List.mem_range.2 hc, by simpa [Box.extendDelta] using q1⟩
    unfold classifierVerdict at q2 q3
    cases he : oo.cell (boxOf g v) <;> simp only [he] at q2 q3
    · refine .inl ⟨q2, hnear, rfl, (hunf v (by rw [hn']; omega)).2 ⟨_, q3⟩, fun f hf => ?_⟩
      have e : facetVerdict oo g v f = oo.facet (boxOf g v) f .cut := by simp [facetVerdict, he]
      rw [e]
      unfold Dom.hasUnfFacet Dom.facetQuery
      rw [if_pos (show f < d.nFacets by unfold Dom.nFacets; omega)]
      have e : d.facets.find? v = FacetRecord d v := rfl
      rw [e, q3]
      show Option.map _ _ = _
      rw [List.getElem?_map, List.getElem?_range hf]
      rfl
    · exact .inr ⟨fun h => absurd (huniq h q2) (by decide), .inl ⟨hnear, by simp⟩⟩
    · exact .inr ⟨fun h => absurd (huniq h q2) (by decide), .inl ⟨hnear, by simp⟩⟩
    · refine .inr ⟨fun h => ?_, .inl ⟨hnear, by simp⟩⟩
      split at q2 <;> exact absurd (huniq h q2) (by simp)

/-- The rule of the unfitted boundary in a cut cell. -/
theorem isUnfRule {t : QuadType ℝ} {oo : Oracles ℝ} {o : QOracle ℝ} {g : Grid ℝ} {d : Dom} {n v : Nat}
    (hb : g.cellDomain v = some (boxOf g v)) (h1 : d.isCellWithUnf v = some true) (h2 : d.isCutCell v = some true)
    (h3 : ∀ f < g.length * 2, d.hasUnfFacet v f = some (facetVerdict oo g v f).hasUnfitted) :
    IsUnfRule t o g d n false false v (surfaceNodes oo o g v n) := by
  refine .inr ⟨h1, surfaceNodes oo o g v n, List.replicate (g.length * 2) [], by simp, .inr ⟨h2, _, hb, ?_⟩, by simp, ?_⟩
  · unfold surfaceNodes
    apply List.filter_congr
    intro x _
    rw [decide_eq_decide]
    constructor
    · intro h f hf k
      rw [h3 f hf] at k
      exact h f hf (by simpa using k)
    · intro h f hf k
      exact h f hf (by rw [h3 f hf, k])
  · intro f hf
    simp

theorem surface_dims {o : QOracle ℝ} {g : Grid ℝ} (hp : PointDims o g) {v n : Nat} (hb : g.cellDomain v = some (boxOf g v))
    (hl : (boxOf g v).length = g.length) : ∀ x ∈ cutSurfaceRule o (boxOf g v) n, x.1.length = g.length ∧ x.2.2.length = g.length := by
  intro x hx
  unfold cutSurfaceRule at hx
  split at hx
  · obtain ⟨y, hy, rfl⟩ := List.mem_map.1 hx
    have h1 := hp.surfBzr v _ n hb y hy
    exact ⟨by simp [h1], by simp [hp.bzrGrad v _ y.1 hb h1]⟩
  · obtain ⟨y, hy, rfl⟩ := List.mem_map.1 hx
    have h1 := hp.surfGen v _ n hb y hy
    exact ⟨by simp [Box.scaleTo01, h1, hl], by simp [hp.grad y.1 h1, Box.lengths, hl]⟩

/-- The integral over some cells is the sum of the integrals over each one. -/
theorem surface_cells (g : Grid ℝ) (hv : g.Valid) (μ : Measure (Fin g.length → ℝ))
    (hfaces : ∀ v < g.numCells, ∀ w < g.numCells, v ≠ w → μ (region g.length (boxOf g v) ∩ region g.length (boxOf g w)) = 0)
    (F : List ℝ → ℝ) (hF : IntegrableOn (fun x => F (List.ofFn x)) (region g.length g.domain) μ) :
    ∀ vs : List Nat, vs.Nodup → (∀ v ∈ vs, v < g.numCells) →
      surfaceIntegral μ (cellsRegion g vs) F = (vs.map fun c => surfaceIntegral μ (region g.length (boxOf g c)) F).sum ∧
      MeasurableSet (cellsRegion g vs) ∧ cellsRegion g vs ⊆ region g.length g.domain := by
  intro vs
  induction vs with
  | nil =>
    intro _ _
    have e : cellsRegion g [] = ∅ := by ext x; simp [cellsRegion]
    rw [e]
    simp [surfaceIntegral]
  | cons v vs ih =>
    intro hnd hlt
    obtain ⟨hv1, hv2⟩ := List.nodup_cons.1 hnd
    obtain ⟨i1, i2, i3⟩ := ih hv2 fun w hw => hlt w (List.mem_cons_of_mem _ hw)
    obtain ⟨s1, s2, s3, s4⟩ := boxOf_spec g hv v (hlt v List.mem_cons_self)
    have e : cellsRegion g (v :: vs) = region g.length (boxOf g v) ∪ cellsRegion g vs := by
      ext x
      simp [cellsRegion]
    have hm := measurable_region (d := g.length) s2
    rw [e]
    refine ⟨?_, hm.union i2, Set.union_subset s4 i3⟩
    rw [List.map_cons, List.sum_cons, ← i1]
    unfold surfaceIntegral
    refine integral_union_ae ?_ i2.nullMeasurableSet (hF.mono_set s4) (hF.mono_set i3)
    have : cellsRegion g vs = ⋃ w : {w // w ∈ vs}, region g.length (boxOf g w.1) := by
      ext x
      simp [cellsRegion]
    rw [this, AEDisjoint.iUnion_right_iff]
    rintro ⟨w, hw⟩
    exact hfaces v (hlt v List.mem_cons_self) w (hlt w (List.mem_cons_of_mem _ hw)) (by rintro rfl; exact hv1 hw)

/-- What a cell has to add, and the error. -/
theorem surface_adds {P : Type} {B : Tables.Basix P ℝ} {I : Kernel.Info} {tables : List (List (Tables.Table P))}
    {first : Kernel.Loop ℝ} {rest : List (Kernel.Loop ℝ)} {q : QDomain ℝ} {nRows : Nat} {types : Types} {cols : Nat} {old : List (List ℝ)}
    {domain : List Nat} {sp : QuadSpec} (S : Scalars ℝ ℝ)
    (G : Good B I tables first rest q nRows types cols old domain [sp]) (hsp : sp.boundary = true)
    (debug : Bool) (oo : Oracles ℝ) (hd : build debug oo q.grid none = .ok q.u.dom) (hm : 0 ≤ oo.margin)
    (phi : List ℝ → ℝ) (hsound : SoundSign phi oo.sign) (μ : Measure (Fin q.grid.length → ℝ))
    (F : Nat → List ℝ → List ℝ → ℝ) (fS : Nat → List ℝ → ℝ) (M : ℝ) (hM0 : 0 ≤ M) (κ η : ℝ) (hκ : 0 ≤ κ)
    (hO : ∀ k, OnSurface q.grid phi μ (fS k) M)
    (hA : ∀ k, SurfaceAccurate oo q.oracle q.grid μ (F k) (fS k) (UDomain.numGaussPoints sp.degree) κ η)
    {c v : Nat} {row : List ℝ} (hcv : q.u.mesh.OrigCell c v) (U : Kernel.Values ℝ) (L : Nat → (Nat → ℝ) → ℝ) (hL : ∀ k, L k 0 = 0)
    (hU : ComputesSurface S B I tables first rest types.ratio q.grid F row v U L) :
    ∃ δe : Nat → ℝ, Adds S B I tables first rest q [sp] types.ratio row v U δe ∧
      ∀ k, |L k δe - surfaceIntegral μ (region q.grid.length (boxOf q.grid v)) (fS k)| ≤
        if v ∈ nearCells oo q.grid then max η (M * κ) else 0 := by
  have hv := G.built.valid
  have hdim := G.built.dim
  have hne : q.grid ≠ [] := by intro h; rw [h] at hdim; simp at hdim
  have hlt := G.built.cells c v hcv
  obtain ⟨d, h17, _, _, _, _, hcut, _⟩ := C17_full_cells_with_unfitted_boundary debug oo q.grid none hv hne (Or.inr rfl)
  have : q.u.dom = d := by rw [hd] at h17; simpa using h17
  subst this
  obtain ⟨s1, s2, s3, s4⟩ := boxOf_spec q.grid hv v hlt
  have hu {a b} := hasStatus_unique (v := v) (a := a) (b := b) G.mesh
  rcases surface_status hv hne hm hsound hd hlt with ⟨k1, k2, k3, k4, k5⟩ | ⟨k1, k2⟩
  · obtain ⟨a, a1, a2⟩ := hU.rule (surfaceNodes oo q.oracle q.grid v (UDomain.numGaussPoints sp.degree)) (by
      intro x hx
      obtain ⟨h1, h2⟩ := surface_dims G.points s1 s2 x (List.mem_filter.1 hx).1
      exact ⟨h1, h2, ((hA 0).cut v k2 k3).1 x hx⟩)
    refine ⟨a, ⟨fun _ => ?_, fun h => absurd (hu k1 h) (by decide), fun h => absurd k1 h⟩, fun k => ?_⟩
    · refine ⟨_, ?_, a1⟩
      intro m n s _ hs'
      rcases m with _ | m
      · obtain rfl : sp = s := by simpa using hs'
        unfold IsRule
        rw [hsp, if_pos rfl]
        exact isUnfRule s1 k4 ((hcut v).2 k1) k5
      · simp at hs'
    · rw [if_pos k2, a2]
      exact ((hA k).cut v k2 k3).2.trans (le_max_left _ _)
  · have herr : ∀ k, |0 - surfaceIntegral μ (region q.grid.length (boxOf q.grid v)) (fS k)| ≤
        if v ∈ nearCells oo q.grid then max η (M * κ) else 0 := by
      intro k
      have hfin : μ (region q.grid.length (boxOf q.grid v)) < ⊤ := (measure_mono s4).trans_lt (hO k).finite
      rw [zero_sub, abs_neg]
      have hb : |surfaceIntegral μ (region q.grid.length (boxOf q.grid v)) (fS k)| ≤
          M * (μ (region q.grid.length (boxOf q.grid v))).toReal :=
        norm_setIntegral_le_of_norm_le_const (f := fun x => fS k (List.ofFn x)) hfin fun x hx => (hO k).bound x (s4 hx)
      rcases k2 with ⟨g1, g2⟩ | g
      · rw [if_pos g1]
        exact hb.trans ((mul_le_mul_of_nonneg_left ((hA k).other v g1 g2) hM0).trans (le_max_right _ _))
      · have h0 : μ (region q.grid.length (boxOf q.grid v)) = 0 :=
          measure_mono_null (fun x hx => g _ hx) (hO k).supported
        rw [h0] at hb
        refine hb.trans ?_
        rw [ENNReal.toReal_zero, mul_zero]
        split
        · exact (mul_nonneg hM0 hκ).trans (le_max_right _ _)
        · exact le_rfl
    obtain ⟨a, a1, a2⟩ := hU.static
    by_cases g2 : HasStatus q.u.dom.n q.u.dom.tree v .empty
    · exact ⟨0, ⟨fun h => absurd h k1, fun _ => rfl, fun _ h => absurd g2 h⟩, fun k => by rw [hL]; exact herr k⟩
    · exact ⟨a, ⟨fun h => absurd h k1, fun h => absurd h g2, fun _ _ => a1⟩, fun k => by rw [a2]; exact herr k⟩

theorem surface_error (oo : Oracles ℝ) (g : Grid ℝ) (hv : g.Valid) (phi : List ℝ → ℝ) (μ : Measure (Fin g.length → ℝ)) (F : List ℝ → ℝ) (M : ℝ)
    (hO : OnSurface g phi μ F M) (B : ℝ) (r : Nat → ℝ) (vs : List Nat) (hnd : vs.Nodup)
    (hlt : ∀ v ∈ vs, v < g.numCells)
    (h : ∀ c ∈ vs, |r c - surfaceIntegral μ (region g.length (boxOf g c)) F| ≤ if c ∈ nearCells oo g then B else 0) :
    |(vs.map r).sum - surfaceIntegral μ (cellsRegion g vs) F| ≤ (vs.filter fun v => decide (v ∈ nearCells oo g)).length * B := by
  rw [(surface_cells g hv μ hO.faces F hO.integrable vs hnd hlt).1]
  clear hnd hlt
  induction vs with
  | nil => simp
  | cons c l ih =>
    have i1 := h c List.mem_cons_self
    have i2 := ih fun c hc => h c (List.mem_cons_of_mem _ hc)
    simp only [List.map_cons, List.sum_cons, List.filter_cons, decide_eq_true_eq]
    rw [abs_le] at i1 i2 ⊢
    by_cases hc : c ∈ nearCells oo g
    · rw [if_pos hc] at i1 ⊢
      rw [List.length_cons]
      push_cast
      constructor <;> linarith [i1.1, i1.2, i2.1, i2.2]
    · rw [if_neg hc] at i1 ⊢
      constructor <;> linarith [i1.1, i1.2, i2.1, i2.2]

/-- **C96**. The functional assembled by DOLFINx over the unfitted boundary in some cells of the mesh: it succeeds, whatever was asked of the
domain, of the C++ library and of the thread before, and adds the integral of the integrand over the part of the surface that is in those
cells. For each of the cells near the interface, the error is at most the greatest of the errors of Algoim's rule and of the classification;
the other cells add nothing. `F` is the integrand as a function of the point and of the normal, `f` as a function of the points of the
surface. -/
theorem C96_functional {P : Type} [DecidableEq P] {B : Tables.Basix P ℝ} {I : Kernel.Info} {tables : List (List (Tables.Table P))}
    {first : Kernel.Loop ℝ} {rest : List (Kernel.Loop ℝ)} {q : QDomain ℝ} {nRows : Nat} {types : Types} {cols : Nat} {old : List (List ℝ)}
    {domain : List Nat} {sp : QuadSpec} {argsort : List Int → List Nat} (hs : ∀ l, IsArgsort l (argsort l))
    (toNat : ℝ → Nat) (hn : ∀ n : Nat, toNat (n : ℝ) = n) (S : Scalars ℝ ℝ)
    (G : Good B I tables first rest q nRows types cols old domain [sp]) (hsp : sp.boundary = true)
    (debug : Bool) (oo : Oracles ℝ) (hd : build debug oo q.grid none = .ok q.u.dom) (hm : 0 ≤ oo.margin)
    (phi : List ℝ → ℝ) (hsound : SoundSign phi oo.sign) (μ : Measure (Fin q.grid.length → ℝ)) (F : List ℝ → List ℝ → ℝ) (f : List ℝ → ℝ)
    (M : ℝ) (hM0 : 0 ≤ M) (κ η : ℝ) (hκ : 0 ≤ κ) (hO : OnSurface q.grid phi μ f M)
    (hA : SurfaceAccurate oo q.oracle q.grid μ F f (UDomain.numGaussPoints sp.degree) κ η)
    (vs : List Nat) (hvs : List.Forall₂ q.u.mesh.OrigCell domain vs) (hnd : vs.Nodup) (U : Nat → Kernel.Values ℝ)
    (hU : ∀ (e v : Nat) row, vs[e]? = some v → old[e]? = some row →
      ComputesSurface S B I tables first rest types.ratio q.grid (fun _ => F) row v (U e) fun _ a => a 0)
    {s : UDomain.Caches} (hk : UDomain.CellCachesOk argsort q.u s) {ch : Cache ℝ} (hr : Reached q ch) {st : Tables.State P ℝ}
    (hst : Tables.Reachable B st) (A : Nat → ℝ) :
    ∃ s' ch' i mem st' A', cellInput argsort q types cols old domain [sp] s ch = some ((s', ch'), i) ∧ pack i = some mem ∧
      assembleScalar (⟨toNat, S, B, I, false, tables, first :: rest, types, cols, mem⟩ : Job P ℝ ℝ)
        ((List.range domain.length).map fun e => (i.rowPos e, U e)) st A = some (st', A') ∧
      |A' 0 - (A 0 + surfaceIntegral μ (cellsRegion q.grid vs) f)| ≤
        (vs.filter fun v => decide (v ∈ nearCells oo q.grid)).length * max η (M * κ) := by
  obtain ⟨s', ch', i, mem, h1, h2, -, -⟩ := C90_total hs toNat hn G hk hr
  have hlen := hvs.length_eq
  have hlt : ∀ v ∈ vs, v < q.grid.numCells := by
    intro v hv
    obtain ⟨e, he, rfl⟩ := List.mem_iff_getElem.1 hv
    obtain ⟨c, -, h⟩ := orig_of hvs (List.getElem?_eq_getElem he)
    exact G.built.cells c _ h
  have hcell : ∀ e, ∃ δe : Nat → ℝ, e < vs.length → ∃ c v row, domain[e]? = some c ∧ vs[e]? = some v ∧ q.u.mesh.OrigCell c v ∧
      old[e]? = some row ∧ Adds S B I tables first rest q [sp] types.ratio row v (U e) δe ∧
      |δe 0 - surfaceIntegral μ (region q.grid.length (boxOf q.grid v)) f| ≤ if v ∈ nearCells oo q.grid then max η (M * κ) else 0 := by
    intro e
    by_cases he : e < vs.length
    swap
    · exact ⟨0, fun h => absurd h he⟩
    have hev := List.getElem?_eq_getElem he
    obtain ⟨c, hec, hcv⟩ := orig_of hvs hev
    have heo : e < old.length := by rw [G.rows, hlen]; exact he
    have hrow := List.getElem?_eq_getElem heo
    obtain ⟨δe, a1, a2⟩ := surface_adds S G hsp debug oo hd hm phi hsound μ (fun _ => F) (fun _ => f) M hM0 κ η hκ (fun _ => hO)
      (fun _ => hA) hcv (U e) (fun _ a => a 0) (fun _ => rfl) (hU e _ _ hev hrow)
    exact ⟨δe, fun _ => ⟨c, _, _, hec, hev, hcv, hrow, a1, a2 0⟩⟩
  choose δs hδs using hcell
  obtain ⟨st', e1, -⟩ := C90_scalar_partial hs toNat hn S G hk hr h1 h2 U δs (by
    intro e he
    obtain ⟨c, v, row, a1, -, a2, a3, a4, -⟩ := hδs e (by omega)
    exact ⟨c, v, row, a1, a2, a3, a4⟩) hst A
  refine ⟨s', ch', i, mem, st', _, h1, h2, e1, ?_⟩
  have hsum : (A + ((List.range domain.length).map δs).sum) 0 = A 0 + (vs.map fun v => δs (vs.idxOf v) 0).sum := by
    rw [Pi.add_apply]
    congr 1
    have key : ∀ l : List Nat, ((l.map δs).sum : Nat → ℝ) 0 = (l.map fun e => δs e 0).sum := by
      intro l
      induction l with
      | nil => rfl
      | cons e l ih => rw [List.map_cons, List.sum_cons, List.map_cons, List.sum_cons, Pi.add_apply, ih]
    rw [key, sum_positions hlen hnd]
  rw [hsum, add_sub_add_left_eq_sub]
  refine surface_error oo q.grid G.built.valid phi μ f M hO _ _ vs hnd hlt ?_
  intro v hv
  have hidx := List.idxOf_lt_length_iff.2 hv
  obtain ⟨c, v', row, -, a1, -, -, -, a2⟩ := hδs (vs.idxOf v) hidx
  have : vs[vs.idxOf v]? = some v := by rw [List.getElem?_eq_getElem hidx, List.getElem_idxOf hidx]
  rw [this] at a1
  obtain rfl := Option.some.inj a1
  exact a2

/-- **C96** (vectors and matrices). -/
theorem C96_tensor {P : Type} [DecidableEq P] {B : Tables.Basix P ℝ} {I : Kernel.Info} {tables : List (List (Tables.Table P))}
    {first : Kernel.Loop ℝ} {rest : List (Kernel.Loop ℝ)} {q : QDomain ℝ} {nRows : Nat} {types : Types} {cols : Nat} {old : List (List ℝ)}
    {domain : List Nat} {sp : QuadSpec} {argsort : List Int → List Nat} (hs : ∀ l, IsArgsort l (argsort l))
    (toNat : ℝ → Nat) (hn : ∀ n : Nat, toNat (n : ℝ) = n) (S : Scalars ℝ ℝ)
    (G : Good B I tables first rest q nRows types cols old domain [sp]) (hsp : sp.boundary = true)
    (debug : Bool) (oo : Oracles ℝ) (hd : build debug oo q.grid none = .ok q.u.dom) (hm : 0 ≤ oo.margin)
    (phi : List ℝ → ℝ) (hsound : SoundSign phi oo.sign) (μ : Measure (Fin q.grid.length → ℝ)) (F : Nat → List ℝ → List ℝ → ℝ)
    (f : Nat → List ℝ → ℝ) (M : ℝ) (hM0 : 0 ≤ M) (κ η : ℝ) (hκ : 0 ≤ κ) (hO : ∀ d, OnSurface q.grid phi μ (f d) M)
    (hA : ∀ d, SurfaceAccurate oo q.oracle q.grid μ (F d) (f d) (UDomain.numGaussPoints sp.degree) κ η)
    (vs : List Nat) (hvs : List.Forall₂ q.u.mesh.OrigCell domain vs) (hnd : vs.Nodup) (U : Nat → Kernel.Values ℝ) (dofs : Nat → List Nat)
    (hU : ∀ (e v : Nat) row, vs[e]? = some v → old[e]? = some row →
      ComputesSurface S B I tables first rest types.ratio q.grid F row v (U e) fun d a => entry (dofs e) a d)
    {s : UDomain.Caches} (hk : UDomain.CellCachesOk argsort q.u s) {ch : Cache ℝ} (hr : Reached q ch) {st : Tables.State P ℝ}
    (hst : Tables.Reachable B st) (b : Nat → ℝ) :
    ∃ s' ch' i mem st' b', cellInput argsort q types cols old domain [sp] s ch = some ((s', ch'), i) ∧ pack i = some mem ∧
      assembleVector (⟨toNat, S, B, I, false, tables, first :: rest, types, cols, mem⟩ : Job P ℝ ℝ)
        ((List.range domain.length).map fun e => (i.rowPos e, U e, dofs e)) st b = some (st', b') ∧
      ∀ d, |b' d - (b d + surfaceIntegral μ (cellsRegion q.grid vs) (f d))| ≤
        (vs.filter fun v => decide (v ∈ nearCells oo q.grid)).length * max η (M * κ) := by
  obtain ⟨s', ch', i, mem, h1, h2, -, -⟩ := C90_total hs toNat hn G hk hr
  have hlen := hvs.length_eq
  have hlt : ∀ v ∈ vs, v < q.grid.numCells := by
    intro v hv
    obtain ⟨e, he, rfl⟩ := List.mem_iff_getElem.1 hv
    obtain ⟨c, -, h⟩ := orig_of hvs (List.getElem?_eq_getElem he)
    exact G.built.cells c _ h
  have hcell : ∀ e, ∃ δe : Nat → ℝ, e < vs.length → ∃ c v row, domain[e]? = some c ∧ vs[e]? = some v ∧ q.u.mesh.OrigCell c v ∧
      old[e]? = some row ∧ Adds S B I tables first rest q [sp] types.ratio row v (U e) δe ∧
      ∀ d, |entry (dofs e) δe d - surfaceIntegral μ (region q.grid.length (boxOf q.grid v)) (f d)| ≤
        if v ∈ nearCells oo q.grid then max η (M * κ) else 0 := by
    intro e
    by_cases he : e < vs.length
    swap
    · exact ⟨0, fun h => absurd h he⟩
    have hev := List.getElem?_eq_getElem he
    obtain ⟨c, hec, hcv⟩ := orig_of hvs hev
    have heo : e < old.length := by rw [G.rows, hlen]; exact he
    have hrow := List.getElem?_eq_getElem heo
    obtain ⟨δe, a1, a2⟩ := surface_adds S G hsp debug oo hd hm phi hsound μ F f M hM0 κ η hκ hO
      hA hcv (U e) (fun d a => entry (dofs e) a d) (fun d => by simp [entry]) (hU e _ _ hev hrow)
    exact ⟨δe, fun _ => ⟨c, _, _, hec, hev, hcv, hrow, a1, a2⟩⟩
  choose δs hδs using hcell
  obtain ⟨st', b', e1, -, e2⟩ := C90_vector_partial hs toNat hn S G hk hr h1 h2 U dofs δs (by
    intro e he
    obtain ⟨c, v, row, a1, -, a2, a3, a4, -⟩ := hδs e (by omega)
    exact ⟨c, v, row, a1, a2, a3, a4⟩) hst b
  refine ⟨s', ch', i, mem, st', b', h1, h2, e1, fun d => ?_⟩
  rw [e2 d, add_sub_add_left_eq_sub]
  have := sum_positions hlen hnd fun e => entry (dofs e) (δs e) d
  unfold entry at this
  rw [this]
  refine surface_error oo q.grid G.built.valid phi μ (f d) M (hO d) _ _ vs hnd hlt ?_
  intro v hv
  have hidx := List.idxOf_lt_length_iff.2 hv
  obtain ⟨c, v', row, -, a1, -, -, -, a2⟩ := hδs (vs.idxOf v) hidx
  have : vs[vs.idxOf v]? = some v := by rw [List.getElem?_eq_getElem hidx, List.getElem_idxOf hidx]
  rw [this] at a1
  obtain rfl := Option.some.inj a1
  exact a2 d

theorem cellsRegion_all (g : Grid ℝ) (hv : g.Valid) {vs : List Nat} (hall : vs.Perm (List.range g.numCells)) :
    cellsRegion g vs = region g.length g.domain := by
  rw [region_domain g hv]
  ext x
  simp only [cellsRegion, Set.mem_setOf_eq, Set.mem_iUnion]
  constructor
  · rintro ⟨v, hv, hx⟩
    exact ⟨⟨v, List.mem_range.1 (hall.mem_iff.1 hv)⟩, hx⟩
  · rintro ⟨⟨v, hv⟩, hx⟩
    exact ⟨v, hall.mem_iff.2 (List.mem_range.2 hv), hx⟩

/-- **C96** (all the cells): over all the cells of the grid, in any order, it is the integral over the surface in the domain of the grid. -/
theorem C96_whole {P : Type} [DecidableEq P] {B : Tables.Basix P ℝ} {I : Kernel.Info} {tables : List (List (Tables.Table P))}
    {first : Kernel.Loop ℝ} {rest : List (Kernel.Loop ℝ)} {q : QDomain ℝ} {nRows : Nat} {types : Types} {cols : Nat} {old : List (List ℝ)}
    {domain : List Nat} {sp : QuadSpec} {argsort : List Int → List Nat} (hs : ∀ l, IsArgsort l (argsort l))
    (toNat : ℝ → Nat) (hn : ∀ n : Nat, toNat (n : ℝ) = n) (S : Scalars ℝ ℝ)
    (G : Good B I tables first rest q nRows types cols old domain [sp]) (hsp : sp.boundary = true)
    (debug : Bool) (oo : Oracles ℝ) (hd : build debug oo q.grid none = .ok q.u.dom) (hm : 0 ≤ oo.margin)
    (phi : List ℝ → ℝ) (hsound : SoundSign phi oo.sign) (μ : Measure (Fin q.grid.length → ℝ)) (F : List ℝ → List ℝ → ℝ) (f : List ℝ → ℝ)
    (M : ℝ) (hM0 : 0 ≤ M) (κ η : ℝ) (hκ : 0 ≤ κ) (hO : OnSurface q.grid phi μ f M)
    (hA : SurfaceAccurate oo q.oracle q.grid μ F f (UDomain.numGaussPoints sp.degree) κ η)
    (vs : List Nat) (hvs : List.Forall₂ q.u.mesh.OrigCell domain vs) (hall : vs.Perm (List.range q.grid.numCells)) (U : Nat → Kernel.Values ℝ)
    (hU : ∀ (e v : Nat) row, vs[e]? = some v → old[e]? = some row →
      ComputesSurface S B I tables first rest types.ratio q.grid (fun _ => F) row v (U e) fun _ a => a 0)
    {s : UDomain.Caches} (hk : UDomain.CellCachesOk argsort q.u s) {ch : Cache ℝ} (hr : Reached q ch) {st : Tables.State P ℝ}
    (hst : Tables.Reachable B st) (A : Nat → ℝ) :
    ∃ s' ch' i mem st' A', cellInput argsort q types cols old domain [sp] s ch = some ((s', ch'), i) ∧ pack i = some mem ∧
      assembleScalar (⟨toNat, S, B, I, false, tables, first :: rest, types, cols, mem⟩ : Job P ℝ ℝ)
        ((List.range domain.length).map fun e => (i.rowPos e, U e)) st A = some (st', A') ∧
      |A' 0 - (A 0 + surfaceIntegral μ (region q.grid.length q.grid.domain) f)| ≤ (nearCells oo q.grid).length * max η (M * κ) := by
  obtain ⟨s', ch', i, mem, st', A', h1, h2, h3, h4⟩ := C96_functional hs toNat hn S G hsp debug oo hd hm phi hsound μ F f M hM0 κ η hκ hO hA
    vs hvs (hall.nodup_iff.2 List.nodup_range) U hU hk hr hst A
  rw [cellsRegion_all q.grid G.built.valid hall, near_count oo q.grid hall] at h4
  exact ⟨s', ch', i, mem, st', A', h1, h2, h3, h4⟩

/-! ### The points of Algoim -/

theorem euclid_nil : euclid [] = 0 := by simp [euclid]

theorem euclid_div (l : List ℝ) {r : ℝ} (hr : 0 < r) : euclid (l.map fun x => x / r) = euclid l / r := by
  unfold euclid
  rw [List.map_map]
  have : (l.map ((fun x => x ^ 2) ∘ fun x => x / r)).sum = (l.map fun x => x ^ 2).sum / r ^ 2 := by
    induction l with
    | nil => simp
    | cons x l ih => simp only [List.map_cons, List.sum_cons, Function.comp, ih]; ring
  rw [this, Real.sqrt_div' _ (by positivity), Real.sqrt_sq hr.le]

theorem boxNormal_scaled : ∀ (b : List (ℝ × ℝ)) (u : List ℝ) (r : ℝ), (∀ iv ∈ b, iv.1 < iv.2) → u.length = b.length →
    boxNormal b ((List.zipWith (· * ·) u (Box.lengths b)).map fun x => x / r) = u.map fun x => x / r
  | [], u, _, _, h => by
    obtain rfl := List.length_eq_zero_iff.1 h
    rfl
  | iv :: b, [], _, _, h => by simp at h
  | iv :: b, x :: u, r, hb, h => by
    have hiv := (sub_pos.2 (hb iv List.mem_cons_self)).ne'
    have ih := boxNormal_scaled b u r (fun iv hiv => hb iv (List.mem_cons_of_mem _ hiv)) (by simpa using h)
    unfold boxNormal Box.lengths at ih ⊢
    simp only [List.map_cons, List.zipWith_cons_cons, ih]
    congr 1
    field_simp

theorem unscale : ∀ (b : List (ℝ × ℝ)) (x : List ℝ), (∀ iv ∈ b, iv.1 < iv.2) → x.length = b.length →
    List.zipWith (fun iv t => iv.1 + t * (iv.2 - iv.1)) b (Box.scaleTo01 b x) = x
  | [], x, _, h => by
    obtain rfl := List.length_eq_zero_iff.1 h
    rfl
  | iv :: b, [], _, h => by simp at h
  | iv :: b, t :: x, hb, h => by
    have hiv := (sub_pos.2 (hb iv List.mem_cons_self)).ne'
    have ih := unscale b x (fun iv hiv => hb iv (List.mem_cons_of_mem _ hiv)) (by simpa using h)
    unfold Box.scaleTo01 at ih ⊢
    simp only [List.zipWith_cons_cons, ih]
    congr 1
    field_simp
    ring

theorem lengths_ne : ∀ (b : List (ℝ × ℝ)) (u : List ℝ), (∀ iv ∈ b, iv.1 < iv.2) → u.length = b.length → 0 < euclid u →
    0 < euclid (List.zipWith (· * ·) u (Box.lengths b)) := by
  have key : ∀ (b : List (ℝ × ℝ)) (u : List ℝ), (∀ iv ∈ b, iv.1 < iv.2) → u.length = b.length → 0 < (u.map fun x => x ^ 2).sum →
      0 < ((List.zipWith (· * ·) u (Box.lengths b)).map fun x => x ^ 2).sum := by
    intro b
    induction b with
    | nil =>
      intro u _ h hu
      obtain rfl := List.length_eq_zero_iff.1 h
      simp at hu
    | cons iv b ih =>
      intro u hb h hu
      obtain _ | ⟨x, u⟩ := u
      · simp at h
      have hiv := sub_pos.2 (hb iv List.mem_cons_self)
      have nonneg : ∀ l : List ℝ, 0 ≤ (l.map fun x => x ^ 2).sum := fun l => List.sum_nonneg (by
        intro y hy
        obtain ⟨z, -, rfl⟩ := List.mem_map.1 hy
        positivity)
      unfold Box.lengths at ih ⊢
      simp only [List.map_cons, List.zipWith_cons_cons, List.sum_cons] at hu ⊢
      by_cases hx : x = 0
      · subst hx
        have := ih u (fun iv hiv => hb iv (List.mem_cons_of_mem _ hiv)) (by simpa using h) (by simpa using hu)
        simpa using this
      · have h1 : 0 < (x * (iv.2 - iv.1)) ^ 2 := by positivity
        have h2 := nonneg (List.zipWith (· * ·) u (b.map fun iv => iv.2 - iv.1))
        linarith
  intro b u hb h hu
  exact Real.sqrt_pos.2 (key b u hb h (Real.sqrt_pos.1 hu))

/-- **C96** (points): what the points of a cut cell give for `F` is what the points of Algoim, in the space, give with the gradient of the
level set function, divided by its length, as normal: weights and normals are transformed to the unit cube and back. -/
theorem C96_points (o : QOracle ℝ) (hb : o.isBezier = false) (hnorm : o.norm = euclid) {b : List (ℝ × ℝ)} (hlt : ∀ iv ∈ b, iv.1 < iv.2) (n : Nat)
    (hdim : ∀ x ∈ o.surfGen b n, x.1.length = b.length ∧ (o.grad x.1).length = b.length ∧ 0 < euclid (o.grad x.1))
    (F : List ℝ → List ℝ → ℝ) :
    surfaceSum b (cutSurfaceRule o b n) F =
      ((o.surfGen b n).map fun x => x.2 * F x.1 ((o.grad x.1).map fun t => t / euclid (o.grad x.1))).sum := by
  unfold surfaceSum cutSurfaceRule
  rw [if_neg (by simp [hb]), List.map_map]
  congr 1
  apply List.map_congr_left
  intro x hx
  obtain ⟨h1, h2, h3⟩ := hdim x hx
  simp only [Function.comp, hnorm]
  generalize hu : (o.grad x.1).map (· / euclid (o.grad x.1)) = u
  have hu1 : euclid u = 1 := by rw [← hu, euclid_div _ h3, div_self h3.ne']
  have hul : u.length = b.length := by rw [← hu, List.length_map, h2]
  have hm := lengths_ne b u hlt hul (by rw [hu1]; exact one_pos)
  have hvol := boxVolume_pos hlt
  generalize hw : euclid (List.zipWith (· * ·) u (Box.lengths b)) = m at hm ⊢
  have e1 : boxNormal b ((List.zipWith (· * ·) u (Box.lengths b)).map (· / m)) = u.map fun x => x / m := boxNormal_scaled b u m hlt hul
  have e2 : euclid (u.map fun x => x / m) = 1 / m := by rw [euclid_div _ hm, hu1]
  unfold stretch unitNormal
  rw [e1, e2, unscale b x.1 hlt h1, ← boxVolume_eq_volume, List.map_map]
  have e3 : (u.map ((fun x => x / (1 / m)) ∘ fun x => x / m)) = u := by
    conv_rhs => rw [← List.map_id u]
    apply List.map_congr_left
    intro t _
    simp only [Function.comp, id]
    field_simp
  rw [e3]
  field_simp

end Qugar.Py.Integral
