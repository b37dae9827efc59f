import Verif.Props.PyIntegralFacetMeasure
import Verif.Lemmas.GridSide
/-
C95 for a side of the boundary of the grid: the integral over the part of the side inside of the domain.
-/
namespace Qugar.Py.Integral

open Pack Assemble Quad Spec BoxMeasure Integrals
open MeasureTheory hiding integral

/-! ### Specification -/

/-- The facets of the cells of the grid on its side `f`. -/
def sideFacets (g : Grid ℝ) (f : Nat) : List (Nat × Nat) :=
  ((List.range g.numCells).filter fun v => g.onBoundary v f == some true).map fun v => (v, f)

/-- The part of side `f` of the domain of the grid that is in `D`. -/
def sidePart (g : Grid ℝ) (D : List ℝ → Prop) (f : Nat) : Set (Fin (g.length - 1) → ℝ) :=
  {y | y ∈ region (g.length - 1) (facetBox g.domain f) ∧ D (onFacet g.domain f (List.ofFn y))}

/-- The integral of `F` over that part. -/
noncomputable def sideIntegral (g : Grid ℝ) (D : List ℝ → Prop) (F : List ℝ → ℝ) (f : Nat) : ℝ :=
  integralOver (sidePart g D f) fun y => F (onFacet g.domain f y)

/-- The domain and the integrand, in a side: measurable, integrable and bounded. -/
structure OnSide (g : Grid ℝ) (D : List ℝ → Prop) (F : List ℝ → ℝ) (M : ℝ) (f : Nat) : Prop where
  measurable : MeasurableSet {y : Fin (g.length - 1) → ℝ | D (onFacet g.domain f (List.ofFn y))}
  integrable : IntegrableOn (fun y => F (onFacet g.domain f (List.ofFn y))) (region (g.length - 1) (facetBox g.domain f))
  bound : ∀ y ∈ region (g.length - 1) (facetBox g.domain f), |F (onFacet g.domain f (List.ofFn y))| ≤ M

/-! ### Proofs -/

theorem integral_cells_n (g : Grid ℝ) (hv : g.Valid) (n : Nat) (hn : n = g.length) (S : Set (Fin n → ℝ)) (hS : MeasurableSet S) (F : List ℝ → ℝ)
    (hF : IntegrableOn (fun x => F (List.ofFn x)) (region n g.domain)) :
    integralOver (S ∩ region n g.domain) F = ((List.range g.numCells).map fun c => integralOver (S ∩ region n (boxOf g c)) F).sum := by
  subst hn
  exact integral_cells g hv S hS F hF

theorem domain_erase (g : Grid ℝ) (i : Nat) : Grid.domain (g.eraseIdx i) = g.domain.eraseIdx i := by
  simp [Grid.domain, List.eraseIdx_map]

/-- A cell on the side. -/
theorem side_cell_box {g : Grid ℝ} (hv : g.Valid) {f : Nat} (hf : f < 2 * g.length) {c : Nat} (hc : c < Grid.numCells (g.eraseIdx (f / 2))) :
    facetBox (boxOf g (g.sideCell f c)) f = boxOf (g.eraseIdx (f / 2)) c ∧ ∀ y, onFacet (boxOf g (g.sideCell f c)) f y = onFacet g.domain f y := by
  obtain ⟨b, h1, h2, h3⟩ := Grid.sideCell_box hv hf hc
  have e : boxOf g (g.sideCell f c) = b := by rw [boxOf, h1]; rfl
  rw [e]
  refine ⟨?_, fun y => ?_⟩
  · rw [boxOf, h2]; rfl
  · unfold onFacet
    rw [h3]

theorem mem_sideFacets {g : Grid ℝ} (hv : g.Valid) {f : Nat} (hf : f < 2 * g.length) {o : Nat × Nat} (ho : o ∈ sideFacets g f) :
    o.2 = f ∧ g.onBoundary o.1 f = some true ∧ ∃ c, c < Grid.numCells (g.eraseIdx (f / 2)) ∧ o.1 = g.sideCell f c := by
  obtain ⟨v, hm, rfl⟩ := List.mem_map.1 ho
  refine ⟨rfl, by simpa using (List.mem_filter.1 hm).2, ?_⟩
  rw [← (Grid.side_cells hv hf).mem_iff] at hm
  obtain ⟨c, hc, rfl⟩ := List.mem_map.1 hm
  exact ⟨c, List.mem_range.1 hc, rfl⟩

theorem side_subset {g : Grid ℝ} (hv : g.Valid) {f : Nat} (hf : f < 2 * g.length) {c : Nat} (hc : c < Grid.numCells (g.eraseIdx (f / 2))) :
    region (g.length - 1) (boxOf (g.eraseIdx (f / 2)) c) ⊆ region (g.length - 1) (facetBox g.domain f) := by
  have h := (boxOf_spec (g.eraseIdx (f / 2)) (Grid.valid_erase hv _) c hc).2.2.2
  rw [domain_erase] at h
  have hl : (g.eraseIdx (f / 2)).length = g.length - 1 := List.length_eraseIdx_of_lt (by omega)
  intro y hy
  unfold region at h hy ⊢
  have := @h (fun i => y ⟨i.1, by omega⟩)
  have e : List.ofFn (fun i : Fin (g.eraseIdx (f / 2)).length => y ⟨i.1, by omega⟩) = List.ofFn y := by
    apply List.ext_getElem
    · simp [hl]
    · intro i h1 h2; simp
  rw [Set.mem_setOf_eq, Set.mem_setOf_eq, e] at this
  exact this hy

/-- **C95** (geometry): the integral over the part of a side in the domain is the sum of the integrals over the parts of the facets of the
cells on that side. -/
theorem C95_side_sum (g : Grid ℝ) (hv : g.Valid) (D : List ℝ → Prop) (F : List ℝ → ℝ) (f : Nat) (hf : f < 2 * g.length)
    (hD : MeasurableSet {y : Fin (g.length - 1) → ℝ | D (onFacet g.domain f (List.ofFn y))})
    (hF : IntegrableOn (fun y => F (onFacet g.domain f (List.ofFn y))) (region (g.length - 1) (facetBox g.domain f))) :
    sideIntegral g D F f = ((sideFacets g f).map fun o => facetIntegral g D F o.1 o.2).sum := by
  have hl : g.length - 1 = (g.eraseIdx (f / 2)).length := (List.length_eraseIdx_of_lt (by omega)).symm
  have h := integral_cells_n (g.eraseIdx (f / 2)) (Grid.valid_erase hv _) (g.length - 1) hl _ hD (fun y => F (onFacet g.domain f y))
    (by rw [domain_erase]; exact hF)
  have e : sideIntegral g D F f = integralOver ({y : Fin (g.length - 1) → ℝ | D (onFacet g.domain f (List.ofFn y))} ∩
      region (g.length - 1) (Grid.domain (g.eraseIdx (f / 2)))) fun y => F (onFacet g.domain f y) := by
    rw [domain_erase, Set.inter_comm]
    rfl
  rw [e, h, sideFacets, List.map_map, ← ((Grid.side_cells hv hf).map _).sum_eq, List.map_map]
  congr 1
  apply List.map_congr_left
  intro c hc
  obtain ⟨b1, b2⟩ := side_cell_box hv hf (List.mem_range.1 hc)
  simp only [Function.comp_apply]
  unfold facetIntegral facetPart
  simp only [b1, b2]
  rw [Set.inter_comm]
  rfl

theorem side_volume (g : Grid ℝ) (hv : g.Valid) (f : Nat) (hf : f < 2 * g.length) :
    ((sideFacets g f).map fun o => boxVolume (facetBox (boxOf g o.1) o.2)).sum = boxVolume (facetBox g.domain f) := by
  rw [sideFacets, List.map_map, ← ((Grid.side_cells hv hf).map _).sum_eq, List.map_map, facetBox, ← domain_erase, ← sum_volumes]
  congr 1
  apply List.map_congr_left
  intro c hc
  obtain ⟨b1, b2⟩ := side_cell_box hv hf (List.mem_range.1 hc)
  simp only [Function.comp_apply, b1]

theorem OnSide.facets {g : Grid ℝ} (hv : g.Valid) {D : List ℝ → Prop} {F : List ℝ → ℝ} {M : ℝ} {f : Nat} (hf : f < 2 * g.length)
    (h : OnSide g D F M f) {fs : List (Nat × Nat)} (hfs : ∀ o ∈ fs, o ∈ sideFacets g f) : OnFacets g D F M fs := by
  have key : ∀ o ∈ fs, o.2 = f ∧ (region (g.length - 1) (facetBox (boxOf g o.1) f) ⊆ region (g.length - 1) (facetBox g.domain f)) ∧
      ∀ y, onFacet (boxOf g o.1) f y = onFacet g.domain f y := by
    intro o ho
    obtain ⟨h1, -, c, h2, h3⟩ := mem_sideFacets hv hf (hfs o ho)
    obtain ⟨b1, b2⟩ := side_cell_box hv hf h2
    rw [h3, b1]
    exact ⟨h1, side_subset hv hf h2, b2⟩
  refine ⟨fun o ho => ?_, fun o ho => ?_, fun o ho y hy => ?_⟩ <;> obtain ⟨k1, k2, k3⟩ := key o ho
  · simp only [k1, k3]
    exact h.measurable
  · simp only [k1, k3]
    exact h.integrable.mono_set k2
  · rw [k1] at hy
    simp only [k1, k3]
    exact h.bound y (k2 hy)

/-! ### The property -/

/-- **C95** (a side): when the facets of the integral are those of the cells on a side of the grid, in any order, the functional is the
integral over the part of the side in the domain. -/
theorem C95_side {P : Type} [DecidableEq P] {B : Tables.Basix P ℝ} {I : Kernel.Info} {tables : List (List (Tables.Table P))}
    {first : Kernel.Loop ℝ} {rest : List (Kernel.Loop ℝ)} {q : QDomain ℝ} {nRows : Nat} {types : Types} {cols : Nat} {old : List (List ℝ)}
    {domain : Facets} {sp : QuadSpec} {argsort : List Int → List Nat} (hs : ∀ l, IsArgsort l (argsort l))
    (toNat : ℝ → Nat) (hn : ∀ n : Nat, toNat (n : ℝ) = n) (S : Scalars ℝ ℝ)
    (G : FacetGood B I tables first rest q nRows types cols old domain [sp])
    (debug : Bool) (oo : Oracles ℝ) (hd : build debug oo q.grid none = .ok q.u.dom) (hm : 0 ≤ oo.margin)
    (phi : List ℝ → ℝ) (hsound : SoundSign phi oo.sign) (D : List ℝ → Prop) (hD1 : ∀ x, phi x < 0 → D x) (hD2 : ∀ x, D x → phi x ≤ 0)
    (F : List ℝ → ℝ) (M : ℝ) (hM0 : 0 ≤ M) (κ η δ : ℝ) (hκ : 0 ≤ κ) (hδ : 0 ≤ δ) (f : Nat) (hf : f < 2 * q.grid.length)
    (hO : OnSide q.grid D F M f) (hA : FacetAccurate oo q.oracle q.grid D F (UDomain.numGaussPoints sp.degree) κ η (sideFacets q.grid f))
    (fs : List (Nat × Nat)) (hfs : List.Forall₂ (fun p o => q.u.mesh.OrigCell p.1 o.1 ∧ SideFacet q.grid.length p.2 o.2) domain fs)
    (hall : fs.Perm (sideFacets q.grid f)) (hext : ∀ p ∈ domain, ∀ x, q.u.topo.FacetOf p.1 p.2 x → q.u.Ext x)
    (U : Nat → Kernel.Values ℝ) (hU : ∀ (e : Nat) (o : Nat × Nat) row, fs[e]? = some o → old[e]? = some row →
      ComputesFacet S B I tables first rest types.ratio q.grid (fun _ => F) δ row o.1 o.2 (U e) fun _ a => a 0)
    {s : UDomain.Caches} (hk : Asked argsort q.u s) {ch : Cache ℝ} (hr : Reached q ch) {st : Tables.State P ℝ}
    (hst : Tables.Reachable B st) (A : Nat → ℝ) :
    ∃ s' ch' i mem st' A', facetInput argsort q types cols old domain [sp] s ch = some ((s', ch'), i) ∧ pack i = some mem ∧
      assembleScalar (⟨toNat, S, B, I, false, tables, first :: rest, types, cols, mem⟩ : Job P ℝ ℝ)
        ((List.range domain.length).map fun e => (i.rowPos e, U e)) st A = some (st', A') ∧
      |A' 0 - (A 0 + sideIntegral q.grid D F f)| ≤
        ((sideFacets q.grid f).filter fun o => decide (o.1 ∈ nearCells oo q.grid)).length * max η (M * κ) +
          δ * boxVolume (facetBox q.grid.domain f) := by
  have hv := G.built.valid
  have hmem : ∀ o ∈ fs, o ∈ sideFacets q.grid f := fun o ho => hall.mem_iff.1 ho
  have hA' : FacetAccurate oo q.oracle q.grid D F (UDomain.numGaussPoints sp.degree) κ η fs :=
    ⟨fun o ho => hA.empty o (hmem o ho), fun o ho => hA.full o (hmem o ho), fun o ho => hA.cut o (hmem o ho)⟩
  obtain ⟨s', ch', i, mem, st', A', h1, h2, h3, h4⟩ := C95_functional hs toNat hn S G debug oo hd hm phi hsound D hD1 hD2 F M hM0 κ η δ hκ hδ fs
    (hO.facets hv hf hmem) hA' hfs hext (fun o ho => by
      obtain ⟨k1, k2, -⟩ := mem_sideFacets hv hf (hmem o ho)
      rw [k1]
      exact k2) U hU hk hr hst A
  refine ⟨s', ch', i, mem, st', A', h1, h2, h3, ?_⟩
  rw [(hall.map _).sum_eq, (hall.map fun o => boxVolume (facetBox (boxOf q.grid o.1) o.2)).sum_eq, (hall.filter _).length_eq,
    ← C95_side_sum q.grid hv D F f hf hO.measurable hO.integrable, side_volume q.grid hv f hf] at h4
  exact h4

end Qugar.Py.Integral
