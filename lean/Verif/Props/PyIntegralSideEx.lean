import Verif.Props.PyIntegralSideFE
import Verif.Props.PyIntegralFEEx
/-
C95: a concrete functional, the integral of `x₀` over the part `x₀ < 3` of the lower side of `[0,6] × [0,1]`.
-/
namespace Qugar.Py.Integral.ExSide

open Pack Assemble Quad Spec BoxMeasure Integrals Integrals.Ex ExFE
open MeasureTheory hiding integral

/-- The facets of the cell in the middle are cut. -/
noncomputable def oraclesS : Oracles ℝ := { oracles with facet := fun _ _ _ => .cut }

/-- Algoim's answers for facets. -/
noncomputable def oracleS : QOracle ℝ := { oracleX with facetGen := fun _ _ _ _ => [([5 / 2, 0], 1)] }

noncomputable def domainS (d : Dom) : QDomain ℝ := { domainX d with oracle := oracleS }

/-- The facets on the lower side, in the numbering of DOLFINx and in that of the C++ library. -/
def facetsS : Facets := [(0, 0), (1, 0), (2, 0)]
def fsS : List (Nat × Nat) := [(2, 2), (0, 2), (1, 2)]

/-- The domain. -/
def D (x : List ℝ) : Prop := phi x < 0

theorem domainS_ok {d : Dom} (h : build true oraclesS grid none = .ok d) :
    (domainS d).Ok 3 ∧ (domainS d).u.Ok 3 ∧ Plot.FacetDims (domainS d).oracle (domainS d).grid ∧ ∀ c < 3, (domainS d).u.Known c := by
  obtain ⟨d', h1, h2, -⟩ := build_facts true oraclesS grid none valid (by simp [grid]) (.inr rfl)
  rw [h] at h1
  obtain rfl := Except.ok.inj h1
  have hn : d.n = [3, 1] := by
    obtain ⟨d', h3, h4, -⟩ := build_summary true oraclesS grid none valid (by simp [grid]) (.inr rfl)
    rw [h] at h3
    obtain rfl := Except.ok.inj h3
    rw [h4]
    rfl
  have hm : (domainS d).u.mesh.Ok 3 := ⟨show [2, 0, 1].Nodup by decide, show ∀ i ∈ [2, 0, 1], i < 3 by decide, show [2, 0, 1] ≠ [] by decide,
    fun a h => by cases h⟩
  refine ⟨⟨valid, .inl rfl, ⟨true, oraclesS, none, .inr rfl, h⟩, hm, fun l v h => origX h, rfl⟩,
    ⟨hm, h2, ?_, ?_, ?_, topologyI, show 10 ≤ 10 by decide, rfl, ?_, rfl, Nat.le_refl 3⟩, ⟨?_, ?_⟩, ?_⟩
  · show 1 ≤ d.n.length; rw [hn]; decide
  · show d.n.length ≤ 3; rw [hn]; decide
  · intro l v h
    show v < listProd d.n
    rw [hn]
    exact origX h
  · intro row hr
    have : ∀ row ∈ ([[7, 5, 8, 9], [0, 1, 2, 3], [4, 2, 5, 6]] : List (List Nat)), row.length = 4 := by decide
    rw [this row hr]
    show 4 = 2 * d.n.length
    rw [hn]; rfl
  · intro c dom f n _ x hx
    simp only [domainS, oracleS, List.mem_singleton] at hx
    subst hx; rfl
  · intro c dom f n _ x hx
    simp [domainS, oracleS, oracleX, qo] at hx
  · obtain ⟨d', h1', hreach, hcells⟩ := C12_decomposition_sound true oraclesS grid valid (by simp [grid]) (by norm_num [oraclesS, oracles]) phi sound
    rw [h] at h1'
    obtain rfl := Except.ok.inj h1'
    have hk : ∀ (c v : Nat), ([2, 0, 1] : List Nat)[c]? = some v → v < 3 → (domainS d).u.Known c := by
      intro c v h1 h2
      obtain ⟨b, -, hun, -⟩ := hcells v h2
      refine ⟨v, (origCell_iff _ _ _).2 ⟨v, h1, rfl⟩, ?_⟩
      show ¬ HasStatus d.n d.tree v .unknown
      rw [hn]
      exact hun
    intro c hc
    interval_cases c
    · exact hk 0 2 rfl (by decide)
    · exact hk 1 0 rfl (by decide)
    · exact hk 2 1 rfl (by decide)

/-- The part of an interval. -/
theorem part1 (a b : ℝ) (h2 : 3 ≤ b) : ({y | y ∈ region 1 [(a, b)] ∧ y 0 < 3} : Set (Fin 1 → ℝ)) =ᵐ[volume] region 1 [(a, 3)] := by
  have hne : ∀ᵐ x : Fin 1 → ℝ, x 0 ≠ 3 := by
    have := Measure.ae_eval_ne (μ := fun _ : Fin 1 => (volume : Measure ℝ)) 0 (3 : ℝ)
    exact this
  have hr : ∀ (a b : ℝ) (x : Fin 1 → ℝ), x ∈ region 1 [(a, b)] ↔ a ≤ x 0 ∧ x 0 ≤ b := by
    intro a b x
    simp [region, InClosedBox]
  filter_upwards [hne] with x hx
  apply propext
  show (x ∈ region 1 [(a, b)] ∧ x 0 < 3) ↔ x ∈ region 1 [(a, 3)]
  rw [hr, hr]
  constructor
  · rintro ⟨⟨k2, k3⟩, k1⟩
    exact ⟨k2, k1.le⟩
  · rintro ⟨k2, k3⟩
    exact ⟨⟨k2, k3.trans h2⟩, lt_of_le_of_ne k3 hx⟩

theorem integral_part1 (a b : ℝ) (h1 : a < 3) (h2 : 3 ≤ b) :
    integralOver {y : Fin 1 → ℝ | y ∈ region 1 [(a, b)] ∧ y 0 < 3} F = (3 - a) * (a + (3 - a) / 2) := by
  have h := (integral_polynomial (d := 1) (b := [(a, 3)]) rfl (by
    intro iv hiv
    obtain rfl := List.mem_singleton.1 hiv
    exact h1) F [(a, [0]), (3 - a, [1])] (by simp) (by
    intro p hp
    match p, hp with
    | [x], _ => simp [F]; ring)).2
  unfold integralOver at h ⊢
  rw [setIntegral_congr_set (part1 a b h2), h, boxVolume_eq_prod]
  simp
  left
  ring

theorem lower (a b : ℝ) (y : Fin 1 → ℝ) : onFacet [(a, b), (0, 1)] 2 (List.ofFn y) = [y 0, 0] := by
  simp [onFacet]

theorem facets_side : sideFacets grid 2 = [(0, 2), (1, 2), (2, 2)] := rfl


theorem bound1 (y : Fin 1 → ℝ) (hy : y ∈ region 1 [((0 : ℝ), 6)]) : |F (onFacet [((0 : ℝ), 6), (0, 1)] 2 (List.ofFn y))| ≤ 6 := by
  have e : F (onFacet [((0 : ℝ), 6), (0, 1)] 2 (List.ofFn y)) = y 0 := by
    rw [lower]
    simp [F]
  rw [e, abs_le]
  have : 0 ≤ y 0 ∧ y 0 ≤ 6 := by simpa [region, InClosedBox] using hy
  constructor <;> linarith [this.1, this.2]

theorem onSide : OnSide grid D F 6 2 where
  measurable := by
    have : {y : Fin 1 → ℝ | D (onFacet (Grid.domain grid) 2 (List.ofFn y))} = {y | y 0 < 3} := by
      ext y
      show D (onFacet [(0, 6), (0, 1)] 2 (List.ofFn y)) ↔ _
      rw [lower]
      simp [D, phi]
    show MeasurableSet {y : Fin 1 → ℝ | D (onFacet (Grid.domain grid) 2 (List.ofFn y))}
    rw [this]
    exact measurableSet_lt (measurable_pi_apply 0) measurable_const
  integrable := by
    have h := (integral_polynomial (d := 1) (b := [(0, 6)]) rfl (by norm_num) F [(6, [1])] (by simp) (by
      intro p hp
      match p, hp with
      | [x], _ => simp [F]; ring)).1
    have e : (fun y : Fin 1 → ℝ => F (onFacet (Grid.domain grid) 2 (List.ofFn y))) = fun y => F (List.ofFn y) := by
      funext y
      show F (onFacet [(0, 6), (0, 1)] 2 (List.ofFn y)) = _
      rw [lower]
      simp [F]
    show IntegrableOn (fun y : Fin 1 → ℝ => F (onFacet (Grid.domain grid) 2 (List.ofFn y))) (region 1 [(0, 6)])
    rw [e]
    exact h
  bound := bound1

theorem nearS : nearCells oraclesS grid = nearCells oracles grid := rfl

theorem accurateS : FacetAccurate oraclesS oracleS grid D F (UDomain.numGaussPoints 1) 0 0 (sideFacets grid 2) := by
  have hv : ∀ p ∈ sideFacets grid 2, p.1 ∈ nearCells oraclesS grid → facetVerdict oraclesS grid p.1 p.2 = .cut := by
    intro p _ h
    have := near_cut p.1 h
    unfold facetVerdict
    rw [show oraclesS.cell = oracles.cell from rfl, this]
    rfl
  refine ⟨fun p hp hc h => ?_, fun p hp hc h => ?_, fun p hp hc _ => ?_⟩
  · rw [hv p hp hc] at h; cases h
  · rw [hv p hp hc] at h; rcases h with h | h <;> cases h
  · have h2 : p.2 = 2 := by
      rw [facets_side] at hp
      simp only [List.mem_cons, List.not_mem_nil, or_false] at hp
      rcases hp with rfl | rfl | rfl <;> rfl
    rw [hv p hp hc, h2, near hc]
    have e : facetNodes oracleS [((2 : ℝ), 4), (0, 1)] 2 (UDomain.numGaussPoints 1) .cut = [([1 / 4], 1 / 2)] := by
      have ev : Box.volume [((2 : ℝ), 4)] = 2 := by rw [← boxVolume_eq_volume, boxVolume_eq_prod]; norm_num
      have : cutFacetRule oracleS [((2 : ℝ), 4), (0, 1)] 2 (UDomain.numGaussPoints 1) = [([1 / 4], 1 / 2)] := by
        show [(Box.scaleTo01 [((2 : ℝ), 4)] [5 / 2], 1 / Box.volume [((2 : ℝ), 4)])] = _
        rw [ev]
        norm_num [Box.scaleTo01]
      unfold facetNodes
      rw [this]
      rw [List.filter_cons_of_pos, List.filter_nil]
      simp [FacetPointRemoved, FStatus.hasUnfitted]
    rw [e]
    refine ⟨?_, ?_⟩
    · intro x hx
      obtain rfl := List.mem_singleton.1 hx
      intro t ht
      obtain rfl := List.mem_singleton.1 ht
      norm_num
    · have hI : facetIntegral grid D F p.1 2 = 5 / 2 := by
        have hs : ({y : Fin 1 → ℝ | y ∈ region 1 (facetBox [((2 : ℝ), 4), (0, 1)] 2) ∧ D (onFacet [((2 : ℝ), 4), (0, 1)] 2 (List.ofFn y))}) =
            {y | y ∈ region 1 [(2, 4)] ∧ y 0 < 3} := by
          ext y
          show y ∈ region 1 [(2, 4)] ∧ D (onFacet [((2 : ℝ), 4), (0, 1)] 2 (List.ofFn y)) ↔ _
          rw [lower]
          simp [D, phi]
        have hf : ∀ y : Fin 1 → ℝ, F (onFacet [((2 : ℝ), 4), (0, 1)] 2 (List.ofFn y)) = F (List.ofFn y) := by
          intro y
          rw [lower]
          simp [F]
        unfold facetIntegral facetPart
        rw [near hc]
        show integralOver {y : Fin 1 → ℝ | y ∈ region 1 (facetBox [((2 : ℝ), 4), (0, 1)] 2) ∧ D (onFacet [((2 : ℝ), 4), (0, 1)] 2 (List.ofFn y))} _ = _
        rw [hs]
        have := integral_part1 2 4 (by norm_num) (by norm_num)
        unfold integralOver at this ⊢
        simp only [hf]
        rw [this]
        norm_num
      rw [← near hc, hI, near hc]
      have ev : boxVolume [((2 : ℝ), 4)] = 2 := by rw [boxVolume_eq_prod]; norm_num
      norm_num [ruleSum, facetBox, onFacet, F, ev, integral]

/-- C95 non-vacuity: the functional is `9 / 2`, the integral of `x₀` over the part `x₀ < 3` of the lower side. -/
example {argsort : List Int → List Nat} (hs : ∀ l, IsArgsort l (argsort l)) (toNat : ℝ → Nat) (hn : ∀ n : Nat, toNat (n : ℝ) = n) :
    ∃ d x i mem st A, build true oraclesS grid none = .ok d ∧
      facetInput argsort (domainS d) ⟨1, 1⟩ 2 oldX facetsS [⟨1, false⟩] {} Cache.init = some (x, i) ∧ pack i = some mem ∧
      assembleScalar (⟨toNat, realScalars, basixX, infoFE, false, [[tableI]], [loopSide 2 2 1], ⟨1, 1⟩, 2, mem⟩ : Job Nat ℝ ℝ)
        ((List.range 3).map fun e => (i.rowPos e, valuesX ([2, 0, 1].getD e 0)))
        { registry := [], keys := [], size := 0, epoch := 0, data := fun _ => 0, base := 0, ptr := fun _ _ => none } 0 = some (st, A) ∧
      A 0 = 9 / 2 := by
  obtain ⟨d, h, -⟩ := build_facts true oraclesS grid none valid (by simp [grid]) (.inr rfl)
  obtain ⟨k1, k2, k3, k4⟩ := domainS_ok h
  have hr : Reached (domainS d) Cache.init := ⟨[], by simp, rfl⟩
  have hbox : ∀ v < 3, boxOf grid v = [(2 * (v : ℝ), 2 * (v : ℝ) + 2), (0, 1)] := by
    obtain ⟨b0, b1, b2⟩ := boxes
    intro v hv
    interval_cases v
    · rw [b0]; norm_num
    · rw [b1]; norm_num
    · rw [b2]; norm_num
  have hcells : ∀ (e : Nat) (o : Nat × Nat), fsS[e]? = some o → o.1 < 3 ∧ ([2, 0, 1] : List Nat).getD e 0 = o.1 ∧
      oldX[e]? = some [2 * (o.1 : ℝ), 2] := by
    intro e o he
    match e, he with
    | 0, he => obtain rfl : (2, 2) = o := by simpa [fsS] using he
               exact ⟨by decide, rfl, by norm_num [oldX]⟩
    | 1, he => obtain rfl : (0, 2) = o := by simpa [fsS] using he
               exact ⟨by decide, rfl, by norm_num [oldX]⟩
    | 2, he => obtain rfl : (1, 2) = o := by simpa [fsS] using he
               exact ⟨by decide, rfl, by norm_num [oldX]⟩
  have hpoly : ∀ (v : Nat) (p : List ℝ), v < 3 → p.length = 1 →
      F (onFacet (boxOf grid v) 2 (List.zipWith (fun iv x => iv.1 + x * (iv.2 - iv.1)) (facetBox (boxOf grid v) 2) p)) = 2 * v + 2 * p.headD 0 := by
    intro v p hv hp
    rw [hbox v hv]
    match p, hp with
    | [x], _ => simp [F, onFacet, facetBox]; ring
  have hfacet : ∀ v < 3, facetBox (boxOf grid v) 2 = [(2 * (v : ℝ), 2 * (v : ℝ) + 2)] := by
    intro v hv
    rw [hbox v hv]
    rfl
  obtain ⟨s', ch', i, mem, st, A, h1, h2, h3, h4⟩ := C95_finite_element (q := domainS d) (types := ⟨1, 1⟩) (old := oldX) (domain := facetsS)
    (degree := 1) (N := 1) tableX k1 k2 k3 rfl ⟨.inl rfl, .inl rfl⟩ rfl (by show 1 + 1 ≤ 2 * 100; decide)
    (by
      intro p hp
      simp only [facetsS, List.mem_cons, List.not_mem_nil, or_false] at hp
      rcases hp with rfl | rfl | rfl
      · exact ⟨k4 0 (by decide), 7, _, rfl, rfl⟩
      · exact ⟨k4 1 (by decide), 0, _, rfl, rfl⟩
      · exact ⟨k4 2 (by decide), 4, _, rfl, rfl⟩)
    rfl (by intro r hr; simp only [oldX, List.mem_cons, List.not_mem_nil, or_false] at hr; rcases hr with rfl | rfl | rfl <;> rfl)
    hs toNat hn true oraclesS h (by norm_num [oraclesS, oracles]) phi sound D (fun _ h => h) (fun _ h => le_of_lt h) F 6 (by norm_num)
    0 0 0 le_rfl le_rfl 2 (by show 2 < 4; decide) onSide accurateS fsS
    (by
      have hm : ∀ c v : Nat, ([2, 0, 1] : List Nat)[c]? = some v → (domainS d).u.mesh.OrigCell c v :=
        fun c v h => (origCell_iff _ _ _).2 ⟨v, h, rfl⟩
      have hf : SideFacet 2 0 2 := ⟨_, rfl, by decide⟩
      exact .cons ⟨hm 0 2 rfl, hf⟩ (.cons ⟨hm 1 0 rfl, hf⟩ (.cons ⟨hm 2 1 rfl, hf⟩ .nil)))
    (by show fsS.Perm (sideFacets grid 2); rw [facets_side]; decide)
    (by
      have ext : ∀ x ∈ [7, 0, 4], (domainS d).u.Ext x := by
        intro x hx
        have : ∀ f ∈ [7, 0, 4], f < 10 ∧ (([[1], [1], [1, 2], [1], [2], [0, 2], [2], [0], [0], [0]] : List (List Nat)).getD f []).length = 1 := by decide
        obtain ⟨a, b⟩ := this x hx
        exact ⟨a, b, rfl⟩
      intro p hp x hx
      simp only [facetsS, List.mem_cons, List.not_mem_nil, or_false] at hp
      obtain ⟨row, r1, r2⟩ := hx
      have e : (domainS d).u.topo.cellFacets = [[7, 5, 8, 9], [0, 1, 2, 3], [4, 2, 5, 6]] := rfl
      rw [e] at r1
      rcases hp with rfl | rfl | rfl <;> simp only [List.getElem?_cons_zero, List.getElem?_cons_succ, Option.some.injEq] at r1 <;> subst r1 <;>
        simp only [List.getElem?_cons_zero, Option.some.injEq] at r2 <;> subst r2 <;> exact ext _ (by simp))
    (fun e => valuesX ([2, 0, 1].getD e 0))
    (by
      intro e o he
      obtain ⟨a1, a2, -⟩ := hcells e o he
      refine ⟨2 * o.1, 2 * o.1 + 2, 0, 1, hbox o.1 a1, ?_, ?_, ?_, ?_⟩ <;> (rw [a2]; simp [valuesX]))
    (by
      intro e o row he hrow p hp _
      obtain ⟨a1, -, a3⟩ := hcells e o he
      rw [a3] at hrow
      obtain rfl := Option.some.inj hrow
      refine (hpoly o.1 p a1 hp).trans ?_
      match p, hp with
      | [x], _ => simp [combine, basixX, List.range_succ])
    (by
      intro e o row he hrow
      obtain ⟨a1, -, a3⟩ := hcells e o he
      rw [a3] at hrow
      obtain rfl := Option.some.inj hrow
      show |_ - integralOver (region 1 (facetBox (boxOf grid o.1) 2)) fun y => F (onFacet (boxOf grid o.1) 2 y)| ≤ 0 * _
      have hI := (integral_polynomial (d := 1) (b := facetBox (boxOf grid o.1) 2) (by rw [hfacet o.1 a1]; rfl) (by rw [hfacet o.1 a1]; norm_num)
        (fun y => F (onFacet (boxOf grid o.1) 2 y)) [(2 * o.1, [0]), (2, [1])] (by simp) (by
        intro p hp
        have hp1 : p.length = 1 := by rw [hp, hfacet o.1 a1]; rfl
        rw [hpoly o.1 p a1 hp1]
        match p, hp1 with
        | [x], _ => simp)).2
      rw [hI]
      rw [show (domainS d).grid = grid from rfl]
      simp [combine, valuesX, List.range_succ]
      ring) .start hr (.start _ _) 0
  refine ⟨d, _, i, mem, st, A, h, h1, h2, h3, ?_⟩
  have e3 : sideIntegral (domainS d).grid D F 2 = 9 / 2 := by
    show integralOver {y : Fin 1 → ℝ | y ∈ region 1 [(0, 6)] ∧ D (onFacet [(0, 6), (0, 1)] 2 (List.ofFn y))}
      (fun y => F (onFacet [(0, 6), (0, 1)] 2 y)) = 9 / 2
    have hs : ({y : Fin 1 → ℝ | y ∈ region 1 [(0, 6)] ∧ D (onFacet [((0 : ℝ), 6), (0, 1)] 2 (List.ofFn y))}) = {y | y ∈ region 1 [(0, 6)] ∧ y 0 < 3} := by
      ext y
      show y ∈ region 1 [(0, 6)] ∧ D (onFacet [((0 : ℝ), 6), (0, 1)] 2 (List.ofFn y)) ↔ _
      rw [lower]
      simp [D, phi]
    have hf : ∀ y : Fin 1 → ℝ, F (onFacet [((0 : ℝ), 6), (0, 1)] 2 (List.ofFn y)) = F (List.ofFn y) := by
      intro y
      rw [lower]
      simp [F]
    rw [hs]
    have := integral_part1 0 6 (by norm_num) (by norm_num)
    unfold integralOver at this ⊢
    simp only [hf]
    rw [this]
    norm_num
  rw [e3] at h4
  have h5 : |A 0 - 9 / 2| ≤ 0 := by simpa using h4
  linarith [abs_nonpos_iff.1 h5]

end Qugar.Py.Integral.ExSide
