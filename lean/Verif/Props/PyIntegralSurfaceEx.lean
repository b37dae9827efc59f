import Verif.Props.PyIntegralSurfaceFE
import Verif.Props.PyIntegralFEEx
import Mathlib.MeasureTheory.Integral.Bochner.Set
/-
C96: concrete functionals, the integrals of `x₀`, of `x₀ n₀` and of `x₀ n₁` over the line `x₀ = 3` in `[0,6] × [0,1]`.
-/
namespace Qugar.Py.Integral.ExSurface

open Pack Assemble Quad Spec BoxMeasure Integrals Integrals.Ex ExFE
open MeasureTheory hiding integral

/-- Algoim's answers: the midpoint of the line. -/
noncomputable def oracleU : QOracle ℝ := { oracleX with norm := euclid, surfGen := fun _ _ => [([3, 1 / 2], 1)] }

noncomputable def domainU (d : Dom) : QDomain ℝ := { domainX d with oracle := oracleU }

/-- The length of the line. -/
noncomputable def line : Measure (Fin 2 → ℝ) := Measure.map (fun y : ℝ => ![3, y]) (volume.restrict (Set.Icc 0 1))

instance : IsFiniteMeasure (volume.restrict (Set.Icc (0 : ℝ) 1)) := ⟨by simp⟩
instance : IsFiniteMeasure line := by unfold line; infer_instance

theorem measurable_line : Measurable fun y : ℝ => (![3, y] : Fin 2 → ℝ) := by
  rw [measurable_pi_iff]
  intro i
  fin_cases i
  · exact measurable_const
  · exact measurable_id

theorem line_supported : line {x | phi (List.ofFn x) ≠ 0} = 0 := by
  have e : {x : Fin 2 → ℝ | phi (List.ofFn x) ≠ 0} = {x | x 0 = 3}ᶜ := by
    ext x
    simp [phi, sub_eq_zero]
  have hm : MeasurableSet ({x : Fin 2 → ℝ | x 0 = 3}ᶜ) := (measurableSet_eq_fun (measurable_pi_apply 0) measurable_const).compl
  rw [e, line, Measure.map_apply measurable_line hm]
  have e2 : (fun y : ℝ => (![3, y] : Fin 2 → ℝ)) ⁻¹' {x | x 0 = 3}ᶜ = ∅ := by ext y; simp
  rw [e2, measure_empty]

/-- The measure of a rectangle that contains the line. -/
theorem line_region (a b : ℝ) (h1 : a ≤ 3) (h2 : 3 ≤ b) : line (region 2 [(a, b), (0, 1)]) = 1 := by
  rw [line, Measure.map_apply measurable_line (measurable_region rfl),
    Measure.restrict_apply (measurable_line (measurable_region rfl))]
  have e : (fun y : ℝ => (![3, y] : Fin 2 → ℝ)) ⁻¹' region 2 [(a, b), (0, 1)] ∩ Set.Icc 0 1 = Set.Icc 0 1 := by
    ext y
    rw [Set.mem_inter_iff, Set.mem_preimage, mem_region2]
    simp [h1, h2]
  rw [e]
  simp

/-- The normal of the line is `[1, 0]`. -/
noncomputable def H (i : Option (Fin 2)) (x : List ℝ) : ℝ := withNormal F i x [1, 0]

theorem H_eq (i : Option (Fin 2)) (x : List ℝ) : H i x = F x * factor i [1, 0] := withNormal_eq _ _ _ _

theorem factor_bound (i : Option (Fin 2)) : |factor i [1, 0]| ≤ 1 := by
  rcases i with _ | i
  · simp [factor]
  · fin_cases i <;> simp [factor]

theorem F_ofFn (x : Fin 2 → ℝ) : F (List.ofFn x) = x 0 := by simp [F]

/-- The integral over the line. -/
theorem line_integral (i : Option (Fin 2)) (a b : ℝ) (h1 : a ≤ 3) (h2 : 3 ≤ b) :
    surfaceIntegral line (region 2 [(a, b), (0, 1)]) (H i) = 3 * factor i [1, 0] := by
  unfold surfaceIntegral
  have e : ∀ᵐ x ∂line, x ∈ region 2 [(a, b), (0, 1)] → H i (List.ofFn x) = 3 * factor i [1, 0] := by
    have h : {x : Fin 2 → ℝ | phi (List.ofFn x) = 0} ∈ ae line := by
      rw [mem_ae_iff]
      exact line_supported
    filter_upwards [h] with x hx _
    have hx' : phi (List.ofFn x) = 0 := hx
    rw [H_eq, F_ofFn]
    have : x 0 - 3 = 0 := by simpa [phi] using hx'
    rw [show x 0 = 3 by linarith]
  rw [setIntegral_congr_ae (measurable_region (d := 2) rfl) e, setIntegral_const, Measure.real, line_region a b h1 h2]
  simp

theorem F_bound (x : Fin 2 → ℝ) (hx : x ∈ region 2 [((0 : ℝ), 6), (0, 1)]) (i : Option (Fin 2)) : |H i (List.ofFn x)| ≤ 6 := by
  rw [mem_region2] at hx
  rw [H_eq, abs_mul, F_ofFn]
  have h1 : |x 0| ≤ 6 := abs_le.2 ⟨by linarith [hx.1.1], by linarith [hx.1.2]⟩
  have h2 := factor_bound i
  nlinarith [abs_nonneg (x 0), abs_nonneg (factor i [1, 0])]

theorem onSurface (i : Option (Fin 2)) : OnSurface grid phi (line : Measure (Fin grid.length → ℝ)) (H i) 6 where
  finite := by
    show line _ < ⊤
    exact measure_lt_top line _
  supported := line_supported
  faces := by
    show ∀ v < 3, ∀ w < 3, v ≠ w → line (region 2 (boxOf grid v) ∩ region 2 (boxOf grid w)) = 0
    obtain ⟨b0, b1, b2⟩ := boxes
    intro v hv w hw hne
    refine measure_mono_null (fun x hx => ?_) line_supported
    show phi (List.ofFn x) ≠ 0
    have e : phi (List.ofFn x) = x 0 - 3 := by simp [phi]
    rw [e]
    intro h0
    have h3 : x 0 = 3 := by linarith
    have key : ∀ v < 3, x ∈ region 2 (boxOf grid v) → v = 1 := by
      intro v hv h
      interval_cases v
      · rw [b0, mem_region2] at h
        have := h.1.2
        norm_num at this
        linarith
      · rfl
      · rw [b2, mem_region2] at h
        have := h.1.1
        norm_num at this
        linarith
    exact hne ((key v hv hx.1).trans (key w hw hx.2).symm)
  integrable := by
    show IntegrableOn (fun x : Fin 2 → ℝ => H i (List.ofFn x)) (region 2 [(0, 6), (0, 1)]) line
    refine Measure.integrableOn_of_bounded (M := 6) (measure_ne_top _ _) ?_ ?_
    · have : (fun x : Fin 2 → ℝ => H i (List.ofFn x)) = fun x => x 0 * factor i [1, 0] := by
        funext x
        rw [H_eq, F_ofFn]
      rw [this]
      exact ((measurable_pi_apply 0).mul_const _).aestronglyMeasurable
    · rw [ae_restrict_iff' (measurable_region (d := 2) rfl)]
      exact Filter.Eventually.of_forall fun x hx => F_bound x hx i
  bound := fun x hx => F_bound x hx i

theorem euclid_e : euclid [1, 0] = 1 := by simp [euclid]

theorem nodes_near : ∀ c ∈ nearCells oracles grid, surfaceNodes oracles oracleU grid c (UDomain.numGaussPoints 1) = [([1 / 2, 1 / 2], 1, [1, 0])] := by
  intro c hc
  have ev : Box.volume [((2 : ℝ), 4), (0, 1)] = 2 := by rw [← boxVolume_eq_volume, boxVolume_eq_prod]; norm_num
  have hr : cutSurfaceRule oracleU [((2 : ℝ), 4), (0, 1)] (UDomain.numGaussPoints 1) = [([1 / 2, 1 / 2], 1, [1, 0])] := by
    unfold cutSurfaceRule
    rw [if_neg (by simp [oracleU, oracleX, qo])]
    have s4 : √(4 : ℝ) = 2 := by rw [show (4 : ℝ) = 2 ^ 2 by norm_num, Real.sqrt_sq (by norm_num)]
    simp [oracleU, oracleX, qo, Box.scaleTo01, Box.lengths, euclid, ev]
    norm_num [s4]
  unfold surfaceNodes
  rw [near hc, hr, List.filter_cons_of_pos, List.filter_nil]
  rw [decide_eq_true_iff]
  intro f _ h
  exfalso
  unfold facetVerdict at h
  rw [near_cut c hc] at h
  simp [oracles, FStatus.hasUnfitted] at h

theorem accurateU (i : Option (Fin 2)) : SurfaceAccurate oracles oracleU grid (line : Measure (Fin grid.length → ℝ)) (withNormal F i) (H i)
    (UDomain.numGaussPoints 1) 0 0 where
  other := fun c hc h => absurd (near_cut c hc) h
  cut := by
    intro c hc _
    rw [nodes_near c hc, near hc]
    refine ⟨?_, ?_⟩
    · intro x hx
      obtain rfl := List.mem_singleton.1 hx
      intro t ht
      simp only [List.mem_cons, List.not_mem_nil, or_false, or_self] at ht
      subst ht
      norm_num
    · show |_ - surfaceIntegral line (region 2 [((2 : ℝ), 4), (0, 1)]) (H i)| ≤ 0
      rw [line_integral i 2 4 (by norm_num) (by norm_num)]
      have e1 : boxNormal [((2 : ℝ), 4), (0, 1)] [1, 0] = [1 / 2, 0] := by norm_num [boxNormal]
      have e2 : euclid [(1 / 2 : ℝ), 0] = 1 / 2 := by
        have : ((1 : ℝ) / 2) ^ 2 + 0 ^ 2 = (1 / 2) ^ 2 := by norm_num
        simp only [euclid, List.map_cons, List.map_nil, List.sum_cons, List.sum_nil, add_zero, ne_eq, OfNat.ofNat_ne_zero, not_false_eq_true, zero_pow]
        rw [Real.sqrt_sq (by norm_num)]
      have e3 : stretch [((2 : ℝ), 4), (0, 1)] [1, 0] = 1 := by
        rw [stretch, e1, e2, boxVolume_eq_prod]
        norm_num
      have e4 : unitNormal [((2 : ℝ), 4), (0, 1)] [1, 0] = [1, 0] := by
        rw [unitNormal, e1, e2]
        norm_num
      simp only [surfaceSum, List.map_cons, List.map_nil, List.sum_cons, List.sum_nil, e3, e4, withNormal_eq]
      norm_num [F]

theorem domainU_ok {d : Dom} (h : build true oracles grid none = .ok d) :
    (domainU d).Ok 3 ∧ (domainU d).u.Ok 3 ∧ PointDims (domainU d).oracle (domainU d).grid := by
  obtain ⟨k1, k2, k3⟩ := domainX_ok h
  refine ⟨⟨k1.1, k1.2, k1.3, k1.4, k1.5, k1.6⟩, k2, { volGen := k3.volGen, surfGen := ?_, volBzr := k3.volBzr, surfBzr := k3.surfBzr, grad := k3.grad, bzrGrad := k3.bzrGrad }⟩
  intro c dom n _ x hx
  simp only [domainU, oracleU, List.mem_singleton] at hx
  subst hx; rfl

/-- C96 non-vacuity: the functional is 3 times the component of the normal. -/
example {argsort : List Int → List Nat} (hs : ∀ l, IsArgsort l (argsort l)) (toNat : ℝ → Nat) (hn : ∀ n : Nat, toNat (n : ℝ) = n)
    (k : Option (Fin 2)) :
    ∃ d x i mem st A, build true oracles grid none = .ok d ∧
      cellInput argsort (domainU d) ⟨1, 1⟩ 2 oldX [0, 1, 2] [⟨1, true⟩] {} Cache.init = some (x, i) ∧ pack i = some mem ∧
      assembleScalar (⟨toNat, realScalars, basixX, infoSF, false, [[tableI]], [loopSF 2 k], ⟨1, 1⟩, 2, mem⟩ : Job Nat ℝ ℝ)
        ((List.range 3).map fun e => (i.rowPos e, valuesX ([2, 0, 1].getD e 0)))
        { registry := [], keys := [], size := 0, epoch := 0, data := fun _ => 0, base := 0, ptr := fun _ _ => none } 0 = some (st, A) ∧
      A 0 = match k with
        | none => 3
        | some 0 => 3
        | some 1 => 0 := by
  obtain ⟨d, h, -⟩ := build_facts true oracles grid none valid (by simp [grid]) (.inr rfl)
  obtain ⟨k1, k2, k3⟩ := domainU_ok h
  have hk : UDomain.CellCachesOk argsort (domainU d).u {} := ⟨by rintro r ⟨⟩, by rintro r ⟨⟩, by rintro r ⟨⟩⟩
  have hr : Reached (domainU d) Cache.init := ⟨[], by simp, rfl⟩
  have hbox : ∀ v < 3, boxOf grid v = [(2 * (v : ℝ), 2 * (v : ℝ) + 2), (0, 1)] := by
    obtain ⟨b0, b1, b2⟩ := boxes
    intro v hv
    interval_cases v
    · rw [b0]; norm_num
    · rw [b1]; norm_num
    · rw [b2]; norm_num
  have hcells : ∀ (e v : Nat), ([2, 0, 1] : List Nat)[e]? = some v → v < 3 ∧ ([2, 0, 1] : List Nat).getD e 0 = v ∧
      oldX[e]? = some [2 * (v : ℝ), 2] := by
    intro e v he
    match e, he with
    | 0, he => obtain rfl : 2 = v := by simpa using he
               exact ⟨by decide, rfl, by norm_num [oldX]⟩
    | 1, he => obtain rfl : 0 = v := by simpa using he
               exact ⟨by decide, rfl, by norm_num [oldX]⟩
    | 2, he => obtain rfl : 1 = v := by simpa using he
               exact ⟨by decide, rfl, by norm_num [oldX]⟩
  have hpoly : ∀ (v : Nat) (p : List ℝ), v < 3 → p.length = 2 →
      F (List.zipWith (fun iv x => iv.1 + x * (iv.2 - iv.1)) (boxOf grid v) p) = 2 * v + 2 * p.headD 0 := by
    intro v p hv hp
    rw [hbox v hv]
    match p, hp with
    | [x, y], _ => simp [F]; ring
  obtain ⟨s', ch', i, mem, st, A, h1, h2, h3, h4⟩ := C96_finite_element (q := domainU d) (types := ⟨1, 1⟩) (old := oldX) (domain := [0, 1, 2])
    (degree := 1) tableX k k1 k2 k3 rfl ⟨.inl rfl, .inl rfl⟩ rfl (by show 1 + 1 ≤ 2 * 100; decide)
    (by intro c hc; show c < 3; revert c; decide) rfl (by intro r hr; simp only [oldX, List.mem_cons, List.not_mem_nil, or_false] at hr; rcases hr with rfl | rfl | rfl <;> rfl)
    hs toNat hn true oracles h (by norm_num [oracles]) phi sound line F (H k) 6 (by norm_num) 0 0 le_rfl (onSurface k) (accurateU k) [2, 0, 1]
    (by
      have hm : ∀ c v : Nat, ([2, 0, 1] : List Nat)[c]? = some v → (domainU d).u.mesh.OrigCell c v :=
        fun c v h => (origCell_iff _ _ _).2 ⟨v, h, rfl⟩
      exact .cons (hm 0 2 rfl) (.cons (hm 1 0 rfl) (.cons (hm 2 1 rfl) .nil)))
    (by show [2, 0, 1].Perm (List.range 3); decide) (fun e => valuesX ([2, 0, 1].getD e 0))
    (by
      intro e v he
      obtain ⟨a1, a2, -⟩ := hcells e v he
      refine ⟨2 * v, 2 * v + 2, 0, 1, hbox v a1, ?_, ?_, ?_, ?_⟩ <;> (rw [a2]; simp [valuesX]))
    (by
      intro e v row he hrow p hp _
      obtain ⟨a1, -, a3⟩ := hcells e v he
      rw [a3] at hrow
      obtain rfl := Option.some.inj hrow
      refine (hpoly v p a1 hp).trans ?_
      match p, hp with
      | [x, y], _ => simp [combine, basixX, List.range_succ])
    hk hr (.start _ _) 0
  refine ⟨d, _, i, mem, st, A, h, h1, h2, h3, ?_⟩
  have h4 : |A 0 - ((0 : Nat → ℝ) 0 + surfaceIntegral line (region 2 [(0, 6), (0, 1)]) (H k))| ≤
      (nearCells oracles (domainU d).grid).length * max 0 (6 * 0) := h4
  rw [line_integral k 0 6 (by norm_num) (by norm_num)] at h4
  have h5 : |A 0 - 3 * factor k [1, 0]| ≤ 0 := by simpa using h4
  have h6 := abs_nonpos_iff.1 h5
  rcases k with _ | k
  · simp [factor] at h6 ⊢; linarith
  · fin_cases k
    · simp [factor] at h6 ⊢; linarith
    · simp [factor] at h6 ⊢; linarith

end Qugar.Py.Integral.ExSurface
