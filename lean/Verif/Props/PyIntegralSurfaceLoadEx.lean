import Verif.Props.PyIntegralSurfaceLoad
import Verif.Props.PyIntegralSurfaceEx
import Verif.Props.PyIntegralLoadEx
/-
C96: a concrete vector, the integrals of the four hat functions of three cells over the line `x₀ = 3` in `[0,6] × [0,1]`, and their fluxes.
-/
namespace Qugar.Py.Integral.ExSurfaceLoad

open Pack Assemble Quad Spec BoxMeasure Integrals Integrals.Ex ExFE ExSurface ExLoad
open MeasureTheory hiding integral

/-- The integrand of the node `d`. -/
noncomputable def K (i : Option (Fin 2)) (d : Nat) (x : List ℝ) : ℝ := withNormal (fun x => 1 * hat d x) i x [1, 0]

theorem K_eq (i : Option (Fin 2)) (d : Nat) (x : List ℝ) : K i d x = hat d x * factor i [1, 0] := by
  rw [K, withNormal_eq, one_mul]

theorem K_bound (i : Option (Fin 2)) (d : Nat) (x : List ℝ) : |K i d x| ≤ 1 := by
  have h1 := hat_abs d x
  rw [one_mul] at h1
  rw [K_eq, abs_mul]
  have h2 := factor_bound i
  nlinarith [abs_nonneg (hat d x), abs_nonneg (factor i [1, 0])]

/-- The value of a function on the line. -/
theorem hat_line (d : Nat) (x : List ℝ) (h : x.headD 0 = 3) : hat d x = coefA 1 d + coefB 1 d * 3 := by
  have := hat_cell 1 d x (by rw [h]; norm_num) (by rw [h]; norm_num)
  rw [this, h]

/-- The integral over the line. -/
theorem line_hat (i : Option (Fin 2)) (d : Nat) (a b : ℝ) (h1 : a ≤ 3) (h2 : 3 ≤ b) :
    surfaceIntegral line (region 2 [(a, b), (0, 1)]) (K i d) = (coefA 1 d + coefB 1 d * 3) * factor i [1, 0] := by
  unfold surfaceIntegral
  have e : ∀ᵐ x ∂line, x ∈ region 2 [(a, b), (0, 1)] → K i d (List.ofFn x) = (coefA 1 d + coefB 1 d * 3) * factor i [1, 0] := by
    have h : {x : Fin 2 → ℝ | phi (List.ofFn x) = 0} ∈ ae line := by
      rw [mem_ae_iff]
      exact line_supported
    filter_upwards [h] with x hx _
    have hx' : phi (List.ofFn x) = 0 := hx
    have h3 : x 0 - 3 = 0 := by simpa [phi] using hx'
    rw [K_eq, hat_line d _ (by simp; linarith)]
  rw [setIntegral_congr_ae (measurable_region (d := 2) rfl) e, setIntegral_const, Measure.real, line_region a b h1 h2]
  simp

theorem onSurfaceK (i : Option (Fin 2)) (d : Nat) : OnSurface grid phi (line : Measure (Fin grid.length → ℝ)) (K i d) 1 where
  finite := (onSurface i).finite
  supported := line_supported
  faces := (onSurface i).faces
  integrable := by
    show IntegrableOn (fun x : Fin 2 → ℝ => K i d (List.ofFn x)) (region 2 [(0, 6), (0, 1)]) line
    refine Measure.integrableOn_of_bounded (M := 1) (measure_ne_top _ _) ?_ ?_
    · have : (fun x : Fin 2 → ℝ => K i d (List.ofFn x)) = fun x => max 0 (1 - |x 0 / 2 - (d : ℝ)|) * factor i [1, 0] := by
        funext x
        rw [K_eq]
        simp [hat]
      rw [this]
      exact (by fun_prop : Continuous fun x : Fin 2 → ℝ => max 0 (1 - |x 0 / 2 - (d : ℝ)|) * factor i [1, 0]).aestronglyMeasurable
    · exact Filter.Eventually.of_forall fun x => K_bound i d _
  bound := fun x _ => K_bound i d _

theorem accurateK (i : Option (Fin 2)) (d : Nat) : SurfaceAccurate oracles oracleU grid (line : Measure (Fin grid.length → ℝ))
    (withNormal (fun x => 1 * hat d x) i) (K i d) (UDomain.numGaussPoints 1) 0 0 where
  other := fun c hc h => absurd (near_cut c hc) h
  cut := by
    intro c hc _
    rw [nodes_near c hc, near hc]
    refine ⟨?_, ?_⟩
    · intro x hx
      obtain rfl := List.mem_singleton.1 hx
      intro t ht
      simp only [List.mem_cons, List.not_mem_nil, or_false, or_self] at ht
      subst ht
      norm_num
    · show |_ - surfaceIntegral line (region 2 [((2 : ℝ), 4), (0, 1)]) (K i d)| ≤ 0
      rw [line_hat i d 2 4 (by norm_num) (by norm_num)]
      have e1 : boxNormal [((2 : ℝ), 4), (0, 1)] [1, 0] = [1 / 2, 0] := by norm_num [boxNormal]
      have e2 : euclid [(1 / 2 : ℝ), 0] = 1 / 2 := by
        simp only [euclid, List.map_cons, List.map_nil, List.sum_cons, List.sum_nil, add_zero, ne_eq, OfNat.ofNat_ne_zero, not_false_eq_true, zero_pow]
        rw [Real.sqrt_sq (by norm_num)]
      have e3 : stretch [((2 : ℝ), 4), (0, 1)] [1, 0] = 1 := by
        rw [stretch, e1, e2, boxVolume_eq_prod]
        norm_num
      have e4 : unitNormal [((2 : ℝ), 4), (0, 1)] [1, 0] = [1, 0] := by
        rw [unitNormal, e1, e2]
        norm_num
      simp only [surfaceSum, List.map_cons, List.map_nil, List.sum_cons, List.sum_nil, e3, e4, withNormal_eq]
      rw [hat_line d _ (by norm_num)]
      norm_num

/-- C96 non-vacuity: each of the two nodes of the cell of the line gets half of the component of the normal. -/
example {argsort : List Int → List Nat} (hs : ∀ l, IsArgsort l (argsort l)) (toNat : ℝ → Nat) (hn : ∀ n : Nat, toNat (n : ℝ) = n)
    (k : Option (Fin 2)) :
    ∃ d x i mem st b, build true oracles grid none = .ok d ∧
      cellInput argsort (domainU d) ⟨1, 1⟩ 2 [[1, 1], [1, 1], [1, 1]] [0, 1, 2] [⟨1, true⟩] {} Cache.init = some (x, i) ∧ pack i = some mem ∧
      assembleVector (⟨toNat, realScalars, basixH, infoSF, false, [[tableI]], [loopSL 2 k], ⟨1, 1⟩, 2, mem⟩ : Job Nat ℝ ℝ)
        ((List.range 3).map fun e => (i.rowPos e, valuesH ([2, 0, 1].getD e 0), [[2, 3], [0, 1], [1, 2]].getD e []))
        { registry := [], keys := [], size := 0, epoch := 0, data := fun _ => 0, base := 0, ptr := fun _ _ => none } 0 = some (st, b) ∧
      b 0 = 0 ∧ b 1 = 1 / 2 * factor k [1, 0] ∧ b 2 = 1 / 2 * factor k [1, 0] ∧ b 3 = 0 := by
  obtain ⟨d, h, -⟩ := build_facts true oracles grid none valid (by simp [grid]) (.inr rfl)
  obtain ⟨k1, k2, k3⟩ := domainU_ok h
  have hk : UDomain.CellCachesOk argsort (domainU d).u {} := ⟨by rintro r ⟨⟩, by rintro r ⟨⟩, by rintro r ⟨⟩⟩
  have hr : Reached (domainU d) Cache.init := ⟨[], by simp, rfl⟩
  have hbox : ∀ v < 3, boxOf grid v = [(2 * (v : ℝ), 2 * (v : ℝ) + 2), (0, 1)] := by
    obtain ⟨b0, b1, b2⟩ := boxes
    intro v hv
    interval_cases v
    · rw [b0]; norm_num
    · rw [b1]; norm_num
    · rw [b2]; norm_num
  have hcells : ∀ (e v : Nat), ([2, 0, 1] : List Nat)[e]? = some v → v < 3 ∧ ([2, 0, 1] : List Nat).getD e 0 = v ∧
      ([[2, 3], [0, 1], [1, 2]] : List (List Nat)).getD e [] = [v, v + 1] := by
    intro e v he
    match e, he with
    | 0, he => obtain rfl : 2 = v := by simpa using he
               exact ⟨by decide, rfl, rfl⟩
    | 1, he => obtain rfl : 0 = v := by simpa using he
               exact ⟨by decide, rfl, rfl⟩
    | 2, he => obtain rfl : 1 = v := by simpa using he
               exact ⟨by decide, rfl, rfl⟩
  have hrows : ∀ (e : Nat) (row : List ℝ), ([[1, 1], [1, 1], [1, 1]] : List (List ℝ))[e]? = some row → row = [1, 1] := by
    intro e row he
    have := List.mem_of_getElem? he
    simpa using this
  obtain ⟨s', ch', i, mem, st, b, h1, h2, h3, h4⟩ := C96_load_vector (q := domainU d) (types := ⟨1, 1⟩) (old := [[1, 1], [1, 1], [1, 1]])
    (domain := [0, 1, 2]) (degree := 1) tableH k k1 k2 k3 rfl ⟨.inl rfl, .inl rfl⟩ rfl (by show 1 + 1 ≤ 2 * 100; decide)
    (by intro c hc; show c < 3; revert c; decide) rfl (by
      intro r hr
      obtain ⟨e, he⟩ := List.getElem?_of_mem hr
      rw [hrows e r he]; rfl)
    hs toNat hn true oracles h (by norm_num [oracles]) phi sound line (fun _ => 1) hat (K k) 1 zero_le_one 0 0 le_rfl (onSurfaceK k) (accurateK k)
    [2, 0, 1]
    (by
      have hm : ∀ c v : Nat, ([2, 0, 1] : List Nat)[c]? = some v → (domainU d).u.mesh.OrigCell c v :=
        fun c v h => (origCell_iff _ _ _).2 ⟨v, h, rfl⟩
      exact .cons (hm 0 2 rfl) (.cons (hm 1 0 rfl) (.cons (hm 2 1 rfl) .nil)))
    (by decide) (fun e => valuesH ([2, 0, 1].getD e 0))
    (by
      intro e v he
      obtain ⟨a1, a2, -⟩ := hcells e v he
      refine ⟨2 * v, 2 * v + 2, 0, 1, hbox v a1, ?_, ?_, ?_, ?_⟩ <;> (rw [a2]; simp [valuesH, valuesX]))
    (fun e => [[2, 3], [0, 1], [1, 2]].getD e [])
    (by
      intro e he
      have he : e < 3 := he
      interval_cases e <;> rfl)
    (by
      intro e v row he hrow p hp _
      obtain rfl := hrows e row hrow
      match p, hp with
      | [x, y], _ => simp [combine, basixH, List.range_succ])
    (by
      intro e v he p hp hu k
      obtain ⟨a1, -, a3⟩ := hcells e v he
      match p, hp with
      | [x, y], _ =>
        have hx := hu x (by simp)
        have e1 : hat k (List.zipWith (fun iv x => iv.1 + x * (iv.2 - iv.1)) (boxOf grid v) [x, y]) = coefA v k + coefB v k * (2 * v + 2 * x) := by
          rw [hbox v a1]
          have := hat_cell v k (List.zipWith (fun iv x => iv.1 + x * (iv.2 - iv.1)) [(2 * (v : ℝ), 2 * (v : ℝ) + 2), (0, 1)] [x, y])
            (by simp; linarith [hx.1]) (by simp; linarith [hx.2])
          rw [this]
          simp
          left
          ring
        refine e1.trans ?_
        show _ = entry ([[2, 3], [0, 1], [1, 2]].getD e []) _ k
        rw [a3, entry_cell]
        simp only [coefA, coefB, basixH]
        split
        · simp; ring
        · split
          · simp; ring
          · ring) hk hr (.start _ _) 0
  refine ⟨d, _, i, mem, st, b, h, h1, h2, h3, ?_⟩
  have key : ∀ j, b j = (coefA 1 j + coefB 1 j * 3) * factor k [1, 0] := by
    intro j
    have hc : (cellsRegion grid [2, 0, 1] : Set (Fin 2 → ℝ)) = region 2 [(0, 6), (0, 1)] :=
      cellsRegion_all grid valid (by show [2, 0, 1].Perm (List.range 3); decide)
    have h5 : |b j - ((0 : Nat → ℝ) j + surfaceIntegral line (cellsRegion grid [2, 0, 1] : Set (Fin 2 → ℝ)) (K k j))| ≤
        (List.filter (fun v => decide (v ∈ nearCells oracles (domainU d).grid)) [2, 0, 1]).length * max 0 (1 * 0) := h4 j
    rw [hc, line_hat k j 0 6 (by norm_num) (by norm_num)] at h5
    have h6 : |b j - (coefA 1 j + coefB 1 j * 3) * factor k [1, 0]| ≤ 0 := by simpa using h5
    linarith [abs_nonpos_iff.1 h6]
  refine ⟨?_, ?_, ?_, ?_⟩ <;> (rw [key]; norm_num [coefA, coefB])

end Qugar.Py.Integral.ExSurfaceLoad
