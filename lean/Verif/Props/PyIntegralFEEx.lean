import Verif.Props.PyIntegralFE
import Verif.Props.PyIntegralEx
import Verif.Props.IntegralsEx
/-
C94: a concrete functional, the integral of `x₀` over the part `x₀ < 3` of `[0,6] × [0,1]`.
-/
namespace Qugar.Py.Integral.ExFE

open Pack Assemble Quad Spec BoxMeasure Integrals Integrals.Ex
open MeasureTheory hiding integral

/-- Algoim's answers. -/
noncomputable def oracleX : QOracle ℝ := { qo with bzrGrad := fun _ _ => [1, 0] }

/-- Three cells, of which the local numbers are others, and their facets. -/
noncomputable def domainX (d : Dom) : QDomain ℝ :=
  ⟨⟨⟨none, [], [2, 0, 1], []⟩, ⟨10, [[7, 5, 8, 9], [0, 1, 2, 3], [4, 2, 5, 6]], [[1], [1], [1, 2], [1], [2], [0, 2], [2], [0], [0], [0]]⟩,
    fun _ => false, (0, 10), 3, d⟩, gaussReal, oracleX, grid, false⟩

/-- An element with the functions `1` and `x₀` of the reference cell. -/
noncomputable def basixX : Tables.Basix Nat ℝ where
  dim := fun _ => 2
  dofs := fun _ => 2
  values := fun _ => 1
  valid := fun _ => true
  eval := fun _ x _ dof _ => (x.getD 0 0) ^ dof

theorem tableX : TableFE basixX tableI 2 0 0 where
  name := rfl
  const := rfl
  perms := rfl
  funcs := rfl
  dim := rfl
  wf := ⟨.plain 0, ⟨0, 0, rfl, by decide, rfl, rfl, rfl⟩, show 1 ≤ 2 by decide, show 2 ≤ 3 by decide, rfl⟩
  comp := rfl

/-- The function, and its coefficients in the three cells of the mesh, which are the cells 2, 0 and 1 of the grid. -/
noncomputable def F (x : List ℝ) : ℝ := x.headD 0
noncomputable def oldX : List (List ℝ) := [[4, 2], [0, 2], [2, 2]]

/-- The coordinates of the cell `v`; the static rule has one point. -/
noncomputable def valuesX (v : Nat) : Kernel.Values ℝ where
  const _ := 0
  input a k := if a = 1 then ([2 * v, 0, 0, 2 * v + 2, 0, 0, 2 * v, 1, 0] : List ℝ).getD k 0 else 0
  staticWeight _ _ := 1
  staticTable _ _ _ _ d := (1 / 2) ^ d
  weight _ _ := 0
  table _ _ _ _ := 0
  normals _ _ := 0
  points _ := 0

theorem origX {d : Dom} {l v : Nat} (h : (domainX d).u.mesh.OrigCell l v) : v < 3 := by
  rw [origCell_iff] at h
  obtain ⟨o, h2, h3⟩ := h
  have e : o = v := h3
  subst e
  have := List.mem_of_getElem? h2
  simp only [domainX, List.mem_cons, List.not_mem_nil, or_false] at this
  omega

theorem domainX_ok {d : Dom} (h : build true oracles grid none = .ok d) :
    (domainX d).Ok 3 ∧ (domainX d).u.Ok 3 ∧ PointDims (domainX d).oracle (domainX d).grid := by
  obtain ⟨d', h1, h2, -⟩ := build_facts true oracles grid none valid (by simp [grid]) (.inr rfl)
  rw [h] at h1
  obtain rfl := Except.ok.inj h1
  have hn : d.n = [3, 1] := by
    obtain ⟨d', h3, h4, -⟩ := build_summary true oracles grid none valid (by simp [grid]) (.inr rfl)
    rw [h] at h3
    obtain rfl := Except.ok.inj h3
    rw [h4]
    rfl
  have hm : (domainX d).u.mesh.Ok 3 := ⟨show [2, 0, 1].Nodup by decide, show ∀ i ∈ [2, 0, 1], i < 3 by decide, show [2, 0, 1] ≠ [] by decide,
    fun a h => by cases h⟩
  refine ⟨⟨valid, .inl rfl, ⟨true, oracles, none, .inr rfl, h⟩, hm, fun l v h => origX h, rfl⟩,
    ⟨hm, h2, ?_, ?_, ?_, topologyI, show 10 ≤ 10 by decide, rfl, ?_, rfl, Nat.le_refl 3⟩, ⟨?_, ?_, ?_, ?_, ?_, ?_⟩⟩
  · show 1 ≤ d.n.length; rw [hn]; decide
  · show d.n.length ≤ 3; rw [hn]; decide
  · intro l v h
    show v < listProd d.n
    rw [hn]
    exact origX h
  · intro row hr
    have : ∀ row ∈ ([[7, 5, 8, 9], [0, 1, 2, 3], [4, 2, 5, 6]] : List (List Nat)), row.length = 4 := by decide
    rw [this row hr]
    show 4 = 2 * d.n.length
    rw [hn]; rfl
  · intro c dom n _ x hx
    simp only [domainX, oracleX, qo, List.mem_singleton] at hx
    subst hx; rfl
  · intro c dom n _ x hx
    simp [domainX, oracleX, qo] at hx
  · intro c dom n _ x hx
    simp [domainX, oracleX, qo] at hx
  · intro c dom n _ x hx
    simp [domainX, oracleX, qo] at hx
  · intro x _; rfl
  · intro c dom x _ _; rfl

/-- The part of a rectangle. -/
theorem inside_part (a b : ℝ) (h2 : 3 ≤ b) : (inside 2 phi ∩ region 2 [(a, b), (0, 1)] : Set (Fin 2 → ℝ)) =ᵐ[volume] region 2 [(a, 3), (0, 1)] := by
  have hne : ∀ᵐ x : Fin 2 → ℝ, x 0 ≠ 3 := by
    have := Measure.ae_eval_ne (μ := fun _ : Fin 2 => (volume : Measure ℝ)) 0 (3 : ℝ)
    exact this
  filter_upwards [hne] with x hx
  apply propext
  show x ∈ (inside 2 phi ∩ region 2 [(a, b), (0, 1)] : Set (Fin 2 → ℝ)) ↔ x ∈ region 2 [(a, 3), (0, 1)]
  rw [Set.mem_inter_iff, mem_region2, mem_region2]
  have hp : x ∈ inside 2 phi ↔ x 0 < 3 := by simp [inside, phi]
  rw [hp]
  constructor
  · rintro ⟨k1, ⟨k2, k3⟩, k4⟩
    exact ⟨⟨k2, k1.le⟩, k4⟩
  · rintro ⟨⟨k2, k3⟩, k4⟩
    exact ⟨lt_of_le_of_ne k3 hx, ⟨k2, k3.trans h2⟩, k4⟩

/-- The integral over the part of a rectangle. -/
theorem integral_part (a b : ℝ) (h1 : a < 3) (h2 : 3 ≤ b) :
    integralOver (inside 2 phi ∩ region 2 [(a, b), (0, 1)]) F = (3 - a) * (a + (3 - a) / 2) := by
  have e := inside_part a b h2
  have hlt : ∀ iv ∈ ([(a, 3), (0, 1)] : List (ℝ × ℝ)), iv.1 < iv.2 := by
    intro iv hiv
    simp only [List.mem_cons, List.not_mem_nil, or_false] at hiv
    rcases hiv with rfl | rfl
    · exact h1
    · norm_num
  have h := (integral_polynomial (d := 2) (b := [(a, 3), (0, 1)]) rfl hlt F [(a, [0, 0]), (3 - a, [1, 0])] (by simp) (by
    intro p hp
    match p, hp with
    | [x, y], _ => simp [F]; ring)).2
  unfold integralOver at h ⊢
  rw [setIntegral_congr_set e, h, boxVolume_eq_prod]
  simp
  left
  ring

theorem near_cut : ∀ c ∈ nearCells oracles grid, oracles.cell (boxOf grid c) = .cut := by
  intro c hc
  rw [near hc]
  have e : Box.volume [((2 : ℝ), 4), (0, 1)] = 2 := by rw [← boxVolume_eq_volume, boxVolume_eq_prod]; norm_num
  have e2 : measured [((2 : ℝ), 4), (0, 1)] = 1 := by norm_num [measured]
  simp only [oracles, classifyCell, classifyCellFromQuad, e, e2]
  rw [if_neg, if_neg]
  · norm_num [Tol.equal]
  · norm_num [Tol.equal]

theorem accurateX : Accurate oracles oracleX grid phi F (UDomain.numGaussPoints 1) 0 0 := by
  have hcut := near_cut
  refine ⟨fun c hc h => ?_, fun c hc h => ?_, fun c hc _ => ?_, fun _ c _ x hx => ?_⟩
  · rw [hcut c hc] at h; cases h
  · rw [hcut c hc] at h; rcases h with h | h <;> cases h
  · rw [near hc]
    show |_ - integralOver (inside 2 phi ∩ region 2 _) F| ≤ 0
    rw [integral_part 2 4 (by norm_num) (by norm_num)]
    norm_num [algoimSum, oracleX, qo, measured, F]
  · simp only [oracleX, qo, List.mem_singleton] at hx
    subst hx; rfl

theorem insideX : PointsInside oracles oracleX grid (UDomain.numGaussPoints 1) := by
  refine ⟨fun _ c hc x hx => ?_, fun h => by cases h⟩
  simp only [oracleX, qo, List.mem_singleton] at hx
  subst hx
  rw [near hc]
  refine .cons ?_ (.cons ?_ .nil) <;> norm_num

/-- C94 non-vacuity: the functional is `9 / 2`, the integral of `x₀` over `[0,3) × [0,1]`. -/
example {argsort : List Int → List Nat} (hs : ∀ l, IsArgsort l (argsort l)) (toNat : ℝ → Nat) (hn : ∀ n : Nat, toNat (n : ℝ) = n) :
    ∃ d x i mem st A, build true oracles grid none = .ok d ∧
      cellInput argsort (domainX d) ⟨1, 1⟩ 2 oldX [0, 1, 2] [⟨1, false⟩] {} Cache.init = some (x, i) ∧ pack i = some mem ∧
      assembleScalar (⟨toNat, realScalars, basixX, infoFE, false, [[tableI]], [loopFE 2 1], ⟨1, 1⟩, 2, mem⟩ : Job Nat ℝ ℝ)
        ((List.range 3).map fun e => (i.rowPos e, valuesX ([2, 0, 1].getD e 0)))
        { registry := [], keys := [], size := 0, epoch := 0, data := fun _ => 0, base := 0, ptr := fun _ _ => none } 0 = some (st, A) ∧
      A 0 = 9 / 2 := by
  obtain ⟨d, h, -⟩ := build_facts true oracles grid none valid (by simp [grid]) (.inr rfl)
  obtain ⟨k1, k2, k3⟩ := domainX_ok h
  have hk : UDomain.CellCachesOk argsort (domainX d).u {} := ⟨by rintro r ⟨⟩, by rintro r ⟨⟩, by rintro r ⟨⟩⟩
  have hr : Reached (domainX d) Cache.init := ⟨[], by simp, rfl⟩
  have hbox : ∀ v < 3, boxOf grid v = [(2 * (v : ℝ), 2 * (v : ℝ) + 2), (0, 1)] := by
    obtain ⟨b0, b1, b2⟩ := boxes
    intro v hv
    interval_cases v
    · rw [b0]; norm_num
    · rw [b1]; norm_num
    · rw [b2]; norm_num
  have hcells : ∀ (e v : Nat), ([2, 0, 1] : List Nat)[e]? = some v → v < 3 ∧ ([2, 0, 1] : List Nat).getD e 0 = v ∧
      oldX[e]? = some [2 * (v : ℝ), 2] := by
    intro e v he
    match e, he with
    | 0, he => obtain rfl : 2 = v := by simpa using he
               exact ⟨by decide, rfl, by norm_num [oldX]⟩
    | 1, he => obtain rfl : 0 = v := by simpa using he
               exact ⟨by decide, rfl, by norm_num [oldX]⟩
    | 2, he => obtain rfl : 1 = v := by simpa using he
               exact ⟨by decide, rfl, by norm_num [oldX]⟩
  have hpoly : ∀ (v : Nat) (p : List ℝ), v < 3 → p.length = 2 →
      F (List.zipWith (fun iv x => iv.1 + x * (iv.2 - iv.1)) (boxOf grid v) p) = 2 * v + 2 * p.headD 0 := by
    intro v p hv hp
    rw [hbox v hv]
    match p, hp with
    | [x, y], _ => simp [F]; ring
  have hdomain : Grid.domain grid = [(0, 6), (0, 1)] := rfl
  have hI := integral_polynomial (d := 2) (b := [(0, 6), (0, 1)]) rfl (by norm_num) F [(6, [1, 0])] (by simp) (by
    intro p hp
    match p, hp with
    | [x, y], _ => simp [F]; ring)
  have hbound : ∀ x ∈ region 2 (Grid.domain grid), |F (List.ofFn x)| ≤ 6 := by
    intro x hx
    rw [hdomain, mem_region2] at hx
    have e : F (List.ofFn x) = x 0 := by simp [F]
    rw [e, abs_le]
    constructor <;> linarith [hx.1.1, hx.1.2]
  obtain ⟨s', ch', i, mem, st, A, h1, h2, h3, h4⟩ := C94_finite_element (q := domainX d) (types := ⟨1, 1⟩) (old := oldX) (domain := [0, 1, 2])
    (degree := 1) (N := 1) tableX k1 k2 k3 rfl ⟨.inl rfl, .inl rfl⟩ rfl (by show 1 + 1 ≤ 2 * 100; decide)
    (by intro c hc; show c < 3; revert c; decide) rfl (by intro r hr; simp only [oldX, List.mem_cons, List.not_mem_nil, or_false] at hr; rcases hr with rfl | rfl | rfl <;> rfl)
    hs toNat hn true oracles h (by norm_num [oracles]) phi sound measurable F (by
      show IntegrableOn _ (region 2 (Grid.domain grid)); rw [hdomain]; exact hI.1) 6 (by norm_num) (by
      exact hbound) 0 0 0 le_rfl le_rfl accurateX insideX [2, 0, 1]
    (by
      have hm : ∀ c v : Nat, ([2, 0, 1] : List Nat)[c]? = some v → (domainX d).u.mesh.OrigCell c v :=
        fun c v h => (origCell_iff _ _ _).2 ⟨v, h, rfl⟩
      exact .cons (hm 0 2 rfl) (.cons (hm 1 0 rfl) (.cons (hm 2 1 rfl) .nil)))
    (by show [2, 0, 1].Perm (List.range 3); decide) (fun e => valuesX ([2, 0, 1].getD e 0))
    (by
      intro e v he
      obtain ⟨a1, a2, -⟩ := hcells e v he
      refine ⟨2 * v, 2 * v + 2, 0, 1, hbox v a1, ?_, ?_, ?_, ?_⟩ <;> (rw [a2]; simp [valuesX]))
    (by
      intro e v row he hrow p hp _
      obtain ⟨a1, -, a3⟩ := hcells e v he
      rw [a3] at hrow
      obtain rfl := Option.some.inj hrow
      refine (hpoly v p a1 hp).trans ?_
      match p, hp with
      | [x, y], _ => simp [combine, basixX, List.range_succ])
    (by
      intro e v row he hrow
      obtain ⟨a1, -, a3⟩ := hcells e v he
      rw [a3] at hrow
      obtain rfl := Option.some.inj hrow
      have hI := (integral_polynomial (d := 2) (b := boxOf grid v) (by rw [hbox v a1]; rfl) (by rw [hbox v a1]; norm_num) F
        [(2 * v, [0, 0]), (2, [1, 0])] (by simp) (by
        intro p hp
        rw [hpoly v p a1 (by rw [hp, hbox v a1]; rfl)]
        have hp2 : p.length = 2 := by rw [hp, hbox v a1]; rfl
        match p, hp2 with
        | [x, y], _ => simp)).2
      show |_ - integralOver (region 2 (boxOf grid v)) F| ≤ 0 * _
      rw [hI]
      simp [combine, valuesX, List.range_succ]
      rw [show (domainX d).grid = grid from rfl]
      ring) hk hr (.start _ _) 0
  refine ⟨d, _, i, mem, st, A, h, h1, h2, h3, ?_⟩
  have e3 : integralOver (inside (domainX d).grid.length phi ∩ region (domainX d).grid.length (domainX d).grid.domain) F = 9 / 2 := by
    show integralOver (inside 2 phi ∩ region 2 (Grid.domain grid)) F = 9 / 2
    rw [hdomain, integral_part 0 6 (by norm_num) (by norm_num)]
    norm_num
  rw [e3] at h4
  have h5 : |A 0 - 9 / 2| ≤ 0 := by simpa using h4
  linarith [abs_nonpos_iff.1 h5]

end Qugar.Py.Integral.ExFE
