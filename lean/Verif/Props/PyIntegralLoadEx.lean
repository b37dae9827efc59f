import Verif.Props.PyIntegralLoad
import Verif.Props.PyIntegralFEEx
/-
C94: a concrete vector, the integrals of the four hat functions of three cells over the part `x₀ < 3` of `[0,6] × [0,1]`.
-/
namespace Qugar.Py.Integral.ExLoad

open Pack Assemble Quad Spec BoxMeasure Integrals Integrals.Ex ExFE
open MeasureTheory hiding integral

/-- An element with the functions `1 - x₀` and `x₀` of the reference cell. -/
noncomputable def basixH : Tables.Basix Nat ℝ where
  dim := fun _ => 2
  dofs := fun _ => 2
  values := fun _ => 1
  valid := fun _ => true
  eval := fun _ x _ dof _ => if dof = 0 then 1 - x.headD 0 else x.headD 0

theorem tableH : TableFE basixH tableI 2 0 0 where
  name := rfl
  const := rfl
  perms := rfl
  funcs := rfl
  dim := rfl
  wf := ⟨.plain 0, ⟨0, 0, rfl, by decide, rfl, rfl, rfl⟩, show 1 ≤ 2 by decide, show 2 ≤ 3 by decide, rfl⟩
  comp := rfl

/-- The function of the node `d`, which is at `x₀ = 2 d`. -/
noncomputable def hat (d : Nat) (x : List ℝ) : ℝ := max 0 (1 - |x.headD 0 / 2 - d|)

/-- In the cell `v`, the function is affine. -/
noncomputable def coefA (v d : Nat) : ℝ := if d = v then 1 + v else if d = v + 1 then -v else 0
noncomputable def coefB (v d : Nat) : ℝ := if d = v then -1 / 2 else if d = v + 1 then 1 / 2 else 0

theorem hat_cell (v d : Nat) (x : List ℝ) (h1 : 2 * (v : ℝ) ≤ x.headD 0) (h2 : x.headD 0 ≤ 2 * v + 2) :
    hat d x = coefA v d + coefB v d * x.headD 0 := by
  unfold hat coefA coefB
  by_cases hd : d = v
  · subst hd
    rw [if_pos rfl, if_pos rfl, abs_of_nonneg (by linarith), max_eq_right (by linarith)]
    ring
  · rw [if_neg hd, if_neg hd]
    by_cases hd2 : d = v + 1
    · subst hd2
      rw [if_pos rfl, if_pos rfl]
      push_cast
      rw [abs_of_nonpos (by linarith), max_eq_right (by linarith)]
      ring
    · rw [if_neg hd2, if_neg hd2, zero_mul, zero_add]
      apply max_eq_left
      rcases Nat.lt_or_gt_of_ne hd with h | h
      · have : (d : ℝ) + 1 ≤ v := by exact_mod_cast h
        rw [abs_of_nonneg (by linarith)]
        linarith
      · have : (v : ℝ) + 2 ≤ d := by exact_mod_cast (show v + 2 ≤ d by omega)
        rw [abs_of_nonpos (by linarith)]
        linarith

theorem entry_cell (v d : Nat) (φ : Nat → ℝ) : entry [v, v + 1] φ d = if d = v then φ 0 else if d = v + 1 then φ 1 else 0 := by
  unfold entry
  by_cases hd : d = v
  · subst hd; simp
  · by_cases hd2 : d = v + 1
    · subst hd2; simp
    · have h1 : ¬ v = d := fun h => hd h.symm
      have h2 : ¬ v + 1 = d := fun h => hd2 h.symm
      simp [h1, h2, hd, hd2]

/-- The integral in a part of the cell `v`. -/
theorem integral_hat (v d : Nat) (a b : ℝ) (h1 : 2 * (v : ℝ) ≤ a) (h2 : a < b) (h3 : b ≤ 2 * v + 2) :
    integralOver (region 2 [(a, b), (0, 1)]) (fun x => 1 * hat d x) = (b - a) * (coefA v d + coefB v d * ((a + b) / 2)) := by
  have hlt : ∀ iv ∈ ([(a, b), (0, 1)] : List (ℝ × ℝ)), iv.1 < iv.2 := by
    intro iv hiv
    simp only [List.mem_cons, List.not_mem_nil, or_false] at hiv
    rcases hiv with rfl | rfl
    · exact h2
    · norm_num
  have h := (integral_polynomial (d := 2) (b := [(a, b), (0, 1)]) rfl hlt (fun x => coefA v d + coefB v d * x.headD 0)
    [(coefA v d + coefB v d * a, [0, 0]), (coefB v d * (b - a), [1, 0])] (by simp) (by
    intro p hp
    match p, hp with
    | [x, y], _ => simp; ring)).2
  have e : integralOver (region 2 [(a, b), (0, 1)]) (fun x => 1 * hat d x) =
      integralOver (region 2 [(a, b), (0, 1)]) (fun x => coefA v d + coefB v d * x.headD 0) := by
    unfold integralOver
    refine setIntegral_congr_fun (measurable_region (d := 2) (b := [(a, b), (0, 1)]) rfl) ?_
    intro x hx
    rw [mem_region2] at hx
    show 1 * hat d (List.ofFn x) = _
    have e : (List.ofFn x).headD 0 = x 0 := by simp
    rw [one_mul]
    exact hat_cell v d _ (by rw [e]; exact h1.trans hx.1.1) (by rw [e]; exact hx.1.2.trans h3)
  rw [e, h, boxVolume_eq_prod]
  simp only [List.map_cons, List.map_nil, List.prod_cons, List.prod_nil, List.sum_cons, List.sum_nil]
  push_cast
  ring

theorem hat_abs (d : Nat) (x : List ℝ) : |1 * hat d x| ≤ 1 := by
  unfold hat
  rw [one_mul, abs_of_nonneg (le_max_left _ _)]
  exact max_le zero_le_one (by linarith [abs_nonneg (x.headD 0 / 2 - (d : ℝ))])

theorem integrableH (d : Nat) (b : List (ℝ × ℝ)) (hb : b.length = 2) : IntegrableOn (fun x : Fin 2 → ℝ => 1 * hat d (List.ofFn x)) (region 2 b) := by
  refine Measure.integrableOn_of_bounded (M := 1) (volume_region_lt_top hb).ne ?_ ?_
  · have : (fun x : Fin 2 → ℝ => 1 * hat d (List.ofFn x)) = fun x => 1 * max 0 (1 - |x 0 / 2 - (d : ℝ)|) := by
      funext x
      simp [hat]
    rw [this]
    exact (by fun_prop : Continuous fun x : Fin 2 → ℝ => 1 * max 0 (1 - |x 0 / 2 - (d : ℝ)|)).aestronglyMeasurable
  · exact Filter.Eventually.of_forall fun x => hat_abs d _

theorem accurateH (d : Nat) : Accurate oracles oracleX grid phi (fun x => 1 * hat d x) (UDomain.numGaussPoints 1) 0 0 := by
  refine ⟨fun c hc h => ?_, fun c hc h => ?_, fun c hc _ => ?_, fun _ c _ x hx => ?_⟩
  · rw [near_cut c hc] at h; cases h
  · rw [near_cut c hc] at h; rcases h with h | h <;> cases h
  · rw [near hc]
    show |_ - integralOver (inside 2 phi ∩ region 2 _) _| ≤ 0
    have e : integralOver (inside 2 phi ∩ region 2 [((2 : ℝ), 4), (0, 1)]) (fun x => 1 * hat d x) =
        integralOver (region 2 [((2 : ℝ), 3), (0, 1)]) (fun x => 1 * hat d x) := setIntegral_congr_set (inside_part 2 4 (by norm_num))
    rw [e, integral_hat 1 d 2 3 (by norm_num) (by norm_num) (by norm_num)]
    have := hat_cell 1 d [5 / 2, 1 / 2] (by norm_num) (by norm_num)
    simp only [List.headD_cons] at this
    have e2 : algoimSum oracleX [((2 : ℝ), 4), (0, 1)] (UDomain.numGaussPoints 1) (fun x => 1 * hat d x) = hat d [5 / 2, 1 / 2] := by
      norm_num [algoimSum, oracleX, qo, measured]
    rw [e2, this]
    norm_num
  · simp only [oracleX, qo, List.mem_singleton] at hx
    subst hx; rfl

/-- The values of the functions at the middle of the cell `v`. -/
noncomputable def valuesH (v : Nat) : Kernel.Values ℝ := { valuesX v with staticTable := fun _ _ _ _ _ => 1 / 2 }

/-- The integral of a function over the part inside of the domain. -/
theorem integral_inside (d : Nat) : integralOver (inside 2 phi ∩ cellsRegion grid [2, 0, 1]) (fun x => 1 * hat d x) =
    2 * (coefA 0 d + coefB 0 d) + (coefA 1 d + coefB 1 d * (5 / 2)) := by
  have h := (integral_some_cells grid valid (inside 2 phi) measurable (fun x => 1 * hat d x) (integrableH d _ rfl) [2, 0, 1] (by decide)
    (by intro v hv; show v < 3; revert v; decide)).1
  obtain ⟨b0, b1, b2⟩ := boxes
  refine h.trans ?_
  simp only [List.map_cons, List.map_nil, List.sum_cons, List.sum_nil, b0, b1, b2]
  have e0 : (inside 2 phi ∩ region 2 [((0 : ℝ), 2), (0, 1)] : Set (Fin 2 → ℝ)) = region 2 [(0, 2), (0, 1)] := by
    rw [Set.inter_eq_right]
    intro x hx
    rw [mem_region2] at hx
    have : x 0 ≤ 2 := hx.1.2
    simp [inside, phi]
    linarith
  have e2 : (inside 2 phi ∩ region 2 [((4 : ℝ), 6), (0, 1)] : Set (Fin 2 → ℝ)) = ∅ := by
    rw [Set.eq_empty_iff_forall_notMem]
    rintro x ⟨h1, hx⟩
    rw [mem_region2] at hx
    have : 4 ≤ x 0 := hx.1.1
    simp [inside, phi] at h1
    linarith
  have e1 : integralOver (inside 2 phi ∩ region 2 [((2 : ℝ), 4), (0, 1)]) (fun x => 1 * hat d x) =
      integralOver (region 2 [((2 : ℝ), 3), (0, 1)]) (fun x => 1 * hat d x) := setIntegral_congr_set (inside_part 2 4 (by norm_num))
  show integralOver (inside 2 phi ∩ region 2 [((4 : ℝ), 6), (0, 1)]) _ + (integralOver (inside 2 phi ∩ region 2 [((0 : ℝ), 2), (0, 1)]) _ +
    (integralOver (inside 2 phi ∩ region 2 [((2 : ℝ), 4), (0, 1)]) _ + 0)) = _
  rw [e0, e1, e2, integral_hat 0 d 0 2 (by norm_num) (by norm_num) (by norm_num), integral_hat 1 d 2 3 (by norm_num) (by norm_num) (by norm_num)]
  simp [integralOver]
  ring

/-- C94 non-vacuity: the vector. -/
example {argsort : List Int → List Nat} (hs : ∀ l, IsArgsort l (argsort l)) (toNat : ℝ → Nat) (hn : ∀ n : Nat, toNat (n : ℝ) = n) :
    ∃ d x i mem st b, build true oracles grid none = .ok d ∧
      cellInput argsort (domainX d) ⟨1, 1⟩ 2 [[1, 1], [1, 1], [1, 1]] [0, 1, 2] [⟨1, false⟩] {} Cache.init = some (x, i) ∧ pack i = some mem ∧
      assembleVector (⟨toNat, realScalars, basixH, infoFE, false, [[tableI]], [loopLoad 2 1], ⟨1, 1⟩, 2, mem⟩ : Job Nat ℝ ℝ)
        ((List.range 3).map fun e => (i.rowPos e, valuesH ([2, 0, 1].getD e 0), [[2, 3], [0, 1], [1, 2]].getD e []))
        { registry := [], keys := [], size := 0, epoch := 0, data := fun _ => 0, base := 0, ptr := fun _ _ => none } 0 = some (st, b) ∧
      b 0 = 1 ∧ b 1 = 7 / 4 ∧ b 2 = 1 / 4 ∧ b 3 = 0 := by
  obtain ⟨d, h, -⟩ := build_facts true oracles grid none valid (by simp [grid]) (.inr rfl)
  obtain ⟨k1, k2, k3⟩ := domainX_ok h
  have hk : UDomain.CellCachesOk argsort (domainX d).u {} := ⟨by rintro r ⟨⟩, by rintro r ⟨⟩, by rintro r ⟨⟩⟩
  have hr : Reached (domainX d) Cache.init := ⟨[], by simp, rfl⟩
  have hbox : ∀ v < 3, boxOf grid v = [(2 * (v : ℝ), 2 * (v : ℝ) + 2), (0, 1)] := by
    obtain ⟨b0, b1, b2⟩ := boxes
    intro v hv
    interval_cases v
    · rw [b0]; norm_num
    · rw [b1]; norm_num
    · rw [b2]; norm_num
  have hcells : ∀ (e v : Nat), ([2, 0, 1] : List Nat)[e]? = some v → v < 3 ∧ ([2, 0, 1] : List Nat).getD e 0 = v ∧
      ([[2, 3], [0, 1], [1, 2]] : List (List Nat)).getD e [] = [v, v + 1] := by
    intro e v he
    match e, he with
    | 0, he => obtain rfl : 2 = v := by simpa using he
               exact ⟨by decide, rfl, rfl⟩
    | 1, he => obtain rfl : 0 = v := by simpa using he
               exact ⟨by decide, rfl, rfl⟩
    | 2, he => obtain rfl : 1 = v := by simpa using he
               exact ⟨by decide, rfl, rfl⟩
  have hrows : ∀ (e : Nat) (row : List ℝ), ([[1, 1], [1, 1], [1, 1]] : List (List ℝ))[e]? = some row → row = [1, 1] := by
    intro e row he
    have := List.mem_of_getElem? he
    simpa using this
  obtain ⟨s', ch', i, mem, st, b, h1, h2, h3, h4⟩ := C94_load_vector (q := domainX d) (types := ⟨1, 1⟩) (old := [[1, 1], [1, 1], [1, 1]])
    (domain := [0, 1, 2]) (degree := 1) (N := 1) tableH k1 k2 k3 rfl ⟨.inl rfl, .inl rfl⟩ rfl (by show 1 + 1 ≤ 2 * 100; decide)
    (by intro c hc; show c < 3; revert c; decide) rfl (by
      intro r hr
      obtain ⟨e, he⟩ := List.getElem?_of_mem hr
      rw [hrows e r he]; rfl)
    hs toNat hn true oracles h (by norm_num [oracles]) phi sound measurable (fun _ => 1) hat (fun k => integrableH k _ rfl) 1 zero_le_one
    (fun k x _ => hat_abs k _) 0 0 0 le_rfl le_rfl accurateH insideX [2, 0, 1]
    (by
      have hm : ∀ c v : Nat, ([2, 0, 1] : List Nat)[c]? = some v → (domainX d).u.mesh.OrigCell c v :=
        fun c v h => (origCell_iff _ _ _).2 ⟨v, h, rfl⟩
      exact .cons (hm 0 2 rfl) (.cons (hm 1 0 rfl) (.cons (hm 2 1 rfl) .nil)))
    (by decide) (fun e => valuesH ([2, 0, 1].getD e 0))
    (by
      intro e v he
      obtain ⟨a1, a2, -⟩ := hcells e v he
      refine ⟨2 * v, 2 * v + 2, 0, 1, hbox v a1, ?_, ?_, ?_, ?_⟩ <;> (rw [a2]; simp [valuesH, valuesX]))
    (fun e => [[2, 3], [0, 1], [1, 2]].getD e [])
    (by
      intro e he
      have he : e < 3 := he
      interval_cases e <;> rfl)
    (by
      intro e v row he hrow p hp _
      obtain rfl := hrows e row hrow
      match p, hp with
      | [x, y], _ => simp [combine, basixH, List.range_succ])
    (by
      intro e v he p hp hu k
      obtain ⟨a1, -, a3⟩ := hcells e v he
      match p, hp with
      | [x, y], _ =>
        have hx := hu x (by simp)
        have e1 : hat k (List.zipWith (fun iv x => iv.1 + x * (iv.2 - iv.1)) (boxOf grid v) [x, y]) = coefA v k + coefB v k * (2 * v + 2 * x) := by
          rw [hbox v a1]
          have := hat_cell v k (List.zipWith (fun iv x => iv.1 + x * (iv.2 - iv.1)) [(2 * (v : ℝ), 2 * (v : ℝ) + 2), (0, 1)] [x, y])
            (by simp; linarith [hx.1]) (by simp; linarith [hx.2])
          rw [this]
          simp
          left
          ring
        refine e1.trans ?_
        show _ = entry ([[2, 3], [0, 1], [1, 2]].getD e []) _ k
        rw [a3, entry_cell]
        simp only [coefA, coefB, basixH]
        split
        · simp; ring
        · split
          · simp; ring
          · ring)
    (by
      intro e v row he hrow k
      obtain rfl := hrows e row hrow
      obtain ⟨a1, a2, a3⟩ := hcells e v he
      show |_ - integralOver (region 2 (boxOf grid v)) (fun x => 1 * hat k x)| ≤ 0 * _
      rw [show (domainX d).grid = grid from rfl, hbox v a1, integral_hat v k _ _ le_rfl (by linarith) le_rfl, zero_mul, abs_nonpos_iff,
        sub_eq_zero]
      show (List.map (fun iq => _ * _ * _ * entry ([[2, 3], [0, 1], [1, 2]].getD e []) _ k) (List.range 1)).sum = _
      rw [a3]
      simp only [List.range_one, List.map_cons, List.map_nil, List.sum_cons, List.sum_nil, entry_cell, coefA, coefB, boxVolume_eq_prod]
      simp only [combine, valuesH, valuesX, List.range_succ]
      split
      · simp; ring
      · split
        · simp; ring
        · simp) hk hr (.start _ _) 0
  refine ⟨d, _, i, mem, st, b, h, h1, h2, h3, ?_⟩
  have key : ∀ k, b k = 2 * (coefA 0 k + coefB 0 k) + (coefA 1 k + coefB 1 k * (5 / 2)) := by
    intro k
    have h5 := h4 k
    have e : integralOver (inside (domainX d).grid.length phi ∩ cellsRegion (domainX d).grid [2, 0, 1]) (fun x => 1 * hat k x) =
      2 * (coefA 0 k + coefB 0 k) + (coefA 1 k + coefB 1 k * (5 / 2)) := integral_inside k
    rw [e] at h5
    have h6 : |b k - (2 * (coefA 0 k + coefB 0 k) + (coefA 1 k + coefB 1 k * (5 / 2)))| ≤ 0 := by simpa using h5
    linarith [abs_nonpos_iff.1 h6]
  refine ⟨?_, ?_, ?_, ?_⟩ <;> (rw [key]; norm_num [coefA, coefB])

end Qugar.Py.Integral.ExLoad
