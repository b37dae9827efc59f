import Verif.Props.IntegralsGauss
/-
A concrete case of the theorems C92: the part `x₀ < 3` of `[0,6] × [0,1]`, three cells.
-/
namespace Qugar.Integrals.Ex
open Spec BoxMeasure Tree
open MeasureTheory hiding integral

/-- The grid. -/
noncomputable def grid : Grid ℝ := [[0, 2, 4, 6], [0, 1]]

/-- The level set function. -/
noncomputable def phi (x : List ℝ) : ℝ := x.headD 0 - 3

/-- The exact volume of the part of a box in which the function is negative. -/
noncomputable def measured (b : Box ℝ) : ℝ := match b with
  | [u, v] => (min u.2 3 - u.1) * (v.2 - v.1)
  | _ => 0

/-- Interval arithmetic for that function; the classification of the code with the tolerance 1/100. -/
noncomputable def oracles : Oracles ℝ where
  sign := fun b => match b with
    | iv :: _ => if iv.2 < 3 then .negative else if 3 < iv.1 then .positive else .undetermined
    | [] => .undetermined
  cell := classifyCell (1 / 100) none measured
  facet := fun _ _ _ => .empty
  margin := 1 / 1000

/-- Algoim's answers: a point with the exact weight. -/
noncomputable def qo : QOracle ℝ where
  isBezier := false
  val := phi
  grad := fun _ => [1, 0]
  norm := fun v => (v.map fun x => |x|).sum
  tol := 1 / 1000
  volGen := fun b _ => [([5 / 2, 1 / 2], measured b)]
  surfGen := fun _ _ => []
  facetGen := fun _ _ _ _ => []
  volBzr := fun _ _ => []
  surfBzr := fun _ _ => []
  facetBzr := fun _ _ _ => []
  bzrVal := fun _ _ => 0
  bzrGrad := fun _ _ => []
  bzrFacetVal := fun _ _ _ => 0

theorem mem_region2 (u v : ℝ × ℝ) (x : Fin 2 → ℝ) : x ∈ region 2 [u, v] ↔ (u.1 ≤ x 0 ∧ x 0 ≤ u.2) ∧ (v.1 ≤ x 1 ∧ x 1 ≤ v.2) := by
  simp [region, InClosedBox]

theorem measure_part (a b c d : ℝ) (h1 : a ≤ 3) (h2 : 3 ≤ b) (h3 : c ≤ d) :
    measureOf (inside 2 phi ∩ region 2 [(a, b), (c, d)]) = (3 - a) * (d - c) := by
  have e : inside 2 phi ∩ region 2 [(a, b), (c, d)] = Set.pi Set.univ ![Set.Ico a 3, Set.Icc c d] := by
    ext x
    rw [Set.mem_inter_iff, mem_region2]
    simp only [inside, phi, Set.mem_setOf_eq, Set.mem_pi, Set.mem_univ, true_imp_iff, Fin.forall_fin_two]
    simp
    constructor
    · rintro ⟨h, ⟨h4, h5⟩, h6⟩
      exact ⟨⟨h4, by linarith⟩, h6⟩
    · rintro ⟨⟨h4, h5⟩, h6⟩
      exact ⟨by linarith, ⟨h4, by linarith⟩, h6⟩
  rw [measureOf, e, volume_pi_pi]
  simp [Fin.prod_univ_two, ENNReal.toReal_mul, ENNReal.toReal_ofReal, h1, h3]

theorem boxes : boxOf grid 0 = [(0, 2), (0, 1)] ∧ boxOf grid 1 = [(2, 4), (0, 1)] ∧ boxOf grid 2 = [(4, 6), (0, 1)] := by
  refine ⟨?_, ?_, ?_⟩ <;> rfl

theorem near {c : Nat} (h : c ∈ nearCells oracles grid) : boxOf grid c = [(2, 4), (0, 1)] := by
  have hc := nearCells_lt h
  have : grid.numCells = 3 := rfl
  rw [this] at hc
  obtain ⟨b0, b1, b2⟩ := boxes
  have h' := of_decide_eq_true (List.mem_filter.1 h).2
  interval_cases c
  · rw [b0] at h'
    revert h'
    norm_num [oracles]
    exact FuncSign.noConfusion
  · exact b1
  · rw [b2] at h'
    revert h'
    norm_num [oracles]
    exact FuncSign.noConfusion

theorem valid : grid.Valid := by
  intro bs hbs
  simp only [grid, List.mem_cons, List.not_mem_nil, or_false] at hbs
  rcases hbs with rfl | rfl <;> constructor <;> norm_num

theorem sound : SoundSign phi oracles.sign := by
  intro b
  cases b with
  | nil => simp [oracles]
  | cons iv b =>
    simp only [oracles]
    constructor
    · intro h x hx
      split_ifs at h with h1 h2
      cases x with
      | nil => simp [InClosedBox] at hx
      | cons y x =>
        have := (List.forall₂_cons.1 hx).1
        simp only [phi, List.headD_cons]
        linarith [this.2]
    · intro h x hx
      split_ifs at h with h1 h2
      cases x with
      | nil => simp [InClosedBox] at hx
      | cons y x =>
        have := (List.forall₂_cons.1 hx).1
        simp only [phi, List.headD_cons]
        linarith [this.1]

theorem measurable : MeasurableSet (inside 2 phi) := by
  have : inside 2 phi = {x | x 0 - 3 < 0} := by ext x; simp [inside, phi]
  rw [this]
  exact measurableSet_lt (by fun_prop) (by fun_prop)

/-- The hypotheses of C92_volume (and of C92_general) hold, and the result is the volume 3 of the part. -/
example : ∃ d ch' x, build true oracles grid none = .ok d ∧
    createQuadrature gaussReal qo grid d (List.range 3) 4 Cache.init = some (ch', x) ∧
    |arraysSum (boxOf grid) (fun _ => 1) x.cells x.nPts x.points x.weights - 3| ≤ 1 / 20 := by
  have hv := valid
  have hs := sound
  have hO := measurable
  have hmp : measureOf (inside 2 phi ∩ region 2 [(2, 4), (0, 1)]) = 1 := by
    rw [measure_part _ _ _ _ (by norm_num) (by norm_num) (by norm_num)]; norm_num
  have hmm : measured [((2 : ℝ), 4), (0, 1)] = 1 := by norm_num [measured]
  obtain ⟨d, ch', x, h1, h2, h3⟩ := C92_volume true true oracles grid hv (Or.inl rfl) (by norm_num [oracles]) phi hs hO (1 / 100) (by norm_num)
    measured rfl 0 (le_refl _) (fun c hc => by
      rw [near hc]
      show |measured _ - measureOf (inside 2 phi ∩ region 2 _)| ≤ _
      rw [hmp, hmm]; norm_num) 4 (by norm_num) [] (by simp) Cache.init rfl qo rfl
    (fun c _ x hx => by simp only [qo, List.mem_singleton] at hx; subst hx; rfl) 0 (fun c hc => by
      rw [near hc]
      show |_ - measureOf (inside 2 phi ∩ region 2 _)| ≤ _
      simp only [qo, List.map_cons, List.map_nil, List.sum_cons, List.sum_nil]
      rw [hmp, hmm]; norm_num)
  refine ⟨d, ch', x, h1, h2, ?_⟩
  have e : measureOf (inside grid.length phi ∩ region grid.length grid.domain) = 3 := by
    have := measure_part 0 6 0 1 (by norm_num) (by norm_num) (by norm_num)
    have e2 : Grid.domain grid = [(0, 6), (0, 1)] := rfl
    rw [e2]
    show measureOf (inside 2 phi ∩ region 2 _) = 3
    rw [this]; norm_num
  have e3 : boxVolume (Grid.domain grid) = 6 := by
    have e2 : Grid.domain grid = [(0, 6), (0, 1)] := rfl
    rw [e2, boxVolume_eq_prod]; norm_num
  rw [e, e3] at h3
  refine h3.trans ?_
  have hl : ((nearCells oracles grid).length : ℝ) ≤ 3 := by
    have : (nearCells oracles grid).length ≤ 3 := (List.length_filter_le _ _).trans (by rw [List.length_range]; exact le_refl 3)
    exact_mod_cast this
  have e4 : grid.length = 2 := rfl
  rw [e4]
  norm_num
  linarith

end Qugar.Integrals.Ex
