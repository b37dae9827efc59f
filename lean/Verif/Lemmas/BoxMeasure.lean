import Verif.Spec.Integrals
import Verif.Props.Grid
import Verif.Props.BBox
import Mathlib.MeasureTheory.Integral.Pi
/-
Measures of boxes, and the integral over the domain of a grid as the sum of the integrals over its cells.
-/
namespace Qugar.BoxMeasure
open Spec MeasureTheory

theorem mem_region {d : Nat} {b : List (ℝ × ℝ)} (hb : b.length = d) (x : Fin d → ℝ) :
    x ∈ region d b ↔ ∀ i : Fin d, (b[i.1]'(by omega)).1 ≤ x i ∧ x i ≤ (b[i.1]'(by omega)).2 := by
  unfold region InClosedBox
  rw [Set.mem_setOf_eq, List.forall₂_iff_get]
  simp only [List.length_ofFn, List.get_eq_getElem, List.getElem_ofFn, sub_zero, add_zero]
  constructor
  · rintro ⟨_, h⟩ i
    exact h i.1 (by omega) i.2
  · intro h
    exact ⟨hb, fun i h1 h2 => h ⟨i, h2⟩⟩

theorem region_eq_Icc {d : Nat} {b : List (ℝ × ℝ)} (hb : b.length = d) :
    region d b = Set.Icc (fun i : Fin d => (b[i.1]'(by omega)).1) (fun i : Fin d => (b[i.1]'(by omega)).2) := by
  ext x
  rw [mem_region hb, Set.mem_Icc, Pi.le_def, Pi.le_def, forall_and]

theorem measurable_region {d : Nat} {b : List (ℝ × ℝ)} (hb : b.length = d) : MeasurableSet (region d b) := by
  rw [region_eq_Icc hb]
  exact measurableSet_Icc

theorem boxVolume_eq_prod (b : List (ℝ × ℝ)) : boxVolume b = (b.map fun iv => iv.2 - iv.1).prod := by
  induction b with
  | nil => rfl
  | cons iv b ih => rw [boxVolume, ih]; rfl

theorem boxVolume_eq_finset {d : Nat} {b : List (ℝ × ℝ)} (hb : b.length = d) :
    boxVolume b = ∏ i : Fin d, ((b[i.1]'(by omega)).2 - (b[i.1]'(by omega)).1) := by
  subst hb
  rw [boxVolume_eq_prod, ← List.prod_ofFn]
  congr 1
  apply List.ext_getElem
  · simp
  · intro i h1 h2; simp

theorem boxVolume_nonneg {b : List (ℝ × ℝ)} (h : ∀ iv ∈ b, iv.1 ≤ iv.2) : 0 ≤ boxVolume b := by
  rw [boxVolume_eq_prod]
  apply List.prod_nonneg
  intro x hx
  obtain ⟨iv, hiv, rfl⟩ := List.mem_map.1 hx
  have := h iv hiv
  linarith

theorem boxVolume_pos {b : List (ℝ × ℝ)} (h : ∀ iv ∈ b, iv.1 < iv.2) : 0 < boxVolume b := by
  rw [boxVolume_eq_prod]
  apply List.prod_pos
  intro x hx
  obtain ⟨iv, hiv, rfl⟩ := List.mem_map.1 hx
  have := h iv hiv
  linarith

theorem volume_region {d : Nat} {b : List (ℝ × ℝ)} (hb : b.length = d) (h : ∀ iv ∈ b, iv.1 ≤ iv.2) :
    volume (region d b) = ENNReal.ofReal (boxVolume b) := by
  rw [region_eq_Icc hb, Real.volume_Icc_pi, boxVolume_eq_finset hb, ENNReal.ofReal_prod_of_nonneg]
  intro i _
  have := h _ (List.getElem_mem (show i.1 < b.length by omega))
  linarith

theorem volume_region_lt_top {d : Nat} {b : List (ℝ × ℝ)} (hb : b.length = d) : volume (region d b) < ⊤ := by
  rw [region_eq_Icc hb]
  exact measure_Icc_lt_top

theorem measureOf_region {d : Nat} {b : List (ℝ × ℝ)} (hb : b.length = d) (h : ∀ iv ∈ b, iv.1 ≤ iv.2) :
    measureOf (region d b) = boxVolume b := by
  rw [measureOf, volume_region hb h, ENNReal.toReal_ofReal (boxVolume_nonneg h)]

/-- Boxes with disjoint interiors share a set of measure zero. -/
theorem aedisjoint {d : Nat} {a b : List (ℝ × ℝ)} (ha : a.length = d) (hb : b.length = d) (h : InteriorsDisjoint a b) :
    AEDisjoint volume (region d a) (region d b) := by
  obtain ⟨k, iv, jv, h1, h2, h3⟩ := h
  have hk : k < d := by
    rw [← ha]
    exact (List.getElem?_eq_some_iff.1 h1).1
  have e1 : a[k]'(by omega) = iv := by
    have := (List.getElem?_eq_some_iff.1 h1).2
    exact this
  have e2 : b[k]'(by omega) = jv := by
    have := (List.getElem?_eq_some_iff.1 h2).2
    exact this
  have hz : ∀ c : ℝ, volume {x : Fin d → ℝ | x ⟨k, hk⟩ = c} = 0 := fun c => by
    rw [volume_pi]
    exact Measure.pi_hyperplane _ _ _
  rcases h3 with h | h
  · refine measure_mono_null ?_ (hz iv.2)
    rintro x ⟨x1, x2⟩
    have y1 := ((mem_region ha x).1 x1 ⟨k, hk⟩).2
    have y2 := ((mem_region hb x).1 x2 ⟨k, hk⟩).1
    simp only [e1, e2] at y1 y2
    exact le_antisymm y1 (h.trans y2)
  · refine measure_mono_null ?_ (hz jv.2)
    rintro x ⟨x1, x2⟩
    have y1 := ((mem_region ha x).1 x1 ⟨k, hk⟩).1
    have y2 := ((mem_region hb x).1 x2 ⟨k, hk⟩).2
    simp only [e1, e2] at y1 y2
    exact le_antisymm y2 (h.trans y1)

/-- The box of a cell (empty for cells that do not exist). -/
noncomputable def boxOf (g : Grid ℝ) (c : Nat) : List (ℝ × ℝ) := (g.cellDomain c).getD []

theorem domain_length (g : Grid ℝ) : g.domain.length = g.length := by simp [Grid.domain]

theorem boxOf_spec (g : Grid ℝ) (hv : g.Valid) (c : Nat) (hc : c < g.numCells) :
    g.cellDomain c = some (boxOf g c) ∧ (boxOf g c).length = g.length ∧ (∀ iv ∈ boxOf g c, iv.1 < iv.2) ∧
      region g.length (boxOf g c) ⊆ region g.length g.domain := by
  obtain ⟨box, h1, h2, h3⟩ := Grid.C07_cell_domain_inside g hv c hc
  have e : boxOf g c = box := by rw [boxOf, h1]; rfl
  rw [e]
  refine ⟨h1, h2, ?_, ?_⟩
  · intro iv hiv
    obtain ⟨i, hi, rfl⟩ := List.getElem_of_mem hiv
    exact (h3 i _ _ (List.getElem?_eq_getElem hi)
      (List.getElem?_eq_getElem (show i < g.domain.length by rw [domain_length]; omega))).2.1
  · intro x hx
    rw [mem_region h2] at hx
    rw [mem_region (domain_length g)]
    intro i
    have := h3 i.1 _ _ (List.getElem?_eq_getElem (show i.1 < box.length by omega))
      (List.getElem?_eq_getElem (show i.1 < g.domain.length by rw [domain_length]; omega))
    have := hx i
    constructor <;> linarith

theorem region_domain (g : Grid ℝ) (hv : g.Valid) :
    region g.length g.domain = ⋃ c : Fin g.numCells, region g.length (boxOf g c.1) := by
  ext x
  rw [Set.mem_iUnion]
  constructor
  · intro hx
    obtain ⟨c, box, _, hc, hb, h⟩ := Grid.C05_located_cell_contains_point g hv 0 le_rfl (List.ofFn x) hx
    refine ⟨⟨c, hc⟩, ?_⟩
    have e : boxOf g c = box := by rw [boxOf, hb]; rfl
    simp only [e]
    exact h
  · rintro ⟨c, hc⟩
    exact (boxOf_spec g hv c.1 c.2).2.2.2 hc

theorem sum_range (N : Nat) (f : Nat → ℝ) : ∑ c : Fin N, f c.1 = ((List.range N).map f).sum := by
  rw [← List.sum_ofFn]
  congr 1
  apply List.ext_getElem
  · simp
  · intro i h1 h2; simp

/-- The integral over a part of the domain of a grid is the sum of the integrals over the parts of its cells. -/
theorem integral_cells (g : Grid ℝ) (hv : g.Valid) (S : Set (Fin g.length → ℝ)) (hS : MeasurableSet S) (F : List ℝ → ℝ)
    (hF : IntegrableOn (fun x => F (List.ofFn x)) (region g.length g.domain)) :
    integralOver (S ∩ region g.length g.domain) F =
      ((List.range g.numCells).map fun c => integralOver (S ∩ region g.length (boxOf g c)) F).sum := by
  have e : S ∩ region g.length g.domain = ⋃ c : Fin g.numCells, S ∩ region g.length (boxOf g c.1) := by
    rw [region_domain g hv, Set.inter_iUnion]
  have hi : IntegrableOn (fun x => F (List.ofFn x)) (⋃ c : Fin g.numCells, S ∩ region g.length (boxOf g c.1)) := by
    rw [← e]
    exact hF.mono_set Set.inter_subset_right
  have hd : Pairwise (Function.onFun (AEDisjoint volume) fun c : Fin g.numCells => S ∩ region g.length (boxOf g c.1)) := by
    intro c c' hne
    obtain ⟨a, b, h1, h2, h3⟩ := Grid.C07_cells_disjoint g hv c.1 c'.1 c.2 c'.2 (by intro h; exact hne (Fin.ext h))
    have ea : boxOf g c.1 = a := by rw [boxOf, h1]; rfl
    have eb : boxOf g c'.1 = b := by rw [boxOf, h2]; rfl
    have := aedisjoint (boxOf_spec g hv c.1 c.2).2.1 (boxOf_spec g hv c'.1 c'.2).2.1 (by rw [ea, eb]; exact h3)
    exact this.mono Set.inter_subset_right Set.inter_subset_right
  have hm : ∀ c : Fin g.numCells, NullMeasurableSet (S ∩ region g.length (boxOf g c.1)) volume :=
    fun c => (hS.inter (measurable_region (boxOf_spec g hv c.1 c.2).2.1)).nullMeasurableSet
  have h := integral_iUnion_ae hm hd hi
  rw [tsum_fintype] at h
  have h2 : integralOver (S ∩ region g.length g.domain) F =
      ∑ c : Fin g.numCells, integralOver (S ∩ region g.length (boxOf g c.1)) F := by
    unfold integralOver
    rw [e]
    exact h
  rw [h2]
  generalize g.numCells = N
  exact sum_range N fun c => integralOver (S ∩ region g.length (boxOf g c)) F

end Qugar.BoxMeasure
