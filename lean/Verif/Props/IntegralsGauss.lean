import Verif.Props.Integrals
import Verif.Props.Classify
import Verif.Lemmas.BoxMonomial
/-
Property theorems C92: the classification by measured volumes, and the Gauss rules of full cells.
-/
namespace Qugar.Integrals
open Spec BoxMeasure Tree
open MeasureTheory hiding integral

/-! ### Gauss rules -/

/-- `Gauss` with the numbers of the table as real numbers. quadrature.cpp:89-99. -/
noncomputable def gaussReal : QuadType ℝ :=
  ⟨gaussType.nMax, fun n i => (gaussType.abscissa n i : ℝ), fun n i => (gaussType.weight n i : ℝ)⟩

/-- In the box `b` the function is a polynomial of degree at most `2n-1` in each direction: it is a sum of monomials in the coordinates of
the unit cube, with the exponents `m.2` and the coefficients `m.1`, whose absolute values add up to at most `C`. -/
def IsPolynomial (n : Nat) (C : ℝ) (F : List ℝ → ℝ) (b : List (ℝ × ℝ)) : Prop :=
  ∃ terms : List (ℝ × List Nat), (∀ m ∈ terms, m.2.length = b.length ∧ ∀ k ∈ m.2, k ≤ 2 * n - 1) ∧
    (terms.map fun m => |m.1|).sum ≤ C ∧
    ∀ p : List ℝ, p.length = b.length → F (List.zipWith (fun iv x => iv.1 + x * (iv.2 - iv.1)) b p) =
      (terms.map fun m => m.1 * (List.zipWith (fun x k => x ^ k) p m.2).prod).sum

theorem tensorRule_cast (dirs : List (List (ℚ × ℚ))) :
    tensorRule (dirs.map fun l => l.map fun xw => ((xw.1 : ℝ), (xw.2 : ℝ))) =
      (tensorRule dirs).map fun x => (x.1.map fun y => (y : ℝ), (x.2 : ℝ)) := by
  unfold tensorRule
  have : ∀ (dirs : List (List (ℚ × ℚ))) (acc : List (Node ℚ)),
      (dirs.map fun l => l.map fun xw => ((xw.1 : ℝ), (xw.2 : ℝ))).foldl
        (fun acc dir => dir.flatMap fun xw => acc.map fun pv => (pv.1 ++ [xw.1], pv.2 * xw.2))
        (acc.map fun x => (x.1.map fun y => (y : ℝ), (x.2 : ℝ))) =
      (dirs.foldl (fun acc dir => dir.flatMap fun xw => acc.map fun pv => (pv.1 ++ [xw.1], pv.2 * xw.2)) acc).map
        fun x => (x.1.map fun y => (y : ℝ), (x.2 : ℝ)) := by
    intro dirs
    induction dirs with
    | nil => intro acc; rfl
    | cons dir dirs ih =>
      intro acc
      rw [List.map_cons, List.foldl_cons, List.foldl_cons, ← ih]
      congr 1
      rw [List.flatMap_map, List.map_flatMap]
      congr 1
      funext xw
      rw [List.map_map, List.map_map]
      apply List.map_congr_left
      intro x _
      simp
  have h := this dirs [([], 1)]
  simpa using h

theorem unitRule_cast (d n : Nat) :
    unitRule gaussReal d n = (unitRule gaussType d n).map fun x => (x.1.map fun y => (y : ℝ), (x.2 : ℝ)) := by
  unfold unitRule
  rw [← tensorRule_cast]
  simp only [List.map_replicate, List.map_map]
  rfl

theorem monomial_cast (ks : List Nat) (p : List ℚ) :
    ((productFunction (ks.map fun k => fun x : ℚ => x ^ k) p : ℚ) : ℝ) =
      (List.zipWith (fun x k => x ^ k) (p.map fun y => (y : ℝ)) ks).prod := by
  unfold productFunction
  induction ks generalizing p with
  | nil => simp
  | cons k ks ih =>
    cases p with
    | nil => simp
    | cons y p => simp [ih p]

/-- The Gauss rule of the unit cube integrates the monomials. -/
theorem gauss_monomial (d n : Nat) (hd : 1 ≤ d ∧ d ≤ 3) (hn : 1 ≤ n ∧ n ≤ 100) (ks : List Nat) (hl : ks.length = d)
    (hk : ∀ k ∈ ks, k ≤ 2 * n - 1) :
    |((unitRule gaussReal d n).map fun x => x.2 * (List.zipWith (fun x k => x ^ k) x.1 ks).prod).sum -
      (ks.map fun (k : Nat) => 1 / ((k : ℝ) + 1)).prod| ≤ (1 + 1 / 10 ^ 33) ^ d - 1 := by
  obtain ⟨r, h1, _, _, _, _, h⟩ := C22_gauss_unit_cube d n hd hn
  have e := create01_defined gaussType d n hd (by exact hn)
  rw [h1] at e
  obtain rfl := Option.some.inj e
  have h := h ks hl hk
  have e1 : integral (Rule.ofNodes (unitRule gaussType d n)).points (Rule.ofNodes (unitRule gaussType d n)).weights
      (productFunction (ks.map fun k => fun x : ℚ => x ^ k)) =
      ((unitRule gaussType d n).map fun x => x.2 * productFunction (ks.map fun k => fun x : ℚ => x ^ k) x.1).sum := by
    unfold integral Rule.ofNodes
    rw [List.zipWith_map, List.zipWith_self]
  rw [e1] at h
  have h' : ((|((unitRule gaussType d n).map fun x => x.2 * productFunction (ks.map fun k => fun x : ℚ => x ^ k) x.1).sum -
      (ks.map fun (k : Nat) => 1 / ((k : ℚ) + 1)).prod| : ℚ) : ℝ) ≤ (((1 + 1 / 10 ^ 33) ^ d - 1 : ℚ) : ℝ) := by exact_mod_cast h
  rw [unitRule_cast, List.map_map]
  have e2 : (((unitRule gaussType d n).map fun x => x.2 * productFunction (ks.map fun k => fun x : ℚ => x ^ k) x.1).sum : ℝ) =
      ((unitRule gaussType d n).map ((fun x => x.2 * (List.zipWith (fun x k => x ^ k) x.1 ks).prod) ∘
        fun x : Node ℚ => (x.1.map fun y => (y : ℝ), (x.2 : ℝ)))).sum := by
    rw [Rat.cast_list_sum, List.map_map]
    congr 1
    apply List.map_congr_left
    intro x _
    simp only [Function.comp, Rat.cast_mul, monomial_cast]
  have e3 : (((ks.map fun (k : Nat) => 1 / ((k : ℚ) + 1)).prod : ℚ) : ℝ) = (ks.map fun (k : Nat) => 1 / ((k : ℝ) + 1)).prod := by
    rw [Rat.cast_list_prod, List.map_map]
    congr 1
    apply List.map_congr_left
    intro k _
    simp
  rw [Rat.cast_abs, Rat.cast_sub, e2, e3] at h'
  refine h'.trans (le_of_eq ?_)
  push_cast
  rfl

theorem unitRule_length_mem (d n : Nat) (x : Node ℝ) (hx : x ∈ unitRule gaussReal d n) : x.1.length = d := by
  have h := tensorRule_mem _ x hx
  rw [← h.length_eq]
  simp

theorem sum_abs_le (l : List (ℝ × List Nat)) (A B : List Nat → ℝ) (ε : ℝ) (h : ∀ m ∈ l, |A m.2 - B m.2| ≤ ε) :
    |(l.map fun m => m.1 * A m.2).sum - (l.map fun m => m.1 * B m.2).sum| ≤ (l.map fun m => |m.1|).sum * ε := by
  induction l with
  | nil => simp
  | cons m l ih =>
    have i := ih fun m hm => h m (by simp [hm])
    have j : |m.1 * (A m.2 - B m.2)| ≤ |m.1| * ε := by
      rw [abs_mul]
      exact mul_le_mul_of_nonneg_left (h m (by simp)) (abs_nonneg _)
    simp only [List.map_cons, List.sum_cons]
    rw [abs_le] at i j ⊢
    constructor <;> nlinarith [i.1, i.2, j.1, j.2]

theorem prod_zip_fin {d : Nat} (ks : List Nat) (hl : ks.length = d) (p : Fin d → ℝ) :
    (List.zipWith (fun x k => x ^ k) (List.ofFn p) ks).prod = ∏ i : Fin d, p i ^ (ks[i.1]'(by omega)) := by
  rw [← List.prod_ofFn]
  congr 1
  apply List.ext_getElem
  · simp [hl]
  · intro i h1 h2; simp

theorem scaled_ofFn {d : Nat} {b : List (ℝ × ℝ)} (hb : b.length = d) (hlt : ∀ iv ∈ b, iv.1 < iv.2) (x : Fin d → ℝ) :
    List.zipWith (fun iv y => iv.1 + y * (iv.2 - iv.1)) b (List.ofFn fun i : Fin d =>
      (x i - (b[i.1]'(by omega)).1) / ((b[i.1]'(by omega)).2 - (b[i.1]'(by omega)).1)) = List.ofFn x := by
  apply List.ext_getElem
  · simp [hb]
  · intro i h1 h2
    have hi : i < b.length := by simp at h2; omega
    have := hlt _ (List.getElem_mem hi)
    have hne : b[i].2 - b[i].1 ≠ 0 := by linarith
    simp only [List.getElem_zipWith, List.getElem_ofFn]
    field_simp
    ring

/-- The exact integral of a polynomial over a box. -/
theorem integral_polynomial {d : Nat} {b : List (ℝ × ℝ)} (hb : b.length = d) (hlt : ∀ iv ∈ b, iv.1 < iv.2) (F : List ℝ → ℝ)
    (terms : List (ℝ × List Nat)) (hm : ∀ m ∈ terms, m.2.length = d)
    (hF : ∀ p : List ℝ, p.length = b.length → F (List.zipWith (fun iv x => iv.1 + x * (iv.2 - iv.1)) b p) =
      (terms.map fun m => m.1 * (List.zipWith (fun x k => x ^ k) p m.2).prod).sum) :
    IntegrableOn (fun x => F (List.ofFn x)) (region d b) ∧ integralOver (region d b) F =
      boxVolume b * (terms.map fun m => m.1 * (m.2.map fun (k : Nat) => 1 / ((k : ℝ) + 1)).prod).sum := by
  have e : (fun x : Fin d → ℝ => F (List.ofFn x)) = fun x : Fin d → ℝ => (terms.map fun m => m.1 * (List.zipWith (fun x k => x ^ k)
      (List.ofFn fun i : Fin d => (x i - (b[i.1]'(by omega)).1) / ((b[i.1]'(by omega)).2 - (b[i.1]'(by omega)).1)) m.2).prod).sum := by
    funext x
    rw [← hF _ (by simp [hb]), scaled_ofFn hb hlt]
  unfold integralOver
  rw [e]
  clear e hF
  induction terms with
  | nil => simp
  | cons m terms ih =>
    obtain ⟨i1, i2⟩ := ih fun m hm' => hm m (by simp [hm'])
    have hl := hm m (by simp)
    have e2 : (fun x : Fin d → ℝ => m.1 * (List.zipWith (fun x k => x ^ k)
        (List.ofFn fun i : Fin d => (x i - (b[i.1]'(by omega)).1) / ((b[i.1]'(by omega)).2 - (b[i.1]'(by omega)).1)) m.2).prod) =
        fun x : Fin d → ℝ => m.1 * ∏ i : Fin d,
          ((x i - (b[i.1]'(by omega)).1) / ((b[i.1]'(by omega)).2 - (b[i.1]'(by omega)).1)) ^ (m.2[i.1]'(by omega)) := by
      funext x
      rw [prod_zip_fin m.2 hl]
    have j1 : IntegrableOn (fun x : Fin d → ℝ => m.1 * (List.zipWith (fun x k => x ^ k)
        (List.ofFn fun i : Fin d => (x i - (b[i.1]'(by omega)).1) / ((b[i.1]'(by omega)).2 - (b[i.1]'(by omega)).1)) m.2).prod)
        (region d b) := by
      rw [e2]
      exact (integrable_monomial hb fun i => m.2[i.1]'(by omega)).const_mul _
    simp only [List.map_cons, List.sum_cons]
    refine ⟨j1.add i1, ?_⟩
    rw [integral_add j1 i1, i2, e2, integral_const_mul, integral_monomial hb hlt fun i => m.2[i.1]'(by omega), mul_add]
    congr 1
    have : (m.2.map fun (k : Nat) => 1 / ((k : ℝ) + 1)).prod = ∏ i : Fin d, (1 / (((m.2[i.1]'(by omega) : Nat) : ℝ) + 1)) := by
      rw [← List.prod_ofFn]
      congr 1
      apply List.ext_getElem
      · simp [hl]
      · intro i h1 h2; simp
    rw [this]
    ring

/-- **C92** (full cells). The Gauss rule with `n` points integrates polynomials of degree at most `2n-1` in each direction over full cells,
up to the rounding of the table. -/
theorem C92_full_cells (g : Grid ℝ) (hv : g.Valid) (hg : g.length = 2 ∨ g.length = 3) (F : List ℝ → ℝ) (n : Nat) (hn : 1 ≤ n ∧ n ≤ 100)
    (C : ℝ) (hF : ∀ c, c < g.numCells → IsPolynomial n C F (boxOf g c)) :
    FullAccurate gaussReal g F n (C * ((1 + 1 / 10 ^ 33) ^ g.length - 1)) := by
  intro c hc
  obtain ⟨_, s2, s3, _⟩ := boxOf_spec g hv c hc
  obtain ⟨terms, h1, h2, h3⟩ := hF c hc
  rw [(integral_polynomial s2 s3 F terms (fun m hm => by rw [(h1 m hm).1, s2]) h3).2]
  unfold ruleSum
  rw [integral_nodes, ← mul_sub, abs_mul, abs_of_pos (boxVolume_pos s3), mul_comm]
  refine mul_le_mul_of_nonneg_right ?_ (boxVolume_pos s3).le
  have e : ((unitRule gaussReal g.length n).map fun x => x.2 * F (List.zipWith (fun iv x => iv.1 + x * (iv.2 - iv.1)) (boxOf g c) x.1)).sum =
      (terms.map fun m => m.1 *
        ((unitRule gaussReal g.length n).map fun x => x.2 * (List.zipWith (fun x k => x ^ k) x.1 m.2).prod).sum).sum := by
    have e1 : ∀ x ∈ unitRule gaussReal g.length n, x.2 * F (List.zipWith (fun iv x => iv.1 + x * (iv.2 - iv.1)) (boxOf g c) x.1) =
        (terms.map fun m => m.1 * (x.2 * (List.zipWith (fun x k => x ^ k) x.1 m.2).prod)).sum := by
      intro x hx
      rw [h3 _ (by rw [unitRule_length_mem _ _ x hx, s2]), ← List.sum_map_mul_left]
      congr 1
      apply List.map_congr_left
      intro m _
      ring
    rw [List.map_congr_left e1]
    generalize unitRule gaussReal g.length n = l
    clear e1 h1 h2 h3
    induction l with
    | nil => simp
    | cons x l ih =>
      simp only [List.map_cons, List.sum_cons, ih, mul_add]
      rw [List.sum_map_add]
  rw [e]
  have hε : (0 : ℝ) ≤ (1 + 1 / 10 ^ 33) ^ g.length - 1 := by
    have : (1 : ℝ) ≤ (1 + 1 / 10 ^ 33) ^ g.length := one_le_pow₀ (by norm_num)
    linarith
  refine (sum_abs_le terms (fun ks => ((unitRule gaussReal g.length n).map fun x => x.2 * (List.zipWith (fun x k => x ^ k) x.1 ks).prod).sum)
    (fun ks => (ks.map fun (k : Nat) => 1 / ((k : ℝ) + 1)).prod) _ fun m hm => gauss_monomial g.length n (by omega) hn m.2
      (by rw [(h1 m hm).1, s2]) (h1 m hm).2).trans ?_
  exact mul_le_mul_of_nonneg_right h2 hε

/-! ### Classification by the measured volume -/

/-- General functions: the volume that Algoim measures in the cells near the interface has an error of at most `ε`. -/
def VolumeAccurate (oo : Oracles ℝ) (g : Grid ℝ) (phi : List ℝ → ℝ) (measured : Box ℝ → ℝ) (ε : ℝ) : Prop :=
  ∀ c ∈ nearCells oo g, |measured (boxOf g c) - measureOf (inside g.length phi ∩ region g.length (boxOf g c))| ≤ ε

theorem measure_diff {d : Nat} {b : List (ℝ × ℝ)} (hb : b.length = d) (h : ∀ iv ∈ b, iv.1 ≤ iv.2) {S : Set (Fin d → ℝ)} (hS : MeasurableSet S) :
    measureOf (region d b \ S) = boxVolume b - measureOf (S ∩ region d b) := by
  have h1 : measureOf (region d b ∩ S) + measureOf (region d b \ S) = measureOf (region d b) := by
    unfold measureOf
    rw [← ENNReal.toReal_add, measure_inter_add_diff _ hS]
    · exact ((measure_mono Set.inter_subset_left).trans_lt (volume_region_lt_top hb)).ne
    · exact ((measure_mono Set.diff_subset).trans_lt (volume_region_lt_top hb)).ne
  rw [measureOf_region hb h, Set.inter_comm] at h1
  linarith

/-- The cells of `nearCells` are cells of the grid. -/
theorem nearCells_lt {o : Oracles ℝ} {g : Grid ℝ} {c : Nat} (h : c ∈ nearCells o g) : c < g.numCells :=
  List.mem_range.1 (List.mem_filter.1 h).1

/-- **C92** (general functions). If Algoim measures the volumes of the cells near the interface with an error of at most `ε`, and integrates
over cut cells with an error of at most `η`, the integral over the domain of a function that is bounded by `M` and a polynomial of degree at
most `2n-1` in each cell has an error of at most `max(η, M (tol + ε))` for each cell near the interface, besides the rounding of the table
of Gauss points. -/
theorem C92_general (debug debug' : Bool) (oo : Oracles ℝ) (g : Grid ℝ) (hv : g.Valid) (hg : g.length = 2 ∨ g.length = 3)
    (hm : 0 ≤ oo.margin) (phi : List ℝ → ℝ) (hs : SoundSign phi oo.sign) (hO : MeasurableSet (inside g.length phi)) (tol : ℝ) (htol : 0 ≤ tol)
    (measured : Box ℝ → ℝ) (hcell : oo.cell = classifyCell tol none measured) (ε : ℝ) (hε : 0 ≤ ε)
    (hmeas : VolumeAccurate oo g phi measured ε)
    (F : List ℝ → ℝ) (hF : IntegrableOn (fun x => F (List.ofFn x)) (region g.length g.domain)) (M : ℝ) (hM0 : 0 ≤ M)
    (hM : ∀ x ∈ region g.length g.domain, |F (List.ofFn x)| ≤ M) (n : Nat) (hn : 1 ≤ n ∧ n ≤ 100) (C : ℝ) (hC : 0 ≤ C)
    (hpoly : ∀ c, c < g.numCells → IsPolynomial n C F (boxOf g c)) (history : List (QuadCall ℝ))
    (hd : ∀ c ∈ history, c.dim = 2 ∨ c.dim = 3) (ch : Cache ℝ) (hr : QuadCall.execAll debug' gaussReal history Cache.init = some ch)
    (q : QOracle ℝ) (hq : q.isBezier = false) (hpts : ∀ c ∈ nearCells oo g, ∀ x ∈ q.volGen (boxOf g c) n, x.1.length = g.length) (η : ℝ)
    (hη : ∀ c ∈ nearCells oo g, |((q.volGen (boxOf g c) n).map fun x => x.2 * F x.1).sum -
      integralOver (inside g.length phi ∩ region g.length (boxOf g c)) F| ≤ η) :
    ∃ d ch' x, build debug oo g none = .ok d ∧ createQuadrature gaussReal q g d (List.range g.numCells) n ch = some (ch', x) ∧
      |arraysSum (boxOf g) F x.cells x.nPts x.points x.weights - integralOver (inside g.length phi ∩ region g.length g.domain) F| ≤
        (nearCells oo g).length * max η (M * (tol + ε)) + C * ((1 + 1 / 10 ^ 33) ^ g.length - 1) * boxVolume g.domain := by
  have hδ : (0 : ℝ) ≤ C * ((1 + 1 / 10 ^ 33) ^ g.length - 1) := by
    have : (1 : ℝ) ≤ (1 + 1 / 10 ^ 33) ^ g.length := one_le_pow₀ (by norm_num)
    exact mul_nonneg hC (by linarith)
  refine C92_integral debug debug' oo g hv hg hm phi hs hO F hF M hM0 hM gaussReal history hd ch hr q n hn (tol + ε) η _ (by linarith) hδ ?_
    (C92_full_cells g hv hg F n hn C hpoly)
  refine ⟨?_, ?_, ?_, fun _ => hpts⟩
  · intro c hc h
    rw [hcell, (C14_cell_verdicts tol measured (boxOf g c)).1] at h
    have h2 := hmeas c hc
    rw [abs_le] at h h2
    linarith [h.2, h2.1]
  · intro c hc h
    obtain ⟨_, s2, s3, _⟩ := boxOf_spec g hv c (nearCells_lt hc)
    rw [measure_diff s2 (fun iv hiv => (s3 iv hiv).le) hO]
    obtain ⟨_, v2, _, v4, _⟩ := C14_cell_verdicts tol measured (boxOf g c)
    rw [hcell] at h
    have h1 := (v2.1 (h.resolve_left v4)).2
    have h2 := hmeas c hc
    rw [← boxVolume_eq_volume] at h1
    rw [abs_le] at h1 h2
    linarith [h1.1, h2.2]
  · intro c hc _
    unfold algoimSum
    rw [hq, if_neg (by simp)]
    exact hη c hc

/-- **C92** (polynomials). The same for polynomials: the sign `s` of the coefficients is the sign of the polynomial in the whole domain if it
is determined, Algoim measures relative volumes, in the unit cube, with an error of at most `ε`; `V` is at least the volume of every cell
near the interface. -/
theorem C92_polynomial (debug debug' : Bool) (oo : Oracles ℝ) (g : Grid ℝ) (hv : g.Valid) (hg : g.length = 2 ∨ g.length = 3)
    (hm : 0 ≤ oo.margin) (phi : List ℝ → ℝ) (hs : SoundSign phi oo.sign) (hO : MeasurableSet (inside g.length phi)) (tol : ℝ) (htol : 0 ≤ tol)
    (measured : Box ℝ → ℝ) (s : FuncSign) (hcell : oo.cell = classifyCell tol (some s) measured)
    (hpos : s = .positive → ∀ x ∈ region g.length g.domain, 0 < phi (List.ofFn x))
    (hneg : s = .negative → ∀ x ∈ region g.length g.domain, phi (List.ofFn x) < 0) (ε V : ℝ) (hε : 0 ≤ ε) (hV0 : 0 ≤ V)
    (hV : ∀ c ∈ nearCells oo g, boxVolume (boxOf g c) ≤ V)
    (hmeas : ∀ c ∈ nearCells oo g, |measured (boxOf g c) * boxVolume (boxOf g c) -
      measureOf (inside g.length phi ∩ region g.length (boxOf g c))| ≤ ε * boxVolume (boxOf g c))
    (F : List ℝ → ℝ) (hF : IntegrableOn (fun x => F (List.ofFn x)) (region g.length g.domain)) (M : ℝ) (hM0 : 0 ≤ M)
    (hM : ∀ x ∈ region g.length g.domain, |F (List.ofFn x)| ≤ M) (n : Nat) (hn : 1 ≤ n ∧ n ≤ 100) (C : ℝ) (hC : 0 ≤ C)
    (hpoly : ∀ c, c < g.numCells → IsPolynomial n C F (boxOf g c)) (history : List (QuadCall ℝ))
    (hd : ∀ c ∈ history, c.dim = 2 ∨ c.dim = 3) (ch : Cache ℝ) (hr : QuadCall.execAll debug' gaussReal history Cache.init = some ch)
    (q : QOracle ℝ) (hq : q.isBezier = true) (η : ℝ)
    (hη : ∀ c ∈ nearCells oo g, |algoimSum q (boxOf g c) n F - integralOver (inside g.length phi ∩ region g.length (boxOf g c)) F| ≤ η) :
    ∃ d ch' x, build debug oo g none = .ok d ∧ createQuadrature gaussReal q g d (List.range g.numCells) n ch = some (ch', x) ∧
      |arraysSum (boxOf g) F x.cells x.nPts x.points x.weights - integralOver (inside g.length phi ∩ region g.length g.domain) F| ≤
        (nearCells oo g).length * max η (M * ((tol + ε) * V)) + C * ((1 + 1 / 10 ^ 33) ^ g.length - 1) * boxVolume g.domain := by
  have hδ : (0 : ℝ) ≤ C * ((1 + 1 / 10 ^ 33) ^ g.length - 1) := by
    have : (1 : ℝ) ≤ (1 + 1 / 10 ^ 33) ^ g.length := one_le_pow₀ (by norm_num)
    exact mul_nonneg hC (by linarith)
  have hκ : 0 ≤ (tol + ε) * V := mul_nonneg (by linarith) hV0
  refine C92_integral debug debug' oo g hv hg hm phi hs hO F hF M hM0 hM gaussReal history hd ch hr q n hn ((tol + ε) * V) η _ hκ hδ ?_
    (C92_full_cells g hv hg F n hn C hpoly)
  have hvol : ∀ c ∈ nearCells oo g, 0 ≤ boxVolume (boxOf g c) := by
    intro c hc
    obtain ⟨_, s2, s3, _⟩ := boxOf_spec g hv c (nearCells_lt hc)
    rw [← measureOf_region s2 (fun iv hiv => (s3 iv hiv).le)]
    exact ENNReal.toReal_nonneg
  refine ⟨?_, ?_, fun c hc _ => hη c hc, fun h => by rw [hq] at h; simp at h⟩
  · intro c hc h
    have hsub := (boxOf_spec g hv c (nearCells_lt hc)).2.2.2
    cases s with
    | positive =>
      have : inside g.length phi ∩ region g.length (boxOf g c) = ∅ := by
        ext x
        simp only [Set.mem_inter_iff, Set.mem_empty_iff_false, iff_false, not_and]
        intro h1 h2
        exact absurd h1 (not_lt.2 (hpos rfl x (hsub h2)).le)
      rw [this]
      simpa [measureOf] using hκ
    | negative => rw [hcell] at h; simp [classifyCell] at h
    | undetermined =>
      rw [hcell, (C14_bezier_cell_verdicts tol measured (boxOf g c)).2.2.1] at h
      have h2 := hmeas c hc
      have h3 := mul_le_mul_of_nonneg_right (abs_le.1 h).2 (hvol c hc)
      have h4 := mul_le_mul_of_nonneg_left (hV c hc) (show 0 ≤ tol + ε by linarith)
      rw [abs_le] at h2
      linarith [h2.1]
  · intro c hc h
    obtain ⟨_, s2, s3, _⟩ := boxOf_spec g hv c (nearCells_lt hc)
    have hsub := (boxOf_spec g hv c (nearCells_lt hc)).2.2.2
    cases s with
    | positive => rw [hcell] at h; simp [classifyCell] at h
    | negative =>
      have : region g.length (boxOf g c) \ inside g.length phi = ∅ := by
        ext x
        simp only [Set.mem_diff, Set.mem_empty_iff_false, iff_false, not_and, not_not]
        intro h2
        exact hneg rfl x (hsub h2)
      rw [this]
      simpa [measureOf] using hκ
    | undetermined =>
      rw [measure_diff s2 (fun iv hiv => (s3 iv hiv).le) hO]
      obtain ⟨_, v2, _, v4⟩ := (C14_bezier_cell_verdicts tol measured (boxOf g c)).2.2
      rw [hcell] at h
      have h1 := (v2.1 (h.resolve_left v4)).2
      have h2 := hmeas c hc
      have h3 := mul_le_mul_of_nonneg_right (abs_le.1 h1).1 (hvol c hc)
      have h4 := mul_le_mul_of_nonneg_left (hV c hc) (show 0 ≤ tol + ε by linarith)
      rw [abs_le] at h2
      linarith [h2.2]

/-- **C92** (the volume of the domain). The sum of the weights of all the rules, times the volumes of their cells, is the volume of the
domain up to the tolerance of the classification and the errors of Algoim in the cells near the interface. -/
theorem C92_volume (debug debug' : Bool) (oo : Oracles ℝ) (g : Grid ℝ) (hv : g.Valid) (hg : g.length = 2 ∨ g.length = 3)
    (hm : 0 ≤ oo.margin) (phi : List ℝ → ℝ) (hs : SoundSign phi oo.sign) (hO : MeasurableSet (inside g.length phi)) (tol : ℝ) (htol : 0 ≤ tol)
    (measured : Box ℝ → ℝ) (hcell : oo.cell = classifyCell tol none measured) (ε : ℝ) (hε : 0 ≤ ε)
    (hmeas : VolumeAccurate oo g phi measured ε) (n : Nat) (hn : 1 ≤ n ∧ n ≤ 100) (history : List (QuadCall ℝ))
    (hd : ∀ c ∈ history, c.dim = 2 ∨ c.dim = 3) (ch : Cache ℝ) (hr : QuadCall.execAll debug' gaussReal history Cache.init = some ch)
    (q : QOracle ℝ) (hq : q.isBezier = false) (hpts : ∀ c ∈ nearCells oo g, ∀ x ∈ q.volGen (boxOf g c) n, x.1.length = g.length) (η : ℝ)
    (hη : ∀ c ∈ nearCells oo g, |((q.volGen (boxOf g c) n).map fun x => x.2).sum -
      measureOf (inside g.length phi ∩ region g.length (boxOf g c))| ≤ η) :
    ∃ d ch' x, build debug oo g none = .ok d ∧ createQuadrature gaussReal q g d (List.range g.numCells) n ch = some (ch', x) ∧
      |arraysSum (boxOf g) (fun _ => 1) x.cells x.nPts x.points x.weights - measureOf (inside g.length phi ∩ region g.length g.domain)| ≤
        (nearCells oo g).length * max η (tol + ε) + ((1 + 1 / 10 ^ 33) ^ g.length - 1) * boxVolume g.domain := by
  have hone : ∀ S : Set (Fin g.length → ℝ), integralOver S (fun _ => 1) = measureOf S := by
    intro S
    simp [integralOver, measureOf, Measure.real]
  have hfin : volume (region g.length g.domain) ≠ ⊤ := (volume_region_lt_top (domain_length g)).ne
  have h := C92_general debug debug' oo g hv hg hm phi hs hO tol htol measured hcell ε hε hmeas (fun _ => 1)
    (integrableOn_const hfin) 1 (by norm_num) (fun x _ => by simp) n hn 1 (by norm_num) (fun c hc => ?_) history hd ch hr q hq hpts η
    (fun c hc => by rw [hone]; simpa using hη c hc)
  · simp only [hone, one_mul] at h
    exact h
  · obtain ⟨_, s2, _⟩ := boxOf_spec g hv c hc
    refine ⟨[(1, List.replicate g.length 0)], ?_, by simp, ?_⟩
    · intro m hm
      rw [List.mem_singleton] at hm
      subst hm
      exact ⟨by simp [s2], fun k hk => by rw [List.eq_of_mem_replicate hk]; omega⟩
    · intro p hp
      have : ∀ (p : List ℝ) (d : Nat), (List.zipWith (fun x k => x ^ k) p (List.replicate d 0)).prod = 1 := by
        intro p
        induction p with
        | nil => intro d; simp
        | cons y p ih =>
          intro d
          cases d with
          | zero => simp
          | succ d => simp [List.replicate_succ, ih d]
      simp [this]

end Qugar.Integrals
