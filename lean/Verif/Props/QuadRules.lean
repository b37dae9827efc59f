import Verif.Props.QuadExamples
import Mathlib.Tactic.FieldSimp
import Mathlib.Data.Real.Sqrt
/-
Property theorem C22: tensor-product rules.
-/
namespace Qugar
open Spec
variable {K : Type} [Field K] [LinearOrder K] [IsStrictOrderedRing K]

/-- The rules for `1 ≤ n ≤ n_max` points have their abscissae in `[0,1]`. -/
def UnitAbscissae (q : QuadType K) : Prop :=
  ∀ n, 1 ≤ n → n ≤ q.nMax → ∀ i < n, 0 ≤ q.abscissa n i ∧ q.abscissa n i ≤ 1

/-- The weights of the rules for `1 ≤ n ≤ n_max` points add up to one. -/
def UnitWeights (q : QuadType K) : Prop :=
  ∀ n, 1 ≤ n → n ≤ q.nMax → ((List.range n).map fun i => q.weight n i).sum = 1

omit [LinearOrder K] [IsStrictOrderedRing K] in
theorem ofNodes_integral (l : List (Node K)) (F : List K → K) :
    integral (Rule.ofNodes l).points (Rule.ofNodes l).weights F = (l.map fun x => x.2 * F x.1).sum := by
  unfold integral Rule.ofNodes
  congr 1
  induction l with
  | nil => rfl
  | cons a l ih => simpa using ih

omit [LinearOrder K] [IsStrictOrderedRing K] in
theorem productFunction_one (p : List K) : productFunction (p.map fun _ => fun _ => (1 : K)) p = 1 := by
  induction p with
  | nil => rfl
  | cons a p ih => simpa [productFunction] using ih

omit [LinearOrder K] [IsStrictOrderedRing K] in
theorem mappedRule_sum (q : QuadType K) (n : Nat) (iv : K × K) (f : K → K) :
    ((mappedRule q n iv).map fun xw => xw.2 * f xw.1).sum =
      (iv.2 - iv.1) * ((List.range n).map fun i => q.weight n i * f (iv.1 + q.abscissa n i * (iv.2 - iv.1))).sum := by
  unfold mappedRule
  rw [List.map_map, ← List.sum_map_mul_left]
  congr 1
  apply List.map_congr_left
  intro i _
  simp only [Function.comp]
  ring

omit [LinearOrder K] [IsStrictOrderedRing K] in
theorem volume_prod (b : Box K) : b.volume = (b.map fun iv => iv.2 - iv.1).prod := by
  unfold Box.volume
  rw [List.prod_eq_foldl, List.foldl_map]

/-- **C22** (partial: in three dimensions only for boxes whose lower corner is the origin; the full statement drops
`h3` and fails, see `C22_three_dimensional_boxes_fail`). A tensor-product rule has `n₀ n₁ …` points and as many weights,
its points are in the box, its weights add up to the volume, and it integrates every product function to the product of
the one-dimensional mapped rules. -/
theorem C22_tp_rules_partial (q : QuadType K) (hq : UnitAbscissae q) (ns : List Nat) (b : Box K) (hb : b.Valid)
    (h3 : b.length = 3 → ∀ iv ∈ b, iv.1 = 0) (r : Rule K) (h : createTp q ns b = some r) :
    r.numPoints = ns.prod ∧ r.points.length = r.weights.length ∧
    (∀ p ∈ r.points, List.Forall₂ (fun iv x => iv.1 ≤ x ∧ x ≤ iv.2) b p) ∧
    (UnitWeights q → r.weights.sum = (b.map fun iv => iv.2 - iv.1).prod) ∧ b.volume = (b.map fun iv => iv.2 - iv.1).prod ∧
    (∀ fs : List (K → K), fs.length = b.length → integral r.points r.weights (productFunction fs) =
      (List.zipWith (fun f (nb : Nat × (K × K)) => (nb.2.2 - nb.2.1) *
        ((List.range nb.1).map fun i => q.weight nb.1 i *
          f (nb.2.1 + q.abscissa nb.1 i * (nb.2.2 - nb.2.1))).sum) fs (ns.zip b)).prod) := by
  obtain ⟨h1, hd1, hd3, h2, rfl⟩ := createTp_eq q ns b r h h3
  clear hd1 hd3
  have hzip : List.zipWith (mappedRule q) ns b = (ns.zip b).map fun nb => mappedRule q nb.1 nb.2 := by
    rw [List.zip, List.map_zipWith]
  have hI : ∀ fs : List (K → K), fs.length = b.length →
      integral (Rule.ofNodes (tensorRule (List.zipWith (mappedRule q) ns b))).points
        (Rule.ofNodes (tensorRule (List.zipWith (mappedRule q) ns b))).weights (productFunction fs) =
      (List.zipWith (fun f (nb : Nat × (K × K)) => (nb.2.2 - nb.2.1) *
        ((List.range nb.1).map fun i => q.weight nb.1 i *
          f (nb.2.1 + q.abscissa nb.1 i * (nb.2.2 - nb.2.1))).sum) fs (ns.zip b)).prod := by
    intro fs hfs
    rw [ofNodes_integral, tensorRule_integral _ fs (by simp [hfs, h1]), hzip, List.zipWith_map_right]
    congr 1
    congr 1
    funext f nb
    exact mappedRule_sum q nb.1 nb.2 f
  have hlen : ∀ x ∈ tensorRule (List.zipWith (mappedRule q) ns b), x.1.length = b.length := by
    intro x hx
    rw [← (tensorRule_mem _ x hx).length_eq]
    simp [h1]
  refine ⟨?_, by simp [Rule.ofNodes], ?_, ?_, volume_prod b, hI⟩
  · simp only [Rule.numPoints, Rule.ofNodes, List.length_map, tensorRule_length]
    rw [hzip, List.map_map]
    have : ∀ (ns : List Nat) (b : Box K), ns.length = b.length →
        ((ns.zip b).map (List.length ∘ fun nb => mappedRule q nb.1 nb.2)) = ns := by
      intro ns b hl
      induction ns generalizing b with
      | nil => rfl
      | cons n ns ih =>
        cases b with
        | nil => simp at hl
        | cons iv b => simpa [mappedRule] using ih b (by simpa using hl)
    rw [this ns b h1]
  · intro p hp
    obtain ⟨x, hx, rfl⟩ := List.mem_map.1 hp
    have := tensorRule_mem _ x hx
    clear hlen hI h hp hx h3 hzip
    generalize x.1 = p at this
    induction ns generalizing b p with
    | nil =>
      cases b with
      | nil => cases this; exact List.Forall₂.nil
      | cons iv b => simp at h1
    | cons n ns ih =>
      cases b with
      | nil => simp at h1
      | cons iv b =>
        cases this with
        | @cons _ c _ cs hc hcs =>
          refine List.Forall₂.cons ?_ (ih b (fun iv h => hb iv (by simp [h])) (by simpa using h1)
            (fun n h => h2 n (by simp [h])) cs hcs)
          · obtain ⟨xw, hxw, rfl⟩ := List.mem_map.1 hc
            obtain ⟨i, hi, rfl⟩ := List.mem_map.1 hxw
            obtain ⟨h5, h6⟩ := h2 n (by simp)
            obtain ⟨a1, a2⟩ := hq n h5 h6 i (List.mem_range.1 hi)
            have := hb iv (by simp)
            constructor
            · simp only
              nlinarith
            · simp only
              nlinarith
  · intro hw
    have e : (Rule.ofNodes (tensorRule (List.zipWith (mappedRule q) ns b))).weights.sum =
        integral (Rule.ofNodes (tensorRule (List.zipWith (mappedRule q) ns b))).points
        (Rule.ofNodes (tensorRule (List.zipWith (mappedRule q) ns b))).weights
        (productFunction (b.map fun _ => fun _ => (1 : K))) := by
      rw [ofNodes_integral]
      simp only [Rule.ofNodes]
      congr 1
      apply List.map_congr_left
      intro x hx
      have : (b.map fun _ => fun _ : K => (1 : K)) = x.1.map fun _ => fun _ => (1 : K) := by
        rw [List.map_const', List.map_const', hlen x hx]
      rw [this, productFunction_one, mul_one]
    rw [e, hI _ (by simp)]
    clear e hI hlen hzip h h3
    induction ns generalizing b with
    | nil =>
      cases b with
      | nil => rfl
      | cons iv b => simp at h1
    | cons n ns ih =>
      cases b with
      | nil => simp at h1
      | cons iv b =>
        obtain ⟨h5, h6⟩ := h2 n (by simp)
        have := ih b (fun iv h => hb iv (by simp [h])) (by simpa using h1) (fun n h => h2 n (by simp [h]))
        simp only [List.map_cons, List.zip_cons_cons, List.zipWith_cons_cons, List.prod_cons, this, mul_one,
          hw n h5 h6]

/-- When a tensor-product rule is created at all: one, two or three directions, each with a supported number of
points. -/
theorem C22_when_created (q : QuadType K) (ns : List Nat) (b : Box K) :
    (∃ r, createTp q ns b = some r) ↔
      ns.length = b.length ∧ 1 ≤ b.length ∧ b.length ≤ 3 ∧ ∀ n ∈ ns, 1 ≤ n ∧ n ≤ q.nMax := by
  unfold createTp
  by_cases hall : ∀ n ∈ ns, 1 ≤ n ∧ n ≤ q.nMax
  · have : (ns.all fun n => decide (1 ≤ n ∧ n ≤ q.nMax)) = true := by simpa using hall
    rw [if_pos this]
    constructor
    · rintro ⟨r, hr⟩
      split at hr
      · exact ⟨rfl, by simp, by simp, hall⟩
      · exact ⟨rfl, by simp, by simp, hall⟩
      · exact ⟨rfl, by simp, by simp, hall⟩
      · simp at hr
    · rintro ⟨h1, h2, h3, _⟩
      match ns, b with
      | [n0], [i0] => exact ⟨_, rfl⟩
      | [n0, n1], [i0, i1] => exact ⟨_, rfl⟩
      | [n0, n1, n2], [i0, i1, i2] => exact ⟨_, rfl⟩
      | [], [] => simp at h2
      | _ :: _, [] => simp at h1
      | [], _ :: _ => simp at h1
      | _ :: _ :: _, [_] => simp at h1
      | [_], _ :: _ :: _ => simp at h1
      | _ :: _ :: _ :: _, [_, _] => simp at h1
      | [_, _], _ :: _ :: _ :: _ => simp at h1
      | _ :: _ :: _ :: _ :: _, [_, _, _] => simp at h1
      | _, _ :: _ :: _ :: _ :: _ => simp at h3; omega
  · have : ¬ (ns.all fun n => decide (1 ≤ n ∧ n ≤ q.nMax)) = true := by simpa using hall
    rw [if_neg this]
    constructor
    · rintro ⟨r, hr⟩; simp at hr
    · rintro ⟨_, _, _, h⟩; exact absurd h hall

/-- **C22** (finding). In three dimensions the lower corner of the box is not added to the points: if in the first
direction it is larger than the length of the box, no point of the rule is in the box. -/
theorem C22_three_dimensional_boxes_fail (q : QuadType K) (hq : UnitAbscissae q) (ns : List Nat) (i0 i1 i2 : K × K)
    (hb : Box.Valid [i0, i1, i2]) (h0 : i0.2 - i0.1 < i0.1) (r : Rule K)
    (h : createTp q ns [i0, i1, i2] = some r) :
    ∀ p ∈ r.points, ¬ List.Forall₂ (fun iv x => iv.1 ≤ x ∧ x ≤ iv.2) [i0, i1, i2] p := by
  obtain ⟨hl, _, _, h2⟩ := (C22_when_created q ns _).1 ⟨r, h⟩
  match ns, hl with
  | [n0, n1, n2], _ =>
    unfold createTp at h
    rw [if_pos (by simpa using h2)] at h
    injection h with h
    subst h
    intro p hp
    simp only [Rule.ofNodes, tpNodes3, List.map_flatMap, List.map_map, List.mem_flatMap, List.mem_map,
      List.mem_range, Function.comp] at hp
    obtain ⟨k, _, j, _, i, hi, rfl⟩ := hp
    intro hF
    cases hF with
    | cons h5 _ =>
      obtain ⟨h6, h7⟩ := h2 n0 (by simp)
      obtain ⟨a1, a2⟩ := hq n0 h6 h7 i hi
      have := hb i0 (by simp)
      nlinarith [h5.1]

/-- The midpoint rule meets the hypotheses. -/
example : UnitAbscissae Example.midpoint ∧ UnitWeights Example.midpoint := by
  refine ⟨fun n _ _ i _ => by norm_num [Example.midpoint], fun n h1 _ => ?_⟩
  have : ((n : ℚ)) ≠ 0 := by positivity
  simp [Example.midpoint, this]

/-- A two-dimensional rule on a box with non-zero corner. -/
example : createTp Example.midpoint [1, 2] [((1 : ℚ), 3), (2, 4)] =
    some ⟨[[2, 3], [2, 3]], [2, 2]⟩ := by decide +kernel

/-- The three-dimensional finding on `[1, 3/2] × [0, 1] × [0, 1]`, volume `1/2`. -/
example : createTp Example.midpoint [1, 1, 1] [((1 : ℚ), 3 / 2), (0, 1), (0, 1)] =
    some ⟨[[1 / 4, 1 / 2, 1 / 2]], [3 / 2]⟩ := by decide +kernel

/-! ### The Gauss rules of the unit cube -/

/-- `Gauss` as the template parameter `QuadType`. quadrature.cpp:89-99. -/
def gaussType : QuadType ℚ :=
  ⟨100, fun n i => (GaussTable.abscissa n i).getD 0, fun n i => (GaussTable.weight n i).getD 0⟩

theorem range_map_getD {α : Type} (xs : List α) (e : α) : (List.range xs.length).map (fun i => xs.getD i e) = xs := by
  apply List.ext_getElem
  · simp
  · intro i h1 h2
    simp [List.getElem?_eq_getElem h2]

theorem abs_prod_sub_le (ε : K) (hε : 0 ≤ ε) (as bs : List K)
    (h : List.Forall₂ (fun a b => |a - b| ≤ ε ∧ 0 ≤ b ∧ b ≤ 1) as bs) :
    |as.prod - bs.prod| ≤ (1 + ε) ^ as.length - 1 ∧ |as.prod| ≤ (1 + ε) ^ as.length := by
  induction h with
  | nil => simp
  | @cons a b as bs h1 _ ih =>
    obtain ⟨h1, h2, h3⟩ := h1
    obtain ⟨i1, i2⟩ := ih
    simp only [List.prod_cons, List.length_cons, pow_succ]
    have ha : |a| ≤ 1 + ε := by
      have : a = (a - b) + b := by ring
      rw [this]
      refine (abs_add_le _ _).trans ?_
      rw [abs_of_nonneg h2]
      linarith
    constructor
    · have e : a * as.prod - b * bs.prod = (a - b) * as.prod + b * (as.prod - bs.prod) := by ring
      rw [e]
      refine (abs_add_le _ _).trans ?_
      rw [abs_mul, abs_mul, abs_of_nonneg h2]
      have j1 : |a - b| * |as.prod| ≤ ε * (1 + ε) ^ as.length :=
        mul_le_mul h1 i2 (abs_nonneg _) hε
      have j2 : b * |as.prod - bs.prod| ≤ 1 * ((1 + ε) ^ as.length - 1) :=
        mul_le_mul h3 i1 (abs_nonneg _) (by norm_num)
      linarith
    · rw [abs_mul, mul_comm]
      exact mul_le_mul i2 ha (abs_nonneg _) (by positivity)

/-- **C22** for `create_Gauss_01`. For one, two or three dimensions and every supported number of points `n`, the Gauss
rule of the unit cube has `n^dim` points strictly inside the unit cube and as many positive weights, and integrates the
monomials `x₀^k₀ x₁^k₁ …` with all exponents at most `2n-1` to `1/((k₀+1)(k₁+1)…)` up to the rounding of the table. -/
theorem C22_gauss_unit_cube (dim n : Nat) (hd : 1 ≤ dim ∧ dim ≤ 3) (hn : 1 ≤ n ∧ n ≤ 100) :
    ∃ r, create01 gaussType dim n = some r ∧ r.numPoints = n ^ dim ∧ r.points.length = r.weights.length ∧
      (∀ p ∈ r.points, p.length = dim ∧ ∀ x ∈ p, 0 < x ∧ x < 1) ∧ (∀ w ∈ r.weights, 0 < w) ∧
      ∀ ks : List Nat, ks.length = dim → (∀ k ∈ ks, k ≤ 2 * n - 1) →
        |integral r.points r.weights (productFunction (ks.map fun k => fun x => x ^ k)) -
          (ks.map fun (k : Nat) => 1 / ((k : ℚ) + 1)).prod| ≤ (1 + 1 / 10 ^ 33) ^ dim - 1 := by
  obtain ⟨xs, ws, e1, e2, e3, _, e5, e6, e7, _⟩ := C23_gauss_tables n hn.1 hn.2
  refine ⟨_, create01_defined gaussType dim n hd (by exact hn), ?_, by simp [Rule.ofNodes], ?_, ?_, ?_⟩
  · simp [Rule.numPoints, Rule.ofNodes, unitRule_length]
  all_goals
    have hdir : ((List.range n).map fun i => (gaussType.abscissa n i, gaussType.weight n i)) = xs.zip ws := by
      apply List.ext_getElem
      · simp [e1, e2]
      · intro i h1 h2
        have hi : i < n := by simpa using h1
        obtain ⟨f1, f2⟩ := e3 i hi
        simp [gaussType, f1, f2, List.getElem?_eq_getElem (show i < xs.length by omega),
          List.getElem?_eq_getElem (show i < ws.length by omega)]
  · intro p hp
    obtain ⟨x, hx, rfl⟩ := List.mem_map.1 hp
    have h := tensorRule_mem _ x hx
    rw [hdir] at h
    refine ⟨by rw [← h.length_eq]; simp, ?_⟩
    intro y hy
    obtain ⟨i, hi, rfl⟩ := List.getElem_of_mem hy
    have := List.forall₂_iff_get.1 h
    have h2 := this.2 i (by omega) hi
    simp only [List.get_eq_getElem, List.getElem_replicate] at h2
    obtain ⟨xw, h3, h4⟩ := List.mem_map.1 h2
    rw [← h4]
    exact e5 _ (List.of_mem_zip h3).1
  · intro w hw
    obtain ⟨x, hx, rfl⟩ := List.mem_map.1 hw
    simp only [unitRule, hdir] at hx
    clear hw
    generalize dim = m at hx
    have : ∀ (ds : List (List (ℚ × ℚ))), (∀ d ∈ ds, ∀ y ∈ d, 0 < y.2) → ∀ x ∈ tensorRule ds, 0 < x.2 := by
      intro ds
      induction ds using List.reverseRecOn with
      | nil => intro _ x hx; simp [tensorRule] at hx; subst hx; norm_num
      | append_singleton ds d ih =>
        intro hds x hx
        rw [tensorRule_snoc, List.mem_flatMap] at hx
        obtain ⟨xw, h1, h2⟩ := hx
        obtain ⟨pv, h3, rfl⟩ := List.mem_map.1 h2
        exact mul_pos (ih (fun d hd => hds d (by simp [hd])) pv h3) (hds d (by simp) xw h1)
    refine this _ ?_ x hx
    intro d hd y hy
    obtain ⟨_, rfl⟩ := List.mem_replicate.1 hd
    exact e6 _ (List.of_mem_zip hy).2
  · intro ks hk1 hk2
    rw [ofNodes_integral, unitRule, tensorRule_integral _ _ (by simp [hk1]), hdir]
    have hz : List.zipWith (fun (f : ℚ → ℚ) (d : List (ℚ × ℚ)) => (d.map fun xw : ℚ × ℚ => xw.2 * f xw.1).sum)
        (ks.map fun k => fun x => x ^ k) (List.replicate dim (xs.zip ws)) =
        ks.map fun k => ((xs.zip ws).map fun xw : ℚ × ℚ => xw.2 * xw.1 ^ k).sum := by
      apply List.ext_getElem
      · simp [hk1]
      · intro i h1 h2
        simp
    rw [hz]
    have hf : List.Forall₂ (fun a b : ℚ => |a - b| ≤ 1 / 10 ^ 33 ∧ 0 ≤ b ∧ b ≤ 1)
        (ks.map fun k => ((xs.zip ws).map fun xw : ℚ × ℚ => xw.2 * xw.1 ^ k).sum)
        (ks.map fun (k : Nat) => 1 / ((k : ℚ) + 1)) := by
      rw [List.forall₂_map_left_iff, List.forall₂_map_right_iff, List.forall₂_same]
      intro k hk
      refine ⟨?_, by positivity, ?_⟩
      · have := e7 k (hk2 k hk)
        rw [List.zip, List.map_zipWith]
        exact this
      · rw [div_le_one (by positivity)]
        have : (0 : ℚ) ≤ k := by positivity
        linarith
    have := (abs_prod_sub_le (1 / 10 ^ 33 : ℚ) (by positivity) _ _ hf).1
    rwa [List.length_map, hk1] at this

end Qugar
