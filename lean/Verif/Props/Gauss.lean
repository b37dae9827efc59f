import Verif.Lemmas.GaussCheck0
import Verif.Lemmas.GaussCheck1
import Verif.Lemmas.GaussCheck2
import Verif.Lemmas.GaussCheck3
import Verif.Lemmas.TanhSinhCheck
/-
Property theorems C23 and C50: the tabulated 1D quadrature rules.
-/
namespace Qugar

theorem GaussTable.blocks_length : GaussTable.blocks.length = 100 := rfl
theorem TanhSinhTable.blocks_length : TanhSinhTable.blocks.length = 100 := rfl

theorem GaussTable.checks : blocksOk (blockOk scale (10 ^ 47)) 1 blocks = true := by
  rw [blocks, blocksOk_append, blocksOk_append, blocksOk_append, check0]
  simp only [Bool.true_and, Bool.and_eq_true]
  exact ⟨⟨check1, check2⟩, check3⟩

theorem GaussTable.syms : blocksOk (normOk scale (10 ^ 7) 0) 1 blocks = true := by
  rw [blocks, blocksOk_append, blocksOk_append, blocksOk_append, sym0]
  simp only [Bool.true_and, Bool.and_eq_true]
  exact ⟨⟨sym1, sym2⟩, sym3⟩

theorem TanhSinhTable.checks : blocksOk (normOk scale (10 ^ 33) (10 ^ 33)) 1 blocks = true := by
  rw [blocks, blocksOk_append, blocksOk_append, blocksOk_append, check0]
  simp only [Bool.true_and, Bool.and_eq_true]
  exact ⟨⟨check1, check2⟩, check3⟩

/-- The values returned by the accessors for `n` points, in terms of the block of the table. -/
theorem table_access (blocks : List (List (Nat × Nat))) (hl : blocks.length = 100)
    (hb : ∀ i (hi : i < blocks.length), blocks[i].length = 1 + i) (n : Nat) (h1 : 1 ≤ n) (h2 : n ≤ 100) (j : Nat)
    (hj : j < n) :
    tableAbscissa 100 (flatTable blocks) n j =
      ((blocks[n - 1]'(by omega))[j]?).map (·.1) ∧
    tableWeight 100 (flatTable blocks) n j =
      ((blocks[n - 1]'(by omega))[j]?).map (·.2) := by
  have := flatTable_get blocks 1 hb (n - 1) (by omega) j (by omega)
  have e : 2 * 1 + (n - 1) - 1 = n := by omega
  rw [e] at this
  unfold tableAbscissa tableWeight
  rw [if_pos ⟨by omega, h2, hj⟩, if_pos ⟨by omega, h2, hj⟩]
  have e2 : (blocks[n - 1]'(by omega))[j]? = some ((blocks[n - 1]'(by omega))[j]'(by rw [hb]; omega)) :=
    List.getElem?_eq_getElem _
  rw [e2]
  exact this

/-- **C23**. For every supported number of points `n` the tabulated Gauss-Legendre rule has `n` strictly increasing
abscissae in (0,1) and `n` positive weights, is symmetric with respect to 1/2, and integrates the monomials
`1, x, ..., x^(2n-1)` over `[0,1]` with an error of at most `10^(-33)` (in particular the weights add up to one). -/
theorem C23_gauss_tables (n : Nat) (h1 : 1 ≤ n) (h2 : n ≤ 100) :
    ∃ xs ws : List ℚ, xs.length = n ∧ ws.length = n ∧
      (∀ i, i < n → GaussTable.abscissa n i = xs[i]? ∧ GaussTable.weight n i = ws[i]?) ∧
      xs.Pairwise (· < ·) ∧ (∀ x ∈ xs, 0 < x ∧ x < 1) ∧ (∀ w ∈ ws, 0 < w) ∧
      (∀ k, k ≤ 2 * n - 1 →
        |(List.zipWith (fun x w => w * x ^ k) xs ws).sum - 1 / ((k : ℚ) + 1)| ≤ 1 / 10 ^ 33) ∧
      (∀ i, i < n → ws.getD i 0 = ws.getD (n - 1 - i) 0 ∧
        |xs.getD i 0 + xs.getD (n - 1 - i) 0 - 1| ≤ 1 / 10 ^ 33) := by
  have hi : n - 1 < GaussTable.blocks.length := by rw [GaussTable.blocks_length]; omega
  have hS : 0 < GaussTable.scale := by unfold GaussTable.scale; positivity
  have hS' : (0 : ℚ) < GaussTable.scale := by exact_mod_cast hS
  have hb : ∀ i (hi : i < GaussTable.blocks.length), GaussTable.blocks[i].length = 1 + i := fun i hi =>
    (blockOk_spec _ _ _ hS _ (blocksOk_get _ 1 _ GaussTable.checks i hi)).1
  obtain ⟨q1, q2, q3, q4⟩ := blockOk_spec _ _ _ hS _ (blocksOk_get _ 1 _ GaussTable.checks (n - 1) hi)
  obtain ⟨_, _, _, _, s5⟩ := normOk_spec _ _ _ _ hS _ (blocksOk_get _ 1 _ GaussTable.syms (n - 1) hi)
  have hacc : ∀ j, j < n →
      tableAbscissa 100 (flatTable GaussTable.blocks) n j = ((GaussTable.blocks[n - 1]'hi)[j]?).map (·.1) ∧
      tableWeight 100 (flatTable GaussTable.blocks) n j = ((GaussTable.blocks[n - 1]'hi)[j]?).map (·.2) :=
    table_access GaussTable.blocks GaussTable.blocks_length hb n h1 h2
  generalize GaussTable.blocks[n - 1] = b at q1 q2 q3 q4 s5 hacc
  have hlen : b.length = n := by omega
  refine ⟨b.map fun p => (p.1 : ℚ) / GaussTable.scale, b.map fun p => (p.2 : ℚ) / GaussTable.scale, by simp [hlen],
    by simp [hlen], ?_, ?_, ?_, ?_, ?_, ?_⟩
  · intro i hin
    obtain ⟨a1, a2⟩ := hacc i hin
    simp only [GaussTable.abscissa, GaussTable.weight, a1, a2]
    rw [List.getElem?_map, List.getElem?_map]
    cases b[i]? <;> exact ⟨rfl, rfl⟩
  · rw [List.pairwise_map] at q2 ⊢
    exact q2.imp fun {a c} h => by
      apply div_lt_div_of_pos_right _ hS'
      exact_mod_cast h
  · intro x hx
    obtain ⟨p, hp, rfl⟩ := List.mem_map.1 hx
    obtain ⟨c1, c2, _⟩ := q3 p hp
    have c1' : (0 : ℚ) < p.1 := by exact_mod_cast c1
    refine ⟨by positivity, ?_⟩
    rw [div_lt_one hS']; exact_mod_cast c2
  · intro w hw
    obtain ⟨p, hp, rfl⟩ := List.mem_map.1 hw
    have : (0 : ℚ) < p.2 := by exact_mod_cast (q3 p hp).2.2
    positivity
  · intro k hk
    have := q4 k (by omega)
    have e : (List.zipWith (fun x w => w * x ^ k) (b.map fun p => (p.1 : ℚ) / GaussTable.scale)
        (b.map fun p => (p.2 : ℚ) / GaussTable.scale)).sum = ratMoment (b.map (ratRow GaussTable.scale)) k := by
      rw [List.zipWith_map]
      simp only [ratMoment, List.map_map, List.zipWith_self]
      rfl
    rw [e]
    refine this.trans ?_
    norm_num [GaussTable.scale]
  · intro i hin
    have hi' : i < b.length := by omega
    have := s5 i hi'
    have h3 : b.length - 1 - i = n - 1 - i := by omega
    have hj : n - 1 - i < b.length := by omega
    simp only [h3] at this
    simp only [List.getD_eq_getElem?_getD, List.getElem?_map, List.getElem?_eq_getElem hi',
      List.getElem?_eq_getElem hj, Option.map_some, Option.getD_some]
    refine ⟨?_, this.2.trans ?_⟩
    · have h0 := this.1
      rw [Nat.cast_zero, zero_div, abs_nonpos_iff, sub_eq_zero] at h0
      exact h0
    norm_num [GaussTable.scale]

/-- **C23** (outside of the supported range the accessors fail their assertions). -/
theorem C23_gauss_domain (n i : Nat) (h : n = 0 ∨ 100 < n ∨ n ≤ i) :
    GaussTable.abscissa n i = none ∧ GaussTable.weight n i = none := by
  unfold GaussTable.abscissa GaussTable.weight tableAbscissa tableWeight
  rw [if_neg (by omega), if_neg (by omega)]
  exact ⟨rfl, rfl⟩

/-- **C23** (polynomials). With the `n`-point rule the integral over `[0,1]` of the polynomial with coefficients `c`
(`c_0 + c_1 x + ...`, degree at most `2n-1`) is computed with an error of at most `10^(-33)` times the sum of
the absolute values of the coefficients. -/
theorem C23_gauss_polynomials (n : Nat) (h1 : 1 ≤ n) (h2 : n ≤ 100) (c : Nat → ℚ) :
    ∃ xs ws : List ℚ, (∀ i, i < n → GaussTable.abscissa n i = xs[i]? ∧ GaussTable.weight n i = ws[i]?) ∧
      xs.length = n ∧ ws.length = n ∧
      |(List.zipWith (fun x w => w * ((List.range (2 * n)).map fun k => c k * x ^ k).sum) xs ws).sum -
        ((List.range (2 * n)).map fun (k : Nat) => c k / ((k : ℚ) + 1)).sum| ≤
      1 / 10 ^ 33 * ((List.range (2 * n)).map fun k => |c k|).sum := by
  obtain ⟨xs, ws, e1, e2, e3, _, _, _, e4, _⟩ := C23_gauss_tables n h1 h2
  refine ⟨xs, ws, e3, e1, e2, ?_⟩
  have hks : ∀ k ∈ List.range (2 * n), k ≤ 2 * n - 1 := by intro k hk; rw [List.mem_range] at hk; omega
  generalize List.range (2 * n) = ks at hks
  induction ks with
  | nil =>
    have : ∀ xs ws : List ℚ, (List.zipWith (fun _ _ => (0 : ℚ)) xs ws).sum = 0 := by
      intro xs ws
      induction xs generalizing ws with
      | nil => simp
      | cons x xs ih => cases ws <;> simp [ih]
    simp [this]
  | cons k ks ih =>
    have ih' := ih (fun k hk => hks k (by simp [hk]))
    have hk := e4 k (hks k (by simp))
    simp only [List.map_cons, List.sum_cons]
    have split : ∀ (xs ws : List ℚ) (F : ℚ → ℚ), (List.zipWith (fun x w => w * (c k * x ^ k + F x)) xs ws).sum =
        c k * (List.zipWith (fun x w => w * x ^ k) xs ws).sum + (List.zipWith (fun x w => w * F x) xs ws).sum := by
      intro xs ws F
      induction xs generalizing ws with
      | nil => simp
      | cons x xs ih =>
        cases ws with
        | nil => simp
        | cons w ws => simp only [List.zipWith_cons_cons, List.sum_cons, ih]; ring
    rw [split xs ws]
    set A := (List.zipWith (fun x w => w * x ^ k) xs ws).sum
    set B := (List.zipWith (fun x w => w * (List.map (fun k => c k * x ^ k) ks).sum) xs ws).sum
    set C := (ks.map fun (k : Nat) => c k / ((k : ℚ) + 1)).sum
    have e : c k * A + B - (c k / ((k : ℚ) + 1) + C) = c k * (A - 1 / ((k : ℚ) + 1)) + (B - C) := by ring
    rw [e, mul_add]
    refine (abs_add_le _ _).trans (add_le_add ?_ ih')
    rw [abs_mul, mul_comm]
    exact mul_le_mul_of_nonneg_right hk (abs_nonneg _)

/-- **C50**. For every supported `n` the tabulated tanh-sinh rule has `n` strictly increasing abscissae in (0,1) and
`n` positive weights whose sum is one up to `10^(-33)`, and is symmetric with respect to 1/2. -/
theorem C50_tanh_sinh_tables (n : Nat) (h1 : 1 ≤ n) (h2 : n ≤ 100) :
    ∃ xs ws : List ℚ, xs.length = n ∧ ws.length = n ∧
      (∀ i, i < n → TanhSinhTable.abscissa n i = xs[i]? ∧ TanhSinhTable.weight n i = ws[i]?) ∧
      xs.Pairwise (· < ·) ∧ (∀ x ∈ xs, 0 < x ∧ x < 1) ∧ (∀ w ∈ ws, 0 < w) ∧
      |ws.sum - 1| ≤ 1 / 10 ^ 33 ∧
      (∀ i, i < n → |ws.getD i 0 - ws.getD (n - 1 - i) 0| ≤ 1 / 10 ^ 33 ∧
        |xs.getD i 0 + xs.getD (n - 1 - i) 0 - 1| ≤ 1 / 10 ^ 33) := by
  have hi : n - 1 < TanhSinhTable.blocks.length := by rw [TanhSinhTable.blocks_length]; omega
  have hS : 0 < TanhSinhTable.scale := by unfold TanhSinhTable.scale; positivity
  have hS' : (0 : ℚ) < TanhSinhTable.scale := by exact_mod_cast hS
  have hb : ∀ i (hi : i < TanhSinhTable.blocks.length), TanhSinhTable.blocks[i].length = 1 + i := fun i hi =>
    (normOk_spec _ _ _ _ hS _ (blocksOk_get _ 1 _ TanhSinhTable.checks i hi)).1
  obtain ⟨q1, q2, q3, q4, s5⟩ := normOk_spec _ _ _ _ hS _ (blocksOk_get _ 1 _ TanhSinhTable.checks (n - 1) hi)
  have hacc : ∀ j, j < n →
      tableAbscissa 100 (flatTable TanhSinhTable.blocks) n j = ((TanhSinhTable.blocks[n - 1]'hi)[j]?).map (·.1) ∧
      tableWeight 100 (flatTable TanhSinhTable.blocks) n j = ((TanhSinhTable.blocks[n - 1]'hi)[j]?).map (·.2) :=
    table_access TanhSinhTable.blocks TanhSinhTable.blocks_length hb n h1 h2
  generalize TanhSinhTable.blocks[n - 1] = b at q1 q2 q3 q4 s5 hacc
  have hlen : b.length = n := by omega
  refine ⟨b.map fun p => (p.1 : ℚ) / TanhSinhTable.scale, b.map fun p => (p.2 : ℚ) / TanhSinhTable.scale,
    by simp [hlen], by simp [hlen], ?_, ?_, ?_, ?_, ?_, ?_⟩
  · intro i hin
    obtain ⟨a1, a2⟩ := hacc i hin
    simp only [TanhSinhTable.abscissa, TanhSinhTable.weight, a1, a2]
    rw [List.getElem?_map, List.getElem?_map]
    cases b[i]? <;> exact ⟨rfl, rfl⟩
  · rw [List.pairwise_map] at q2 ⊢
    exact q2.imp fun {a c} h => by
      apply div_lt_div_of_pos_right _ hS'
      exact_mod_cast h
  · intro x hx
    obtain ⟨p, hp, rfl⟩ := List.mem_map.1 hx
    obtain ⟨c1, c2, _⟩ := q3 p hp
    have c1' : (0 : ℚ) < p.1 := by exact_mod_cast c1
    refine ⟨by positivity, ?_⟩
    rw [div_lt_one hS']; exact_mod_cast c2
  · intro w hw
    obtain ⟨p, hp, rfl⟩ := List.mem_map.1 hw
    have : (0 : ℚ) < p.2 := by exact_mod_cast (q3 p hp).2.2
    positivity
  · have e : (b.map fun p => (p.2 : ℚ) / TanhSinhTable.scale).sum =
        ratMoment (b.map (ratRow TanhSinhTable.scale)) 0 := by
      simp only [ratMoment, List.map_map, pow_zero, mul_one]
      rfl
    rw [e]
    refine q4.trans ?_
    norm_num [TanhSinhTable.scale]
  · intro i hin
    have hi' : i < b.length := by omega
    have := s5 i hi'
    have h3 : b.length - 1 - i = n - 1 - i := by omega
    have hj : n - 1 - i < b.length := by omega
    simp only [h3] at this
    simp only [List.getD_eq_getElem?_getD, List.getElem?_map, List.getElem?_eq_getElem hi',
      List.getElem?_eq_getElem hj, Option.map_some, Option.getD_some]
    refine ⟨this.1.trans ?_, this.2.trans ?_⟩ <;> norm_num [TanhSinhTable.scale]

/-- The two-point Gauss rule. -/
example : GaussTable.abscissa 2 0 = some (2113248654051871177454256097490213 / 10 ^ 34) ∧
    GaussTable.weight 2 1 = some (1 / 2) := by
  have h := table_access GaussTable.blocks GaussTable.blocks_length (fun i hi =>
    (normOk_spec _ _ _ _ (by unfold GaussTable.scale; positivity) _
      (blocksOk_get _ 1 _ GaussTable.syms i hi)).1) 2 (by norm_num) (by norm_num)
  constructor
  · rw [GaussTable.abscissa, (h 0 (by norm_num)).1]
    norm_num [GaussTable.scale, GaussTable.blocks, GaussTable.blocks0, GaussTable.b2]
  · rw [GaussTable.weight, (h 1 (by norm_num)).2]
    norm_num [GaussTable.scale, GaussTable.blocks, GaussTable.blocks0, GaussTable.b2]

end Qugar
