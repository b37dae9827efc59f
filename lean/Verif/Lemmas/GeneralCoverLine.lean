import Verif.Lemmas.GeneralCover
/-
The columns over a line.
-/
namespace Qugar.General
open Roots Mesh Poly Reparam Spec TS
variable {K : Type} [Field K] [LinearOrder K]

/-- The intervals over the base coordinate `s` of interval `i`. -/
def overIv (E : Env K) (F : Fn K) (T L : Level K) (x0 : List K) (i : Nat) (s : K) : Option (Intervals K) :=
  computeSimilar E F false T (refOf E F false T (midPoint L (breaks E F L x0) x0 i)) (x0.set L.dir s)

/-- The column of the interval `i` of the base and the interval `i2` of the height. -/
def colAt (E : Env K) (F : Fn K) (T L : Level K) (x0 : List K) (i i2 : Nat) : Column K :=
  ⟨T.dir, ((breaks E F L x0).getD i (0, -1)).1, ((breaks E F L x0).getD (i + 1) (0, -1)).1,
    fun s => (overIv E F T L x0 i s).elim 0 fun iv => (iv.roots.getD i2 (0, -1)).1,
    fun s => (overIv E F T L x0 i s).elim 0 fun iv => (iv.roots.getD (i2 + 1) (0, -1)).1⟩

/-- An interval of a sorted list that holds a value. -/
theorem exists_step {s : K} : ∀ (l : List (Root K)) (x b : Root K), (x :: l).Pairwise (fun r s => r.1 ≤ s.1) → (x :: l).getLast? = some b →
    x.1 ≤ s → s ≤ b.1 → x.1 < b.1 →
    ∃ i r0 r1, (x :: l)[i]? = some r0 ∧ (x :: l)[i + 1]? = some r1 ∧ r0.1 < r1.1 ∧ r0.1 ≤ s ∧ s ≤ r1.1 := by
  intro l
  induction l with
  | nil =>
    intro x b _ hb _ _ hlt
    simp only [List.getLast?_singleton, Option.some.injEq] at hb
    subst hb
    exact absurd hlt (lt_irrefl _)
  | cons y l ih =>
    intro x b hp hb h1 h2 hlt
    rw [List.pairwise_cons] at hp
    have hxy := hp.1 y (by simp)
    rw [List.getLast?_cons_cons] at hb
    have rc := fun (hy : y.1 ≤ s) (hyb : y.1 < b.1) => ih y b hp.2 hb hy h2 hyb
    have lift : (∃ i r0 r1, (y :: l)[i]? = some r0 ∧ (y :: l)[i + 1]? = some r1 ∧ r0.1 < r1.1 ∧ r0.1 ≤ s ∧ s ≤ r1.1) →
        ∃ i r0 r1, (x :: y :: l)[i]? = some r0 ∧ (x :: y :: l)[i + 1]? = some r1 ∧ r0.1 < r1.1 ∧ r0.1 ≤ s ∧ s ≤ r1.1 := by
      rintro ⟨i, r0, r1, a, b, c⟩
      exact ⟨i + 1, r0, r1, by rw [List.getElem?_cons_succ]; exact a, by rw [List.getElem?_cons_succ]; exact b, c⟩
    by_cases hsy : s ≤ y.1
    · rcases eq_or_lt_of_le hxy with c | c
      · exact lift (rc (by rw [← c]; exact h1) (by rw [← c]; exact hlt))
      · exact ⟨0, x, y, rfl, rfl, c, h1, hsy⟩
    · exact lift (rc (le_of_lt (not_le.1 hsy)) (lt_of_lt_of_le (not_le.1 hsy) h2))

theorem place_eq {c : Column K} {d : Nat} (hc : c.dir < 2) (hd : d = 1 - c.dir) {x0 : List K} (hx0 : x0.length = 2) (s t : K) :
    (x0.set d s).set c.dir t = c.place s t := by
  match x0, hx0 with
  | [a, b], _ =>
    obtain ⟨k, hk⟩ : ∃ k, k = c.dir := ⟨_, rfl⟩
    unfold Column.place
    rw [hd]
    rw [← hk] at hc ⊢
    interval_cases k <;> rfl

variable [IsStrictOrderedRing K]

/-- The intervals over a base coordinate. -/
theorem over_cases {E : Env K} {F : Fn K} {T L : Level K} {up : Bool} (hT : Top E F T up) (h : Line E T L) (hF : RootsOk F) (hs : Sound 2 F)
    (hi' : Intermediate 2 F) {x0 : List K} (hx0 : x0.length = 2) {i : Nat} {r0 r1 : Root K} (h0 : (breaks E F L x0)[i]? = some r0)
    (h1 : (breaks E F L x0)[i + 1]? = some r1) (hlt : r0.1 < r1.1) {s : K} (hs0 : r0.1 ≤ s) (hs1 : s ≤ r1.1) :
    ∃ iv, overIv E F T L x0 i s = some iv ∧ iv.active = actives E F false T (midPoint L (breaks E F L x0) x0 i) ∧
      (((∀ t, lo T ≤ t → t ≤ hi T → F.val ((midPoint L (breaks E F L x0) x0 i).set T.dir t) ≠ 0) ∧
          breaks E F T (midPoint L (breaks E F L x0) x0 i) = [(lo T, -1), (hi T, -1)] ∧ iv.roots = [(lo T, -1), (hi T, -1)]) ∨
        ∃ ρ e, (lo T ≤ ρ ∧ ρ ≤ hi T) ∧ F.val ((midPoint L (breaks E F L x0) x0 i).set T.dir ρ) = 0 ∧
          breaks E F T (midPoint L (breaks E F L x0) x0 i) = [(lo T, -1), (ρ, 0), (hi T, -1)] ∧
          (lo T ≤ e ∧ e ≤ hi T) ∧ F.val ((x0.set L.dir s).set T.dir e) = 0 ∧ iv.roots = [(lo T, -1), (e, 0), (hi T, -1)]) := by
  obtain ⟨t1, t2, t3⟩ := Line.transfer_lt hT h hF hs hi' hx0 h0 h1 hlt hs0 hs1
  rcases hT.breaks hF hs t2 with ⟨b1, b2⟩ | ⟨ρ, b1, b2, b3, b4⟩
  · refine ⟨refOf E F false T (midPoint L (breaks E F L x0) x0 i), ?_, rfl, Or.inl ⟨b1, b2, b2⟩⟩
    unfold overIv computeSimilar
    rw [if_pos (by show (breaks E F T _).length = 2; rw [b2]; rfl)]
    rfl
  · obtain ⟨e, e1, e2, e3⟩ := hT.similar_roots hF hs hi' t2 t3 t1 false ⟨b1, b2⟩ b3 b4
    exact ⟨_, e3, rfl, Or.inr ⟨ρ, e, ⟨b1, b2⟩, b3, b4, e1, e2, rfl⟩⟩

theorem active_index {E : Env K} {F : Fn K} {T : Level K} {q : List K} {i : Nat} (h : (actives E F false T q).getD i false = true) :
    i + 1 < (breaks E F T q).length := by
  by_contra hc
  rw [List.getD_eq_default _ _ (by rw [actives_length]; omega)] at h
  simp at h

/-- The columns are in the region. -/
theorem col_mem {E : Env K} {F : Fn K} {T L : Level K} {up : Bool} (hT : Top E F T up) (h : Line E T L) (hF : RootsOk F) (hs : Sound 2 F)
    (hi' : Intermediate 2 F) {x0 : List K} (hx0 : x0.length = 2) {i : Nat} {r0 r1 : Root K} (h0 : (breaks E F L x0)[i]? = some r0)
    (h1 : (breaks E F L x0)[i + 1]? = some r1) (hlt : r0.1 < r1.1) {s : K} (hs0 : r0.1 ≤ s) (hs1 : s ≤ r1.1) {i2 : Nat}
    (ha : (actives E F false T (midPoint L (breaks E F L x0) x0 i)).getD i2 false = true) :
    lo T ≤ (colAt E F T L x0 i i2).lower s ∧ (colAt E F T L x0 i i2).lower s ≤ (colAt E F T L x0 i i2).upper s ∧
    (colAt E F T L x0 i i2).upper s ≤ hi T ∧
    ∀ t, (colAt E F T L x0 i i2).lower s ≤ t → t ≤ (colAt E F T L x0 i i2).upper s → F.val ((x0.set L.dir s).set T.dir t) ≤ 0 := by
  obtain ⟨t1, t2, t3⟩ := Line.transfer_lt hT h hF hs hi' hx0 h0 h1 hlt hs0 hs1
  obtain ⟨iv, v1, v2, v3⟩ := over_cases hT h hF hs hi' hx0 h0 h1 hlt hs0 hs1
  have hi2 := active_index ha
  have hll : iv.roots.length = (breaks E F T (midPoint L (breaks E F L x0) x0 i)).length := by
    rcases v3 with ⟨_, a, b⟩ | ⟨ρ, e, _, _, a, _, _, b⟩ <;> rw [a, b] <;> rfl
  have g0 : iv.roots[i2]? = some (iv.roots.getD i2 (0, -1)) := by
    rw [List.getD_eq_getElem _ _ (by omega), List.getElem?_eq_getElem]
  have g1 : iv.roots[i2 + 1]? = some (iv.roots.getD (i2 + 1) (0, -1)) := by
    rw [List.getD_eq_getElem _ _ (by omega), List.getElem?_eq_getElem]
  have hin : ∀ r ∈ iv.roots, lo T ≤ r.1 ∧ r.1 ≤ hi T := by
    have := le_of_lt hT.level.lt
    rcases v3 with ⟨_, _, b⟩ | ⟨ρ, e, _, _, _, e1, _, b⟩
    · rw [b]; intro r hr
      simp only [List.mem_cons, List.not_mem_nil, or_false] at hr
      rcases hr with rfl | rfl
      · exact ⟨le_refl _, this⟩
      · exact ⟨this, le_refl _⟩
    · rw [b]; intro r hr
      simp only [List.mem_cons, List.not_mem_nil, or_false] at hr
      rcases hr with rfl | rfl | rfl
      · exact ⟨le_refl _, this⟩
      · exact e1
      · exact ⟨this, le_refl _⟩
  have el : (colAt E F T L x0 i i2).lower s = (iv.roots.getD i2 (0, -1)).1 := by
    show (overIv E F T L x0 i s).elim 0 _ = _
    rw [v1]; rfl
  have eu : (colAt E F T L x0 i i2).upper s = (iv.roots.getD (i2 + 1) (0, -1)).1 := by
    show (overIv E F T L x0 i s).elim 0 _ = _
    rw [v1]; rfl
  rw [el, eu]
  refine ⟨(hin _ (List.mem_of_getElem? g0)).1, hT.column_le hF hs hi' t2 t3 t1 v1 g0 g1, (hin _ (List.mem_of_getElem? g1)).2, ?_⟩
  intro t ht0 ht1
  exact hT.column hF hs hi' t2 t3 t1 v1 (by rw [v2]; exact ha) g0 g1 ht0 ht1

/-- The columns over an interval of the base cover the points where the function is negative. -/
theorem col_cover {E : Env K} {F : Fn K} {T L : Level K} {up : Bool} (hT : Top E F T up) (h : Line E T L) (hF : RootsOk F) (hs : Sound 2 F)
    (hi' : Intermediate 2 F) {x0 : List K} (hx0 : x0.length = 2) {i : Nat} {r0 r1 : Root K} (h0 : (breaks E F L x0)[i]? = some r0)
    (h1 : (breaks E F L x0)[i + 1]? = some r1) (hlt : r0.1 < r1.1) {s : K} (hs0 : r0.1 ≤ s) (hs1 : s ≤ r1.1) {t : K} (ht0 : lo T ≤ t)
    (ht1 : t ≤ hi T) (hneg : F.val ((x0.set L.dir s).set T.dir t) < 0) :
    ∃ i2, (actives E F false T (midPoint L (breaks E F L x0) x0 i)).getD i2 false = true ∧
      (colAt E F T L x0 i i2).lower s ≤ t ∧ t ≤ (colAt E F T L x0 i i2).upper s := by
  obtain ⟨t1, t2, t3⟩ := Line.transfer_lt hT h hF hs hi' hx0 h0 h1 hlt hs0 hs1
  obtain ⟨iv, v1, v2, v3⟩ := over_cases hT h hF hs hi' hx0 h0 h1 hlt hs0 hs1
  obtain ⟨q, hq⟩ : ∃ q, q = midPoint L (breaks E F L x0) x0 i := ⟨_, rfl⟩
  rw [← hq] at t1 t2 v2 v3 ⊢
  have hTlt := hT.level.lt
  have el : ∀ i2, (colAt E F T L x0 i i2).lower s = (iv.roots.getD i2 (0, -1)).1 := by
    intro i2
    show (overIv E F T L x0 i s).elim 0 _ = _
    rw [v1]; rfl
  have eu : ∀ i2, (colAt E F T L x0 i i2).upper s = (iv.roots.getD (i2 + 1) (0, -1)).1 := by
    intro i2
    show (overIv E F T L x0 i s).elim 0 _ = _
    rw [v1]; rfl
  have qneg : (up = true → F.val (q.set T.dir (lo T)) < 0) ∧ (up = false → F.val (q.set T.dir (hi T)) < 0) := by
    constructor
    · intro hu
      have h2 := lt_of_le_of_lt ((hT.le t3 (le_refl _) ht0 ht1).1 hu) hneg
      by_contra hc
      exact absurd h2 (not_lt.2 (t1.lo_pos (not_lt.1 hc)))
    · intro hu
      have h2 := lt_of_le_of_lt ((hT.le t3 ht0 ht1 (le_refl _)).2 hu) hneg
      by_contra hc
      exact absurd h2 (not_lt.2 (t1.hi_pos (not_lt.1 hc)))
  have hact : ∀ a b, a ≠ b → F.val (q.set T.dir (1 / 2 * (a + b))) ≤ 0 → activeInterval E F T q a b = true := by
    intro a b hab hv
    unfold activeInterval
    rw [tolOf_zero hT.tol, equal_zero, hT.count, List.range_one]
    simp only [hab.symm, decide_false, Bool.false_eq_true, if_false, List.all_cons, List.all_nil, Bool.and_true]
    unfold signOk
    rw [setBounds_top hT.free (by rw [List.length_set]; exact t2.1), hT.sign, if_neg (not_lt.2 hv)]
    rfl
  rcases v3 with ⟨n1, n2, n3⟩ | ⟨ρ, e, p1, p2, p3, p4, p5, p6⟩
  · refine ⟨0, ?_, by rw [el, n3]; exact ht0, by rw [eu, n3]; exact ht1⟩
    unfold actives
    rw [n2]
    show activeInterval E F T q (lo T) (hi T) = true
    refine hact _ _ (ne_of_lt hTlt) ?_
    have hm := half_le (le_of_lt hTlt)
    by_contra hc
    have hc := le_of_lt (not_le.1 hc)
    cases up with
    | true =>
      obtain ⟨z, z1, z2, z3⟩ := hi' q T.dir _ _ t2.1 hT.dir hm.1 (mul_nonpos_of_nonpos_of_nonneg (le_of_lt (qneg.1 rfl)) hc)
      exact n1 z z1 (le_trans z2 hm.2) z3
    | false =>
      obtain ⟨z, z1, z2, z3⟩ := hi' q T.dir _ _ t2.1 hT.dir hm.2 (mul_nonpos_of_nonneg_of_nonpos hc (le_of_lt (qneg.2 rfl)))
      exact n1 z (le_trans hm.1 z1) z2 z3
  · cases hu : up with
    | true =>
      have hne : lo T ≠ ρ := by
        intro hc
        have := qneg.1 hu
        rw [hc, p2] at this
        exact lt_irrefl _ this
      have hlr : lo T < ρ := lt_of_le_of_ne p1.1 hne
      refine ⟨0, ?_, by rw [el, p6]; exact ht0, ?_⟩
      · unfold actives
        rw [p3]
        show activeInterval E F T q (lo T) ρ = true
        refine hact _ _ hne ?_
        have := (hT.le t2 (show lo T ≤ 1 / 2 * (lo T + ρ) from (half_le p1.1).1) (half_le p1.1).2 p1.2).1 hu
        rwa [p2] at this
      · rw [eu, p6]
        show t ≤ e
        by_contra hc
        have := (hT.le t3 p4.1 (le_of_lt (not_le.1 hc)) ht1).1 hu
        rw [p5] at this
        exact absurd hneg (not_lt.2 this)
    | false =>
      have hne : ρ ≠ hi T := by
        intro hc
        have := qneg.2 hu
        rw [← hc, p2] at this
        exact lt_irrefl _ this
      refine ⟨1, ?_, ?_, by rw [eu, p6]; exact ht1⟩
      · unfold actives
        rw [p3]
        show activeInterval E F T q ρ (hi T) = true
        refine hact _ _ hne ?_
        have := (hT.le t2 p1.1 (half_le p1.2).1 (show 1 / 2 * (ρ + hi T) ≤ hi T from (half_le p1.2).2)).2 hu
        rwa [p2] at this
      · rw [el, p6]
        show e ≤ t
        by_contra hc
        have := (hT.le t3 ht0 (le_of_lt (not_le.1 hc)) p4.2).2 hu
        rw [p5] at this
        exact absurd hneg (not_lt.2 this)

/-- Two columns over the same interval do not overlap. -/
theorem col_apart {E : Env K} {F : Fn K} {T L : Level K} {up : Bool} (hT : Top E F T up) (h : Line E T L) (hF : RootsOk F) (hs : Sound 2 F)
    (hi' : Intermediate 2 F) {x0 : List K} (hx0 : x0.length = 2) {i : Nat} {r0 r1 : Root K} (h0 : (breaks E F L x0)[i]? = some r0)
    (h1 : (breaks E F L x0)[i + 1]? = some r1) (hlt : r0.1 < r1.1) {s : K} (hs0 : r0.1 ≤ s) (hs1 : s ≤ r1.1) {i2 i2' : Nat} (hii : i2 < i2')
    (ha : (actives E F false T (midPoint L (breaks E F L x0) x0 i)).getD i2' false = true) :
    (colAt E F T L x0 i i2).upper s ≤ (colAt E F T L x0 i i2').lower s := by
  obtain ⟨iv, v1, v2, v3⟩ := over_cases hT h hF hs hi' hx0 h0 h1 hlt hs0 hs1
  have hi2 := active_index ha
  have el : (colAt E F T L x0 i i2').lower s = (iv.roots.getD i2' (0, -1)).1 := by
    show (overIv E F T L x0 i s).elim 0 _ = _
    rw [v1]; rfl
  have eu : (colAt E F T L x0 i i2).upper s = (iv.roots.getD (i2 + 1) (0, -1)).1 := by
    show (overIv E F T L x0 i s).elim 0 _ = _
    rw [v1]; rfl
  rw [el, eu]
  rcases v3 with ⟨_, n2, n3⟩ | ⟨ρ, e, _, _, p3, _, _, p6⟩
  · rw [n2] at hi2
    simp only [List.length_cons, List.length_nil] at hi2
    omega
  · rw [p3] at hi2
    simp only [List.length_cons, List.length_nil] at hi2
    have e1 : i2' = 1 := by omega
    have e2 : i2 = 0 := by omega
    rw [e1, e2]

/-- An interval of the base below a point where the function is negative is active. -/
theorem base_active {E : Env K} {F : Fn K} {T L : Level K} {up : Bool} (hT : Top E F T up) (h : Line E T L) (hF : RootsOk F) (hs : Sound 2 F)
    (hi' : Intermediate 2 F) (hup : up = true → (L.psi.getD 0 E.psi0).sign = -1 ∧ (L.psi.getD 1 E.psi0).sign = 0)
    (hdown : up = false → (L.psi.getD 0 E.psi0).sign = 0 ∧ (L.psi.getD 1 E.psi0).sign = -1)
    {x0 : List K} (hx0 : x0.length = 2) {i : Nat} {r0 r1 : Root K} (h0 : (breaks E F L x0)[i]? = some r0)
    (h1 : (breaks E F L x0)[i + 1]? = some r1) (hlt : r0.1 < r1.1) {s : K} (hs0 : r0.1 ≤ s) (hs1 : s ≤ r1.1) {t : K} (ht0 : lo T ≤ t)
    (ht1 : t ≤ hi T) (hneg : F.val ((x0.set L.dir s).set T.dir t) < 0) : (actives E F false L x0).getD i false = true := by
  obtain ⟨t1, t2, t3⟩ := Line.transfer_lt hT h hF hs hi' hx0 h0 h1 hlt hs0 hs1
  obtain ⟨l0, e0⟩ := List.getElem?_eq_some_iff.1 h0
  obtain ⟨l1, e1⟩ := List.getElem?_eq_some_iff.1 h1
  have hm : midPoint L (breaks E F L x0) x0 i = x0.set L.dir (1 / 2 * (r0.1 + r1.1)) := by
    unfold midPoint
    rw [List.getD_eq_getElem _ _ l0, List.getD_eq_getElem _ _ l1, e0, e1]
  rw [hm] at t1
  have qneg : (up = true → F.val ((x0.set L.dir (1 / 2 * (r0.1 + r1.1))).set T.dir (lo T)) < 0) ∧
      (up = false → F.val ((x0.set L.dir (1 / 2 * (r0.1 + r1.1))).set T.dir (hi T)) < 0) := by
    constructor
    · intro hu
      have h2 := lt_of_le_of_lt ((hT.le t3 (le_refl _) ht0 ht1).1 hu) hneg
      by_contra hc
      exact absurd h2 (not_lt.2 (t1.lo_pos (not_lt.1 hc)))
    · intro hu
      have h2 := lt_of_le_of_lt ((hT.le t3 ht0 ht1 (le_refl _)).2 hu) hneg
      by_contra hc
      exact absurd h2 (not_lt.2 (t1.hi_pos (not_lt.1 hc)))
  unfold actives
  simp only [Bool.false_eq_true, if_false]
  rw [List.getD_eq_getElem _ _ (by simp; omega), List.getElem_map, List.getElem_range, List.getD_eq_getElem _ _ l0,
    List.getD_eq_getElem _ _ l1, e0, e1]
  unfold activeInterval
  rw [tolOf_zero hT.tol, equal_zero, h.count]
  simp only [(ne_of_lt hlt).symm, decide_false, Bool.false_eq_true, if_false]
  have hl : (x0.set L.dir (1 / 2 * (r0.1 + r1.1))).length = 2 := by rw [List.length_set, hx0]
  rw [List.all_eq_true]
  intro j hj
  rw [List.mem_range] at hj
  unfold signOk
  rw [setBounds_line h hT.dir hl j hj]
  cases hu : up with
  | true =>
    obtain ⟨s0, s1⟩ := hup hu
    interval_cases j
    · rw [s0]; exact (if_neg (not_lt.2 (le_of_lt (qneg.1 hu)))).trans rfl
    · rw [s1]; split <;> rfl
  | false =>
    obtain ⟨s0, s1⟩ := hdown hu
    interval_cases j
    · rw [s0]; split <;> rfl
    · rw [s1]; exact (if_neg (not_lt.2 (le_of_lt (qneg.2 hu)))).trans rfl

end Qugar.General
