import Verif.Lemmas.BezierMul
import Mathlib.Algebra.Algebra.Pi
/-
Lemmas about affine maps of coefficients, degree elevation, sums and composition of Bezier polynomials.
-/
namespace Qugar.Poly
open Spec TS Finset

section
variable {K V : Type} [Field K] [AddCommGroup V] [Module K V]

theorem getD_map_of_lt {α β : Type} (c : List α) (f : α → β) (k : Nat) (d : α) (e : β) (h : k < c.length) :
    (c.map f).getD k e = f (c.getD k d) := by
  rw [List.getD_eq_getElem?_getD, List.getElem?_map, List.getD_eq_getElem?_getD, List.getElem?_eq_getElem h]; rfl

theorem ts_const (size : List Nat) (f : List (Nat → K)) (v : V) :
    ts size f (fun _ => v) = ((indices size).map fun i => basisProd f i).sum • v := by
  unfold ts
  induction indices size with
  | nil => simp
  | cons a L ih => simp only [List.map_cons, List.sum_cons, add_smul, ← ih]

theorem wellFormed_map {W : Type} {size : List Nat} {c : List V} (h : WellFormed size c) (f : V → W) :
    WellFormed size (c.map f) := ⟨h.1, h.2.1, by simpa using h.2.2⟩

/-- Affine map of the coefficients, for an affine map between different spaces. -/
theorem eval_map_affine {W : Type} [AddCommGroup W] [Module K W] (p : P V) (hw : WellFormed p.order p.coefs) (x : List K)
    (hx : x.length = p.order.length) (g : V →ₗ[K] W) (shift : W) :
    Bez.eval ⟨p.order, p.coefs.map fun c => g c + shift⟩ x = g (Bez.eval p x) + shift := by
  rw [C30_value (P.mk p.order (p.coefs.map fun c => g c + shift)) (wellFormed_map hw _) x hx, C30_value p hw x hx, tensorSum_eq, tensorSum_eq]
  dsimp only
  have h1 : ts p.order (bernsteinBasis p.order x) (fun k => (p.coefs.map fun c => g c + shift).getD k 0) =
      ts p.order (bernsteinBasis p.order x) (fun k => g (p.coefs.getD k 0) + shift) := by
    apply ts_congr'
    intro k hk
    exact getD_map_of_lt _ _ k 0 0 (by rw [hw.2.2]; exact hk)
  rw [h1, ts_add, ts_const, sum_bernsteinBasis p.order hw.2.1 x hx, one_smul]
  congr 1
  unfold ts
  rw [map_list_sum, List.map_map]
  congr 1
  apply List.map_congr_left
  intro i _
  simp [Function.comp]

theorem linearTransform_spec (p : P V) (hw : WellFormed p.order p.coefs) (scale : K) (shift : V) (x : List K)
    (hx : x.length = p.order.length) :
    Bez.eval (linearTransform p scale shift) x = scale • Bez.eval p x + shift :=
  eval_map_affine p hw x hx (LinearMap.lsmul K V scale) shift

theorem linearTransform_wf (p : P V) (hw : WellFormed p.order p.coefs) (scale : K) (shift : V) :
    WellFormed (linearTransform p scale shift).order (linearTransform p scale shift).coefs := wellFormed_map hw _

end

section
variable {K : Type} [Field K] [CharZero K] {A : Type} [CommRing A] [Algebra K A]

theorem ones_wf {size : List Nat} (h0 : size ≠ []) (hpos : ∀ n ∈ size, 0 < n) :
    WellFormed size (List.replicate (listProd size) (1 : A)) := ⟨h0, hpos, by simp⟩

omit [CharZero K] in
theorem ones_eval {size : List Nat} (h0 : size ≠ []) (hpos : ∀ n ∈ size, 0 < n) (x : List K) (hx : x.length = size.length) :
    Bez.eval ⟨size, List.replicate (listProd size) (1 : A)⟩ x = 1 := by
  rw [C30_value ⟨size, _⟩ (ones_wf h0 hpos) x hx, tensorSum_eq]
  dsimp only
  have h1 : ts size (bernsteinBasis size x) (fun k => (List.replicate (listProd size) (1 : A)).getD k 0) =
      ts size (bernsteinBasis size x) (fun _ => (1 : A)) := by
    apply ts_congr'
    intro k hk
    rw [List.getD_eq_getElem?_getD, List.getElem?_replicate, if_pos hk]; rfl
  rw [h1, ts_const, sum_bernsteinBasis size hpos x hx, one_smul]

theorem all_le {a b : List Nat} (h : List.Forall₂ (· ≤ ·) a b) :
    (List.zipWith (fun n o => decide (o ≤ n)) b a).all id = true := by
  induction h with
  | nil => rfl
  | cons h1 _ ih => simp only [List.zipWith_cons_cons, List.all_cons, ih]; simpa using h1

theorem all_le_iff {a b : List Nat} (hl : a.length = b.length) :
    (List.zipWith (fun n o => decide (o ≤ n)) b a).all id = true ↔ List.Forall₂ (· ≤ ·) a b := by
  induction a generalizing b with
  | nil =>
    have : b = [] := List.length_eq_zero_iff.1 hl.symm
    subst this; simp
  | cons n a ih =>
    cases b with
    | nil => simp at hl
    | cons m b =>
      simp only [List.zipWith_cons_cons, List.all_cons, Bool.and_eq_true, List.forall₂_cons, ih (by simpa using hl)]
      simp

theorem prodOrder_diff {a b : List Nat} (hp : ∀ n ∈ a, 0 < n) (h : List.Forall₂ (· ≤ ·) a b) :
    prodOrder a (List.zipWith (fun n o => n - o + 1) b a) = b := by
  induction h with
  | nil => rfl
  | @cons n m a b h1 _ ih =>
    have := ih fun k hk => hp k (by simp [hk])
    have hn := hp n (by simp)
    unfold prodOrder at this ⊢
    simp only [List.zipWith_cons_cons, this]
    congr 1
    omega

/-- Degree elevation. -/
theorem raiseOrder_spec (p : P A) (hw : WellFormed p.order p.coefs) (h3 : p.order.length ≤ 3) (newOrder : List Nat)
    (hn : List.Forall₂ (· ≤ ·) p.order newOrder) : ∃ q, raiseOrder K p newOrder = some q ∧ q.order = newOrder ∧
      WellFormed q.order q.coefs ∧ ∀ x : List K, x.length = p.order.length → Bez.eval q x = Bez.eval p x := by
  unfold raiseOrder
  by_cases h : newOrder = p.order
  · rw [if_pos h]
    exact ⟨p, rfl, h.symm, hw, fun _ _ => rfl⟩
  rw [if_neg h, if_pos (all_le hn)]
  obtain ⟨diff, hdiff⟩ : ∃ d, d = List.zipWith (fun n o => n - o + 1) newOrder p.order := ⟨_, rfl⟩
  have hdl : diff.length = p.order.length := by rw [hdiff]; simp [hn.length_eq]
  have hd0 : diff ≠ [] := by
    intro h
    rw [h] at hdl
    exact hw.1 (List.length_eq_zero_iff.1 hdl.symm)
  have hdp : ∀ n ∈ diff, 0 < n := by
    intro n hn
    rw [hdiff, List.mem_iff_getElem] at hn
    obtain ⟨k, hk, rfl⟩ := hn
    simp
  dsimp only
  rw [← hdiff, tsize_eq]
  obtain ⟨e1, e2, e3⟩ := mul_spec (K := K) p ⟨diff, List.replicate (listProd diff) (1 : A)⟩ hw (ones_wf hd0 hdp) hdl h3
  refine ⟨_, rfl, ?_, e2, ?_⟩
  · rw [e1, hdiff]
    exact prodOrder_diff hw.2.1 hn
  · intro x hx
    rw [e3 x hx, ones_eval hd0 hdp x (by omega), mul_one]

/-- Sums and differences of equal orders. -/
theorem zipCoefs_spec (sub : Bool) (l r : P A) (hl : WellFormed l.order l.coefs) (hr : WellFormed r.order r.coefs)
    (ho : l.order = r.order) :
    WellFormed (zipCoefs (fun a b => if sub then a - b else a + b) l r).order
      (zipCoefs (fun a b => if sub then a - b else a + b) l r).coefs ∧
    ∀ x : List K, x.length = l.order.length → Bez.eval (zipCoefs (fun a b => if sub then a - b else a + b) l r) x =
      if sub then Bez.eval l x - Bez.eval r x else Bez.eval l x + Bez.eval r x := by
  have hlen : l.coefs.length = r.coefs.length := by rw [hl.2.2, hr.2.2, ho]
  have hwf : WellFormed (zipCoefs (fun a b => if sub then a - b else a + b) l r).order
      (zipCoefs (fun a b => if sub then a - b else a + b) l r).coefs := by
    refine ⟨hl.1, hl.2.1, ?_⟩
    change (List.zipWith _ l.coefs r.coefs).length = _
    rw [List.length_zipWith, ← hlen, min_self]
    exact hl.2.2
  refine ⟨hwf, ?_⟩
  intro x hx
  have hx' : x.length = r.order.length := by rw [← ho]; exact hx
  rw [C30_value _ hwf x hx, C30_value l hl x hx, C30_value r hr x hx', tensorSum_eq, tensorSum_eq, tensorSum_eq, ← ho]
  have hg : ∀ k < listProd l.order, (zipCoefs (fun a b => if sub then a - b else a + b) l r).coefs.getD k 0 =
      l.coefs.getD k 0 + (if sub then (-1 : K) else 1) • r.coefs.getD k 0 := by
    intro k hk
    change (List.zipWith _ l.coefs r.coefs).getD k 0 = _
    rw [getD_zipWith _ _ _ _ 0 0 _ (by rw [hl.2.2]; exact hk) (by rw [← hlen, hl.2.2]; exact hk)]
    cases sub <;> simp [sub_eq_add_neg]
  change ts l.order (bernsteinBasis l.order x) _ = _
  rw [ts_congr' hg, ts_add, ts_smul]
  cases sub <;> simp [sub_eq_add_neg]

theorem le_zipWith_max {a b : List Nat} (hl : a.length = b.length) :
    List.Forall₂ (· ≤ ·) a (List.zipWith max a b) ∧ List.Forall₂ (· ≤ ·) b (List.zipWith max a b) := by
  induction a generalizing b with
  | nil =>
    have : b = [] := List.length_eq_zero_iff.1 hl.symm
    subst this; simp
  | cons n a ih =>
    cases b with
    | nil => simp at hl
    | cons m b =>
      have := ih (b := b) (by simpa using hl)
      exact ⟨.cons (le_max_left _ _) this.1, .cons (le_max_right _ _) this.2⟩

theorem zipWith_max_of_le {a b : List Nat} (h : List.Forall₂ (· ≤ ·) a b) : List.zipWith max a b = b := by
  induction h with
  | nil => rfl
  | cons h1 _ ih => rw [List.zipWith_cons_cons, ih, max_eq_right h1]

theorem zipWith_max_of_ge {a b : List Nat} (h : List.Forall₂ (· ≤ ·) b a) : List.zipWith max a b = a := by
  induction h with
  | nil => rfl
  | cons h1 _ ih => rw [List.zipWith_cons_cons, ih, max_eq_left h1]

/-- Sums and differences. -/
theorem addSub_spec (sub : Bool) (l r : P A) (hl : WellFormed l.order l.coefs) (hr : WellFormed r.order r.coefs)
    (hd : r.order.length = l.order.length) (h3 : l.order.length ≤ 3) :
    ∃ q, addSub K (fun a b => if sub then a - b else a + b) l r = some q ∧ q.order = List.zipWith max l.order r.order ∧
      WellFormed q.order q.coefs ∧ ∀ x : List K, x.length = l.order.length →
        Bez.eval q x = if sub then Bez.eval l x - Bez.eval r x else Bez.eval l x + Bez.eval r x := by
  have hcomm : List.zipWith max r.order l.order = List.zipWith max l.order r.order :=
    List.zipWith_comm_of_comm Nat.max_comm
  unfold addSub
  by_cases h : r.order = l.order
  · rw [if_pos h]
    obtain ⟨e1, e2⟩ := zipCoefs_spec (K := K) sub l r hl hr h.symm
    refine ⟨_, rfl, ?_, e1, e2⟩
    change l.order = _
    rw [h]
    simp
  rw [if_neg h]
  dsimp only
  by_cases h1 : (List.zipWith (fun a b => decide (b ≤ a)) r.order l.order).all id = true
  · rw [if_pos h1]
    have hle := (all_le_iff hd.symm).1 h1
    obtain ⟨q, f1, f2, f3, f4⟩ := raiseOrder_spec (K := K) l hl h3 r.order hle
    obtain ⟨e1, e2⟩ := zipCoefs_spec (K := K) sub q r f3 hr f2
    refine ⟨_, by rw [f1]; rfl, ?_, e1, ?_⟩
    · rw [zipWith_max_of_le hle]; exact f2
    · intro x hx
      rw [e2 x (by rw [f2]; omega), f4 x hx]
  rw [if_neg h1]
  by_cases h2 : (List.zipWith (fun a b => decide (a ≤ b)) r.order l.order).all id = true
  · rw [if_pos h2]
    have hle : List.Forall₂ (· ≤ ·) r.order l.order := by
      apply (all_le_iff hd).1
      rw [← h2]
      congr 1
      rw [List.zipWith_comm]
    obtain ⟨q, f1, f2, f3, f4⟩ := raiseOrder_spec (K := K) r hr (by omega) l.order hle
    obtain ⟨e1, e2⟩ := zipCoefs_spec (K := K) sub l q hl f3 f2.symm
    refine ⟨_, by rw [f1]; rfl, ?_, e1, ?_⟩
    · rw [zipWith_max_of_ge hle]; rfl
    · intro x hx
      rw [e2 x hx, f4 x (by omega)]
  rw [if_neg h2]
  obtain ⟨g1, g2⟩ := le_zipWith_max (a := r.order) (b := l.order) hd
  obtain ⟨q, f1, f2, f3, f4⟩ := raiseOrder_spec (K := K) l hl h3 _ g2
  obtain ⟨s, k1, k2, k3, k4⟩ := raiseOrder_spec (K := K) r hr (by omega) _ g1
  obtain ⟨e1, e2⟩ := zipCoefs_spec (K := K) sub q s f3 k3 (by rw [f2, k2])
  refine ⟨_, by rw [f1, k1]; rfl, ?_, e1, ?_⟩
  · rw [← hcomm]; exact f2
  · intro x hx
    rw [e2 x (by rw [f2]; simp [hd, hx]), f4 x hx, k4 x (by omega)]

end

/-! ### Composition -/

section
variable {K : Type} [Field K] [CharZero K]

/-- Orders of the `k`-th power. -/
def orderPow (o : List Nat) (k : Nat) : List Nat := o.map fun a => k * (a - 1) + 1

theorem prodOrder_pow (o : List Nat) (j k : Nat) : prodOrder (orderPow o j) (orderPow o k) = orderPow o (j + k) := by
  unfold prodOrder orderPow
  rw [List.zipWith_map_left, List.zipWith_map_right, List.zipWith_self]
  apply List.map_congr_left
  intro a _
  simp only [Nat.add_sub_cancel, add_mul]

theorem orderPow_one {o : List Nat} (h : ∀ n ∈ o, 0 < n) : orderPow o 1 = o := by
  unfold orderPow
  conv_rhs => rw [← List.map_id o]
  apply List.map_congr_left
  intro a ha
  have := h a ha
  simp only [id]; omega

theorem orderPow_length (o : List Nat) (k : Nat) : (orderPow o k).length = o.length := by simp [orderPow]

/-- `q` is a polynomial of orders `o` with the values `v`. -/
def Is (o : List Nat) (n : Nat) (v : List K → K) (q : P K) : Prop :=
  q.order = o ∧ WellFormed q.order q.coefs ∧ ∀ x : List K, x.length = n → Bez.eval q x = v x

theorem Is.mul {a b : List Nat} {n : Nat} {u v : List K → K} {p q : P K} (hp : Is a n u p) (hq : Is b n v q)
    (ha : a.length = n) (hb : b.length = n) (h3 : n ≤ 3) : Is (prodOrder a b) n (fun x => u x * v x) (mul K p q) := by
  obtain ⟨p1, p2, p3⟩ := hp
  obtain ⟨q1, q2, q3⟩ := hq
  obtain ⟨e1, e2, e3⟩ := mul_spec (K := K) p q p2 q2 (by rw [p1, q1]; omega) (by rw [p1]; omega)
  refine ⟨by rw [e1, p1, q1], e2, ?_⟩
  intro x hx
  rw [e3 x (by rw [p1]; omega), p3 x hx, q3 x hx]

theorem Is.linear {a : List Nat} {n : Nat} {u : List K → K} {p : P K} (hp : Is a n u p) (ha : a.length = n) (s t : K) :
    Is a n (fun x => s * u x + t) (linearTransform p s t) := by
  obtain ⟨p1, p2, p3⟩ := hp
  refine ⟨p1, linearTransform_wf p p2 s t, ?_⟩
  intro x hx
  rw [linearTransform_spec p p2 s t x (by rw [p1]; omega), p3 x hx, smul_eq_mul]

theorem powers_spec (p : P K) (o : List Nat) (v : List K → K) (hp : Is (orderPow o 1) o.length v p) (h3 : o.length ≤ 3)
    (m : Nat) : ((List.range' 1 m).foldl (fun ps _ => ps ++ [mul K p (ps.getLastD p)]) [p]).length = m + 1 ∧
      ∀ k ≤ m, Is (orderPow o (k + 1)) o.length (fun x => v x ^ (k + 1))
        (((List.range' 1 m).foldl (fun ps _ => ps ++ [mul K p (ps.getLastD p)]) [p]).getD k p) := by
  induction m with
  | zero =>
    refine ⟨rfl, ?_⟩
    intro k hk
    have : k = 0 := by omega
    subst this
    simpa using hp
  | succ m ih =>
    obtain ⟨hl, ih⟩ := ih
    rw [List.range'_concat, List.foldl_append, List.foldl_cons, List.foldl_nil]
    generalize (List.range' 1 m).foldl (fun ps _ => ps ++ [mul K p (ps.getLastD p)]) [p] = ps at *
    have hlast : ps.getLastD p = ps.getD m p := by
      rw [List.getLastD_eq_getLast?, List.getLast?_eq_getElem?, hl, List.getD_eq_getElem?_getD]; rfl
    refine ⟨by simp [hl], ?_⟩
    intro k hk
    by_cases h : k ≤ m
    · rw [List.getD_append _ _ _ _ (by omega)]
      exact ih k h
    · have : k = m + 1 := by omega
      subst this
      rw [List.getD_append_right _ _ _ _ (by omega), hl, Nat.sub_self, List.getD_cons_zero, hlast]
      have := Is.mul hp (ih m le_rfl) (orderPow_length _ _) (orderPow_length _ _) h3
      rw [prodOrder_pow, show 1 + (m + 1) = m + 1 + 1 by omega] at this
      refine ⟨this.1, this.2.1, ?_⟩
      intro x hx
      rw [this.2.2 x hx]; ring

/-- `compose_with_Bernstein_bases_1D`. -/
theorem composeBernstein_spec (p : P K) (hw : WellFormed p.order p.coefs) (h3 : p.order.length ≤ 3) (n : Nat) (hn : 0 < n) :
    (composeBernstein p n).length = n ∧ ∀ i < n, Is (orderPow p.order (n - 1)) p.order.length
      (fun x => bernstein (n - 1) i (Bez.eval p x)) ((composeBernstein p n).getD i ⟨[], []⟩) := by
  unfold composeBernstein
  by_cases h1 : 1 < n
  · rw [if_pos h1]
    obtain ⟨deg, hdeg⟩ : ∃ d, n = d + 2 := ⟨n - 2, by omega⟩
    subst hdeg
    have hp : Is (orderPow p.order 1) p.order.length (fun x => Bez.eval p x) p :=
      ⟨(orderPow_one hw.2.1).symm, hw, fun _ _ => rfl⟩
    have hp1 : Is (orderPow p.order 1) p.order.length (fun x => 1 - Bez.eval p x) (oneMinus p) := by
      have := hp.linear (orderPow_length _ _) (-1) 1
      refine ⟨this.1, this.2.1, ?_⟩
      intro x hx
      rw [show oneMinus p = linearTransform p (-1 : K) 1 from rfl, this.2.2 x hx]; ring
    obtain ⟨l0, s0⟩ := powers_spec p p.order _ hp h3 deg
    obtain ⟨l1, s1⟩ := powers_spec (oneMinus p) p.order _ hp1 h3 deg
    dsimp only
    rw [show powers p (deg + 2) = (List.range' 1 deg).foldl (fun ps _ => ps ++ [mul K p (ps.getLastD p)]) [p] from rfl,
      show powers (oneMinus p) (deg + 2) = (List.range' 1 deg).foldl (fun ps _ => ps ++ [mul K (oneMinus p)
        (ps.getLastD (oneMinus p))]) [oneMinus p] from rfl]
    generalize (List.range' 1 deg).foldl (fun ps _ => ps ++ [mul K p (ps.getLastD p)]) [p] = p0 at *
    generalize (List.range' 1 deg).foldl (fun ps _ => ps ++ [mul K (oneMinus p)
        (ps.getLastD (oneMinus p))]) [oneMinus p] = p1 at *
    have getLastD_eq : ∀ (ps : List (P K)) (d e : P K), ps.length = deg + 1 → ps.getLastD d = ps.getD deg e := by
      intro ps d e hl
      rw [List.getLastD_eq_getLast?, List.getLast?_eq_getElem?, hl, List.getD_eq_getElem?_getD, Nat.add_sub_cancel,
        List.getElem?_eq_getElem (by omega)]; rfl
    have getD_any : ∀ (ps : List (P K)) (d e : P K) (k : Nat), k < ps.length → ps.getD k d = ps.getD k e := by
      intro ps d e k hk
      rw [List.getD_eq_getElem?_getD, List.getD_eq_getElem?_getD, List.getElem?_eq_getElem hk]; rfl
    refine ⟨by simp, ?_⟩
    intro i hi
    rw [show deg + 2 - 1 = deg + 1 by omega]
    by_cases hi0 : i = 0
    · subst hi0
      rw [List.append_assoc, List.singleton_append, List.getD_cons_zero, getLastD_eq p1 p (oneMinus p) l1]
      have := s1 deg le_rfl
      refine ⟨this.1, this.2.1, ?_⟩
      intro x hx
      rw [this.2.2 x hx]; simp [bernstein]
    by_cases hid : i = deg + 1
    · subst hid
      rw [List.getD_append_right _ _ _ _ (by simp)]
      simp only [List.length_append, List.length_cons, List.length_nil, List.length_map, List.length_range']
      rw [show deg + 1 - (0 + 1 + (deg + 1 - 1)) = 0 by omega, List.getD_cons_zero, getLastD_eq p0 p p l0]
      have := s0 deg le_rfl
      refine ⟨this.1, this.2.1, ?_⟩
      intro x hx
      rw [this.2.2 x hx]; simp [bernstein]
    · rw [List.getD_append _ _ _ _ (by simp; omega), List.getD_append_right _ _ _ _ (by simp; omega)]
      simp only [List.length_cons, List.length_nil]
      rw [getD_map_of_lt _ _ _ 0 _ (by simp; omega), show (List.range' 1 (deg + 1 - 1)).getD (i - (0 + 1)) 0 = i by
        rw [List.getD_eq_getElem?_getD, List.getElem?_range' (by omega)]; simp; omega]
      rw [getD_any p1 p (oneMinus p) _ (by omega)]
      have a := s0 (i - 1) (by omega)
      have b := s1 (deg + 1 - 1 - i) (by omega)
      have := (a.mul b (orderPow_length _ _) (orderPow_length _ _) h3)
      rw [prodOrder_pow, show i - 1 + 1 + (deg + 1 - 1 - i + 1) = deg + 1 by omega] at this
      have := this.linear (orderPow_length _ _) (((deg + 1).choose i : Nat) : K) 0
      refine ⟨this.1, this.2.1, ?_⟩
      intro x hx
      rw [this.2.2 x hx]
      dsimp only
      rw [add_zero]
      unfold bernstein
      rw [show i - 1 + 1 = i by omega, show deg + 1 - 1 - i + 1 = deg + 1 - i by omega]
      ring
  · rw [if_neg h1]
    have : n = 1 := by omega
    subst this
    refine ⟨rfl, ?_⟩
    intro i hi
    have : i = 0 := by omega
    subst this
    rw [List.getD_cons_zero]
    have ho : orderPow p.order (1 - 1) = p.order.map fun _ => 1 := by simp [orderPow]
    have hprod : ∀ o : List Nat, listProd (o.map fun _ => 1) = 1 := by
      intro o
      induction o with
      | nil => rfl
      | cons a o ih => simp only [List.map_cons, listProd, ih, mul_one]
    have h0 : (p.order.map fun _ => 1) ≠ [] := by simpa using hw.1
    have hpos : ∀ n ∈ p.order.map (fun _ => 1), 0 < n := by intro n hn; simp at hn; omega
    refine ⟨ho.symm, ⟨h0, hpos, (hprod _).symm⟩, ?_⟩
    intro x hx
    have := ones_eval (A := K) h0 hpos x (by simpa using hx)
    rw [hprod] at this
    rw [show ([1] : List K) = List.replicate 1 1 from rfl, this]
    simp [bernstein]

end

end Qugar.Poly
