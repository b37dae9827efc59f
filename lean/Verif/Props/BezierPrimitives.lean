import Verif.Model.BezierPrimitives
import Verif.Props.PrimitiveSigns
import Verif.Props.Bezier
import Verif.Props.Monomials
/-
Property theorems C45: the Bezier version of each primitive has the values of the analytic version.
-/
namespace Qugar.Prim
open Spec Poly TS

/-- A polynomial in monomials with the given orders. -/
def Good (order : List Nat) (p : P ℝ) : Prop := p.order = order ∧ WellFormed order p.coefs

theorem coefAt_eq {order : List Nat} {p : P ℝ} (h : Good order p) {t : List Nat} (ht : t ∈ indices order) :
    coefAt p t = p.coefs.getD (flatIndex t order) 0 := by
  unfold coefAt
  have : flat t p.order = some (flatIndex t order) := by
    rw [h.1]; exact flat_eq (forall2_lt_iff_inSize.1 (mem_indices.1 ht))
  rw [this]

theorem good_zero (order : List Nat) (h0 : order ≠ []) (hp : ∀ n ∈ order, 0 < n) :
    Good order (zeroMon order) ∧ (∀ t ∈ indices order, coefAt (zeroMon order : P ℝ) t = 0) ∧
    ∀ x : List ℝ, x.length = order.length → Mon.eval (zeroMon order : P ℝ) x = 0 := by
  have hl : ∀ (l : List Nat) (a : Nat), l.foldl (· * ·) a = a * listProd l := by
    intro l
    induction l with
    | nil => intro a; simp [listProd]
    | cons n ns ih => intro a; rw [List.foldl_cons, ih]; simp [listProd, mul_assoc]
  have hg : Good order (zeroMon order : P ℝ) := by
    refine ⟨rfl, h0, hp, ?_⟩
    simp [zeroMon, hl]
  have hz : ∀ k, (zeroMon order : P ℝ).coefs.getD k 0 = 0 := by
    intro k
    simp only [zeroMon, List.getD_eq_getElem?_getD, List.getElem?_replicate]
    split_ifs <;> rfl
  refine ⟨hg, fun t ht => by rw [coefAt_eq hg ht, hz], fun x hx => ?_⟩
  rw [C29_value _ hg.2 x hx, tensorSum_eq]
  rw [ts_congr' (d := fun _ => (0 : ℝ)) (fun k _ => hz k), ts_zero]

theorem add_spec {order : List Nat} {p : P ℝ} (h : Good order p) {t : List Nat} (ht : t ∈ indices order) (v : ℝ) :
    Good order (addCoef p t v) ∧
    (∀ s ∈ indices order, coefAt (addCoef p t v) s = coefAt p s + if s = t then v else 0) ∧
    ∀ x : List ℝ, x.length = order.length →
      Mon.eval (addCoef p t v) x = Mon.eval p x + basisProd (monomialBasis x) t * v := by
  have hf : flat t p.order = some (flatIndex t order) := by
    rw [h.1]; exact flat_eq (forall2_lt_iff_inSize.1 (mem_indices.1 ht))
  have e : addCoef p t v = ⟨p.order, addAt p.coefs (flatIndex t order) v⟩ := by
    unfold addCoef addAt; rw [hf]
  have hg : Good order (addCoef p t v) := by
    rw [e]
    exact ⟨h.1, h.2.1, h.2.2.1, by rw [addAt_length]; exact h.2.2.2⟩
  refine ⟨hg, fun s hs => ?_, fun x hx => ?_⟩
  · rw [coefAt_eq hg hs, coefAt_eq h hs, e, getD_addAt _ _ _ (by rw [h.2.2.2]; exact flatIndex_lt' ht)]
    congr 1
    by_cases hst : s = t
    · subst hst; simp
    · rw [if_neg hst, if_neg (fun hc => hst (flatIndex_inj hs ht hc))]
  · rw [C29_value _ (by rw [hg.1]; exact hg.2) x (by rw [hg.1]; exact hx), C29_value p (by rw [h.1]; exact h.2) x (by rw [h.1]; exact hx),
      hg.1, h.1, e, tensorSum_eq, tensorSum_eq]
    exact ts_addAt order (monomialBasis x) p.coefs t ht h.2.2.2 v

theorem set_eq_add {order : List Nat} {p : P ℝ} (h : Good order p) {t : List Nat} (ht : t ∈ indices order) (v : ℝ) :
    setCoef p t v = addCoef p t (v - coefAt p t) := by
  have hf : flat t p.order = some (flatIndex t order) := by
    rw [h.1]; exact flat_eq (forall2_lt_iff_inSize.1 (mem_indices.1 ht))
  unfold setCoef addCoef
  rw [hf, coefAt_eq h ht]
  have hk : flatIndex t order < p.coefs.length := by rw [h.2.2.2]; exact flatIndex_lt' ht
  dsimp only
  congr 1
  rw [List.modify_eq_set_getElem?, List.getElem?_eq_getElem hk]
  simp [List.getD_eq_getElem?_getD, List.getElem?_eq_getElem hk]

theorem set_spec {order : List Nat} {p : P ℝ} (h : Good order p) {t : List Nat} (ht : t ∈ indices order) (v : ℝ) :
    Good order (setCoef p t v) ∧
    (∀ s ∈ indices order, coefAt (setCoef p t v) s = if s = t then v else coefAt p s) ∧
    ∀ x : List ℝ, x.length = order.length →
      Mon.eval (setCoef p t v) x = Mon.eval p x + basisProd (monomialBasis x) t * (v - coefAt p t) := by
  rw [set_eq_add h ht]
  obtain ⟨h1, h2, h3⟩ := add_spec h ht (v - coefAt p t)
  refine ⟨h1, fun s hs => ?_, h3⟩
  rw [h2 s hs]
  split_ifs with hst
  · rw [hst]; ring
  · ring

/-- The value of a polynomial built by a table of assignments. -/
theorem setAll_spec {order : List Nat} (l : List (List Nat × ℝ)) : ∀ {p : P ℝ}, Good order p →
    (∀ e ∈ l, e.1 ∈ indices order) → (l.map Prod.fst).Nodup → (∀ e ∈ l, coefAt p e.1 = 0) →
    Good order (setAll p l) ∧ ∀ x : List ℝ, x.length = order.length →
      Mon.eval (setAll p l) x = Mon.eval p x + (l.map fun e => basisProd (monomialBasis x) e.1 * e.2).sum := by
  induction l with
  | nil => intro p h _ _ _; exact ⟨h, fun x _ => by simp [setAll]⟩
  | cons e l ih =>
    intro p h hin hnd h0
    obtain ⟨h1, h2, h3⟩ := set_spec h (hin e (by simp)) e.2
    rw [List.map_cons, List.nodup_cons] at hnd
    obtain ⟨g1, g2⟩ := ih h1 (fun a ha => hin a (by simp [ha])) hnd.2 (fun a ha => by
      rw [h2 _ (hin a (by simp [ha])), if_neg, h0 a (by simp [ha])]
      intro hc
      exact hnd.1 (hc ▸ List.mem_map_of_mem ha))
    refine ⟨g1, fun x hx => ?_⟩
    have := g2 x hx
    rw [h3 x hx, h0 e (by simp), sub_zero] at this
    rw [List.map_cons, List.sum_cons, ← add_assoc]
    exact this

theorem table_spec (order : List Nat) (h0 : order ≠ []) (hp : ∀ n ∈ order, 0 < n) (l : List (List Nat × ℝ))
    (hin : ∀ e ∈ l, e.1 ∈ indices order) (hnd : (l.map Prod.fst).Nodup) (x : List ℝ) (hx : x.length = order.length) :
    Bez.eval (ofMonomials ℝ (setAll (zeroMon order) l)) x = (l.map fun e => basisProd (monomialBasis x) e.1 * e.2).sum := by
  obtain ⟨g1, g2, g3⟩ := good_zero order h0 hp
  obtain ⟨k1, k2⟩ := setAll_spec l g1 hin hnd (fun e he => g2 _ (hin e he))
  rw [(C33_conversion (K := ℝ) _ (by rw [k1.1]; exact k1.2) x (by rw [k1.1]; exact hx)).2, k2 x hx, g3 x hx, zero_add]

/-- **C45**, annulus: same value at every point. -/
theorem C45_annulus (ri ro : ℝ) (c p : List ℝ) (hc : c.length = 2) (hp : p.length = 2) :
    Bez.eval (ofMonomials ℝ (annulusMon ri ro c)) p = (annulus ri ro c).eval p := by
  obtain ⟨a, b, rfl⟩ := len2 hc
  obtain ⟨x, y, rfl⟩ := len2 hp
  unfold annulusMon
  dsimp only
  rw [table_spec _ (by simp) (by simp) _ (by simp [indices, List.range_succ]) (by simp) _ rfl]
  simp [monomialBasis, basisProd, annulus, dotp, vsub, vat]
  ring

/-- **C45**, torus: same value at every point as the torus with the axis stored by `TorusBase`. -/
theorem C45_torus (norm : List ℝ → ℝ) (hn : EuclideanNorm norm) (eps : ℝ) (R r : ℝ) (c ax p : List ℝ)
    (h : eps < norm ax) (hc : c.length = 3) (ha : ax.length = 3) (hp : p.length = 3) :
    Bez.eval (ofMonomials ℝ (torusMon norm R r c ax)) p = (torus R r c (storedAxis norm eps ax)).eval p := by
  have hz : Tol.isZero eps (norm ax) = false := by
    unfold Tol.isZero
    rw [decide_eq_false_iff_not, not_le, abs_of_nonneg (hn ax).1]
    exact h
  unfold storedAxis
  rw [hz, if_neg (by simp)]
  obtain ⟨a0, a1, a2, rfl⟩ := len3 ha
  obtain ⟨o0, o1, o2, rfl⟩ := len3 hc
  obtain ⟨x, y, z, rfl⟩ := len3 hp
  unfold torusMon
  dsimp only
  generalize norm [a0, a1, a2] = N
  rw [table_spec _ (by simp) (by simp) _ (by simp [indices, List.range_succ]) (by simp) _ rfl]
  simp only [List.map_cons, List.map_nil]
  generalize a0 / N = b0
  generalize a1 / N = b1
  generalize a2 / N = b2
  simp [monomialBasis, basisProd, torus, dotp, vsub, vat]
  ring

/-- **C45**, constants: same value at every point. -/
theorem C45_constant (dim : Nat) (hd : 0 < dim) (v : ℝ) (p : List ℝ) (hp : p.length = dim) :
    Bez.eval (constantBzr dim v) p = (constant dim v).eval p := by
  have hprod : ∀ n, listProd (List.replicate n 1) = 1 := by
    intro n; induction n with
    | zero => rfl
    | succ n ih => simp [List.replicate_succ, listProd, ih]
  have hw : WellFormed (constantBzr dim v).order (constantBzr dim v).coefs :=
    ⟨by simp [constantBzr]; omega, by simp [constantBzr], by simp [constantBzr, hprod]⟩
  rw [C30_value _ hw p (by simp [constantBzr, hp]), tensorSum_eq]
  simp only [constantBzr, constant]
  subst hp
  clear hw hd
  have : ∀ c : Nat → ℝ, ts (List.replicate p.length 1) (bernsteinBasis (List.replicate p.length 1) p) c = c 0 := by
    induction p with
    | nil => intro c; simp
    | cons t p ih =>
      intro c
      rw [List.length_cons, List.replicate_succ]
      simp only [bernsteinBasis, List.zipWith_cons_cons]
      rw [ts_cons]
      have := ih (fun k => c k)
      simp only [bernsteinBasis] at this
      simp only [Finset.range_one, Finset.sum_singleton, bernstein, Nat.sub_self, Nat.choose_self, Nat.cast_one, pow_zero,
        one_mul, one_smul, zero_add] at this ⊢
      exact this
  rw [this]; rfl

macro "mon_ops" : tactic => `(tactic| simp only [List.range_succ, List.range_zero, List.nil_append, List.cons_append,
  List.foldl_cons, List.foldl_nil, tid0, incr, List.replicate, List.set_cons_zero, List.set_cons_succ,
  List.modify_zero_cons, List.modify_succ_cons, Nat.reduceAdd, List.getD_cons_zero, List.getD_cons_succ, vat, zero_add])

/-- A polynomial with known coefficients and value at `x`. -/
structure Val (order : List Nat) (x : List ℝ) (p : P ℝ) (c : List Nat → ℝ) (v : ℝ) : Prop where
  good : Good order p
  coef : ∀ t ∈ indices order, coefAt p t = c t
  val : Mon.eval p x = v

theorem val_zero (order : List Nat) (h0 : order ≠ []) (hp : ∀ n ∈ order, 0 < n) (x : List ℝ)
    (hx : x.length = order.length) : Val order x (zeroMon order) (fun _ => 0) 0 :=
  ⟨(good_zero order h0 hp).1, (good_zero order h0 hp).2.1, (good_zero order h0 hp).2.2 x hx⟩

theorem val_add {order : List Nat} {x : List ℝ} (hx : x.length = order.length) {p : P ℝ} {c : List Nat → ℝ} {v : ℝ}
    (h : Val order x p c v) (t : List Nat) (ht : t ∈ indices order) (w : ℝ) :
    Val order x (addCoef p t w) (fun s => c s + if s = t then w else 0) (v + basisProd (monomialBasis x) t * w) := by
  obtain ⟨h1, h2, h3⟩ := add_spec h.good ht w
  exact ⟨h1, fun s hs => by rw [h2 s hs, h.coef s hs], by rw [h3 x hx, h.val]⟩

theorem val_set {order : List Nat} {x : List ℝ} (hx : x.length = order.length) {p : P ℝ} {c : List Nat → ℝ} {v : ℝ}
    (h : Val order x p c v) (t : List Nat) (ht : t ∈ indices order) (w : ℝ) :
    Val order x (setCoef p t w) (fun s => if s = t then w else c s) (v + basisProd (monomialBasis x) t * (w - c t)) := by
  obtain ⟨h1, h2, h3⟩ := set_spec h.good ht w
  exact ⟨h1, fun s hs => by rw [h2 s hs, h.coef s hs], by rw [h3 x hx, h.val, h.coef t ht]⟩

/-- Loop of additions and assignments. -/
theorem val_foldl {order : List Nat} {x : List ℝ} {α : Type} (step : P ℝ → α → P ℝ) (inc : α → ℝ) (L : List α)
    (hstep : ∀ p c v a, a ∈ L → Val order x p c v → ∃ c', Val order x (step p a) c' (v + inc a)) :
    ∀ p c v, Val order x p c v → ∃ c', Val order x (L.foldl step p) c' (v + (L.map inc).sum) := by
  induction L with
  | nil => intro p c v h; exact ⟨c, by simpa using h⟩
  | cons a L ih =>
    intro p c v h
    obtain ⟨c1, h1⟩ := hstep p c v a (by simp) h
    obtain ⟨c2, h2⟩ := ih (fun p c v b hb => hstep p c v b (by simp [hb])) _ _ _ h1
    exact ⟨c2, by simpa [add_assoc] using h2⟩

theorem val_bez {order : List Nat} {x : List ℝ} (hx : x.length = order.length) {p : P ℝ} {c : List Nat → ℝ} {v : ℝ}
    (h : Val order x p c v) : Bez.eval (ofMonomials ℝ p) x = v := by
  rw [(C33_conversion (K := ℝ) _ (by rw [h.good.1]; exact h.good.2) x (by rw [h.good.1]; exact hx)).2, h.val]

/-- Follows the operations of `create_monomials`. -/
macro "mon_val" o:term : tactic => `(tactic| (
  mon_ops
  apply Eq.trans
  · apply val_bez (order := $o) rfl
    repeat' (first
      | exact val_zero _ (by simp) (by simp) _ rfl
      | apply val_set rfl ?_ _ (by decide) _
      | apply val_add rfl ?_ _ (by decide) _)))

/-- **C45**, spheres and circles: same value at every point. -/
theorem C45_sphere (dim : Nat) (hd : dim = 2 ∨ dim = 3) (r : ℝ) (c p : List ℝ) (hc : c.length = dim)
    (hp : p.length = dim) :
    Bez.eval (ofMonomials ℝ (sphereMon dim r c)) p = (sphere dim r c).eval p := by
  rcases hd with rfl | rfl
  · obtain ⟨a, b, rfl⟩ := len2 hc
    obtain ⟨x, y, rfl⟩ := len2 hp
    unfold sphereMon
    mon_val [3, 3]
    simp [monomialBasis, basisProd, sphere, dotp, vsub, vat]
    ring
  · obtain ⟨a, b, c, rfl⟩ := len3 hc
    obtain ⟨x, y, z, rfl⟩ := len3 hp
    unfold sphereMon
    mon_val [3, 3, 3]
    simp [monomialBasis, basisProd, sphere, dotp, vsub, vat]
    ring

/-- **C45**, planes and lines: the Bezier version normalises the normal, so its value is the value of the analytic
version divided by the (positive) norm of the normal: the same sign at every point, and the same value for a unit normal. -/
theorem C45_plane (norm : List ℝ → ℝ) (dim : Nat) (hd : dim = 2 ∨ dim = 3) (o n p : List ℝ) (ho : o.length = dim)
    (hn' : n.length = dim) (hp : p.length = dim) :
    Bez.eval (ofMonomials ℝ (planeMon norm dim o n)) p = (plane dim o n).eval p / norm n := by
  rcases hd with rfl | rfl
  · obtain ⟨a, b, rfl⟩ := len2 ho
    obtain ⟨e, f, rfl⟩ := len2 hn'
    obtain ⟨x, y, rfl⟩ := len2 hp
    unfold planeMon
    generalize norm [e, f] = N
    dsimp only
    simp only [List.map_cons, List.map_nil]
    mon_val [2, 2]
    simp [monomialBasis, basisProd, plane, dotp, vsub, vat]
    ring
  · obtain ⟨a, b, c, rfl⟩ := len3 ho
    obtain ⟨e, f, g, rfl⟩ := len3 hn'
    obtain ⟨x, y, z, rfl⟩ := len3 hp
    unfold planeMon
    generalize norm [e, f, g] = N
    dsimp only
    simp only [List.map_cons, List.map_nil]
    mon_val [2, 2, 2]
    simp [monomialBasis, basisProd, plane, dotp, vsub, vat]
    ring

/-- **C45**, planes and lines with a normal that is not zero: same sign, and same value for a unit normal. -/
theorem C45_plane_sign (norm : List ℝ → ℝ) (hnorm : EuclideanNorm norm) (dim : Nat) (hd : dim = 2 ∨ dim = 3)
    (o n p : List ℝ) (ho : o.length = dim) (hn : n.length = dim) (hp : p.length = dim) (h0 : ∃ a ∈ n, a ≠ 0) :
    (Bez.eval (ofMonomials ℝ (planeMon norm dim o n)) p < 0 ↔ (plane dim o n).eval p < 0) ∧
    (0 < Bez.eval (ofMonomials ℝ (planeMon norm dim o n)) p ↔ 0 < (plane dim o n).eval p) ∧
    (dot n n = 1 → Bez.eval (ofMonomials ℝ (planeMon norm dim o n)) p = (plane dim o n).eval p) := by
  rw [C45_plane norm dim hd o n p ho hn hp]
  have hN : 0 < norm n := norm_pos hnorm (dot_self_pos h0).ne'
  refine ⟨by rw [div_lt_iff₀ hN, zero_mul], by rw [lt_div_iff₀ hN, zero_mul], fun h1 => ?_⟩
  have h2 := (hnorm n).2
  rw [h1] at h2
  have : norm n = 1 := by nlinarith
  rw [this, div_one]

/-- The additions of one direction of the frame: value added. -/
theorem block {dim : Nat} (hdim : dim = 2 ∨ dim = 3) {x : List ℝ} (hx : x.length = dim) {p : P ℝ} {c : List Nat → ℝ} {v : ℝ}
    (h : Val (List.replicate dim 3) x p c v) (w0 : ℝ) (w1 : Nat → ℝ) (w2 : Nat → Nat → ℝ) :
    ∃ c', Val (List.replicate dim 3) x ((List.range dim).foldl (fun p i =>
        (List.range dim).foldl (fun p j => addCoef p (incr (incr (tid0 dim) i) j) (w2 i j))
          (addCoef p (incr (tid0 dim) i) (w1 i))) (addCoef p (tid0 dim) w0)) c'
      (v + basisProd (monomialBasis x) (tid0 dim) * w0 +
        ((List.range dim).map fun i => basisProd (monomialBasis x) (incr (tid0 dim) i) * w1 i +
          ((List.range dim).map fun j => basisProd (monomialBasis x) (incr (incr (tid0 dim) i) j) * w2 i j).sum).sum) := by
  have hx' : x.length = (List.replicate dim 3).length := by simp [hx]
  have i0 : tid0 dim ∈ indices (List.replicate dim 3) := by
    rcases hdim with rfl | rfl <;> decide
  have i1 : ∀ i ∈ List.range dim, incr (tid0 dim) i ∈ indices (List.replicate dim 3) := by
    rcases hdim with rfl | rfl <;> decide
  have i2 : ∀ i ∈ List.range dim, ∀ j ∈ List.range dim, incr (incr (tid0 dim) i) j ∈ indices (List.replicate dim 3) := by
    rcases hdim with rfl | rfl <;> decide
  refine val_foldl _ _ _ ?_ _ _ _ (val_add hx' h _ i0 w0)
  intro p c v i hi hv
  obtain ⟨c', h'⟩ := val_foldl (fun p j => addCoef p (incr (incr (tid0 dim) i) j) (w2 i j))
    (fun j => basisProd (monomialBasis x) (incr (incr (tid0 dim) i) j) * w2 i j) (List.range dim)
    (fun p c v j hj hv => ⟨_, val_add hx' hv _ (i2 i hi j hj) _⟩) _ _ _ (val_add hx' hv _ (i1 i hi) (w1 i))
  exact ⟨c', by rw [← add_assoc]; exact h'⟩

/-- **C45**, ellipses and ellipsoids: same value at every point, for every frame. -/
theorem C45_ellipsoid (dim : Nat) (hd : dim = 2 ∨ dim = 3) (semi o p : List ℝ) (basis : List (List ℝ))
    (hs : semi.length = dim) (ho : o.length = dim) (hp : p.length = dim) (hb : basis.length = dim)
    (hv : ∀ v ∈ basis, v.length = dim) :
    Bez.eval (ofMonomials ℝ (ellipsoidMon dim semi o basis)) p = (ellipsoid dim semi o basis).eval p := by
  have hx' : p.length = (List.replicate dim 3).length := by simp [hp]
  have i0 : tid0 dim ∈ indices (List.replicate dim 3) := by
    rcases hd with rfl | rfl <;> decide
  have hinit := val_set hx' (val_zero (List.replicate dim 3) (by rcases hd with rfl | rfl <;> simp)
    (by rcases hd with rfl | rfl <;> simp) p hx') (tid0 dim) i0 (-1)
  have hstep : ∀ q c v dir, dir ∈ List.range dim → Val (List.replicate dim 3) p q c v → _ :=
    fun q c v dir _ hv => block hd hp hv (dotp (basis.getD dir []) o * dotp (basis.getD dir []) o * (1 / vat semi dir / vat semi dir))
      (fun i => -2 * vat (basis.getD dir []) i * dotp (basis.getD dir []) o * (1 / vat semi dir / vat semi dir))
      (fun i j => vat (basis.getD dir []) i * vat (basis.getD dir []) j * (1 / vat semi dir / vat semi dir))
  obtain ⟨c', h'⟩ := val_foldl _ (fun dir => _) (List.range dim)
    (fun q c v dir hdir hv => by have := hstep q c v dir hdir hv; simp only [add_assoc] at this; exact this) _ _ _ hinit
  refine (val_bez hx' h').trans ?_
  clear hinit hstep h' i0
  rcases hd with rfl | rfl
  · obtain ⟨a, b, rfl⟩ := len2 ho
    obtain ⟨s0, s1, rfl⟩ := len2 hs
    obtain ⟨v0, v1, rfl⟩ := len2 hb
    obtain ⟨e00, e01, rfl⟩ := len2 (hv v0 (by simp))
    obtain ⟨e10, e11, rfl⟩ := len2 (hv v1 (by simp))
    obtain ⟨x, y, rfl⟩ := len2 hp
    simp [monomialBasis, basisProd, ellipsoid, dotp, vsub, vat, List.range_succ, tid0, incr, List.replicate]
    ring
  · obtain ⟨a, b, c, rfl⟩ := len3 ho
    obtain ⟨s0, s1, s2, rfl⟩ := len3 hs
    obtain ⟨v0, v1, v2, rfl⟩ := len3 hb
    obtain ⟨e00, e01, e02, rfl⟩ := len3 (hv v0 (by simp))
    obtain ⟨e10, e11, e12, rfl⟩ := len3 (hv v1 (by simp))
    obtain ⟨e20, e21, e22, rfl⟩ := len3 (hv v2 (by simp))
    obtain ⟨x, y, z, rfl⟩ := len3 hp
    simp [monomialBasis, basisProd, ellipsoid, dotp, vsub, vat, List.range_succ, tid0, incr, List.replicate]
    ring

theorem unit_along_unique {u w v : List ℝ} (hu : IsUnitAlong u v) (hw : IsUnitAlong w v) : u = w := by
  obtain ⟨u1, s, hs, rfl⟩ := hu
  obtain ⟨w1, t, ht, rfl⟩ := hw
  rw [dot_map] at u1 w1
  have hst : s = t := by
    have hne : dot v v ≠ 0 := fun h => by rw [h] at u1; simp at u1
    have h2 : s * s = t * t := mul_right_cancel₀ hne (u1.trans w1.symm)
    nlinarith [mul_self_eq_mul_self_iff.1 h2]
  rw [hst]

/-- The value of the polynomial of the cylinder. -/
theorem cylinderMonOf_value (r : ℝ) (o p v0 v1 v2 : List ℝ) (ho : o.length = 3) (hp : p.length = 3) (h0 : v0.length = 3)
    (h1 : v1.length = 3) :
    Bez.eval (ofMonomials ℝ (cylinderMonOf r o [v0, v1, v2])) p =
      dot v0 (vsub p o) * dot v0 (vsub p o) + dot v1 (vsub p o) * dot v1 (vsub p o) - r * r := by
  have hx' : p.length = (List.replicate 3 3).length := by simp [hp]
  have hinit := val_set hx' (val_zero (List.replicate 3 3) (by simp) (by simp) p hx') (tid0 3) (by decide) (-r * r)
  have hstep : ∀ q c v dir, dir ∈ List.range 2 → Val (List.replicate 3 3) p q c v → _ :=
    fun q c v dir _ hv => block (.inr rfl) hp hv (dotp ([v0, v1, v2].getD dir []) o * dotp ([v0, v1, v2].getD dir []) o)
      (fun i => -2 * vat ([v0, v1, v2].getD dir []) i * dotp ([v0, v1, v2].getD dir []) o)
      (fun i j => vat ([v0, v1, v2].getD dir []) i * vat ([v0, v1, v2].getD dir []) j)
  obtain ⟨c', h'⟩ := val_foldl _ (fun dir => _) (List.range 2)
    (fun q c v dir hdir hv => by have := hstep q c v dir hdir hv; simp only [add_assoc] at this; exact this) _ _ _ hinit
  refine (val_bez hx' h').trans ?_
  clear hinit hstep h'
  obtain ⟨a, b, c, rfl⟩ := len3 ho
  obtain ⟨e00, e01, e02, rfl⟩ := len3 h0
  obtain ⟨e10, e11, e12, rfl⟩ := len3 h1
  obtain ⟨x, y, z, rfl⟩ := len3 hp
  simp [monomialBasis, basisProd, dotp, vsub, vat, List.range_succ, tid0, incr, List.replicate, dot3]
  ring

/-- **C45**, cylinders: same value at every point as the cylinder with the axis stored by `CylinderBase`. -/
theorem C45_cylinder (norm : List ℝ → ℝ) (hn : EuclideanNorm norm) (eps tol : ℝ) (he : 0 ≤ eps) (ht0 : 0 ≤ tol)
    (ht1 : tol < 1) (r : ℝ) (o ax p : List ℝ) (h : eps < norm ax) (ho : o.length = 3) (ha : ax.length = 3)
    (hp : p.length = 3) :
    ∃ m, cylinderMon norm eps tol r o ax = some m ∧
      Bez.eval (ofMonomials ℝ m) p = (cylinder r o (storedAxis norm eps ax)).eval p := by
  obtain ⟨v0, v1, v2, h1, hon, hl0, hl1, hu⟩ :
      ∃ x y z, RefSystem.ofAxis3 norm eps tol ax = some [x, y, z] ∧ Orthonormal [x, y, z] ∧ x.length = 3 ∧ y.length = 3 ∧
        IsUnitAlong z ax := by
    obtain ⟨x, y, z, q1, q2, q3, q4⟩ := (C28_one_axis_3D norm hn eps tol ht0 ht1 ax ha).2 he h
    have : x.length = 3 ∧ y.length = 3 := by
      unfold triple at q3
      split at q3
      · exact ⟨rfl, rfl⟩
      · exact absurd q3 (by simp)
    exact ⟨x, y, z, q1, q2, this.1, this.2, q4⟩
  refine ⟨_, by unfold cylinderMon; rw [h1]; rfl, ?_⟩
  rw [cylinderMonOf_value r o p v0 v1 v2 ho hp hl0 hl1, ← unit_along_unique hu (C44_stored_axis norm hn eps he ax h)]
  have hl2 : v2.length = 3 := by
    obtain ⟨_, s, _, rfl⟩ := hu
    simpa using ha
  obtain ⟨a, b, c, rfl⟩ := len3 ho
  obtain ⟨e00, e01, e02, rfl⟩ := len3 hl0
  obtain ⟨e10, e11, e12, rfl⟩ := len3 hl1
  obtain ⟨e20, e21, e22, rfl⟩ := len3 hl2
  obtain ⟨x, y, z, rfl⟩ := len3 hp
  obtain ⟨c1, c2, c3, c4, c5, c6⟩ := complete3 hon
  simp [cylinder, dotp, vsub, dot3]
  linear_combination (x - a) * (x - a) * c1 + (y - b) * (y - b) * c2 + (z - c) * (z - c) * c3 +
    2 * (x - a) * (y - b) * c4 + 2 * (x - a) * (z - c) * c5 + 2 * (y - b) * (z - c) * c6

/-- Concrete case (non-vacuity): a plane of normal `(3, 4)` and a circle, at a point inside both. -/
example : (sphere 2 (2 : ℝ) [1, 0]).eval [1, 1] = -3 ∧ (plane 2 [1, 0] [(3 : ℝ), 4]).eval [0, 0] = -3 := by
  simp [sphere, plane, dotp, vsub]; norm_num

/-- The torus and cylinder theorems apply to the default axis. -/
example (norm : List ℝ → ℝ) (hn : EuclideanNorm norm) : (1 / 10 ^ 10 : ℝ) < norm [0, 0, 1] := by
  have h := (hn [0, 0, 1]).2
  have h0 := (hn [0, 0, 1]).1
  simp [dot3] at h
  nlinarith

end Qugar.Prim
