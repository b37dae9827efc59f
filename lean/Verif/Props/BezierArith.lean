import Verif.Lemmas.BezierCompose
/-
C34: arithmetic of Bezier polynomials (bezier_tp.cpp, bezier_tp_utils.cpp, bezier_tp_utils_composition.cpp);
C36: transforms of the image (polynomial_tp.cpp).
-/
namespace Qugar.Poly
open Spec TS Finset

/-! ### C34 -/

section
variable {K : Type} [Field K] [CharZero K] {A : Type} [CommRing A] [Algebra K A]

/-- **C34** (product): `lhs * rhs` has the sum of the degrees and evaluates to the product of the values (componentwise for
points: `A = Fin m → K`). -/
theorem C34_product (l r : P A) (hl : WellFormed l.order l.coefs) (hr : WellFormed r.order r.coefs)
    (hd : r.order.length = l.order.length) (h3 : l.order.length ≤ 3) :
    (mul K l r).order = List.zipWith (fun a b => (a - 1) + (b - 1) + 1) l.order r.order ∧
    WellFormed (mul K l r).order (mul K l r).coefs ∧
    ∀ x : List K, x.length = l.order.length → Bez.eval (mul K l r) x = Bez.eval l x * Bez.eval r x :=
  mul_spec l r hl hr hd h3

/-- **C34** (sum). -/
theorem C34_sum (l r : P A) (hl : WellFormed l.order l.coefs) (hr : WellFormed r.order r.coefs)
    (hd : r.order.length = l.order.length) (h3 : l.order.length ≤ 3) :
    ∃ q, addSub K (fun a b => a + b) l r = some q ∧ q.order = List.zipWith max l.order r.order ∧
      WellFormed q.order q.coefs ∧ ∀ x : List K, x.length = l.order.length → Bez.eval q x = Bez.eval l x + Bez.eval r x := by
  simpa using addSub_spec (K := K) false l r hl hr hd h3

/-- **C34** (difference). -/
theorem C34_difference (l r : P A) (hl : WellFormed l.order l.coefs) (hr : WellFormed r.order r.coefs)
    (hd : r.order.length = l.order.length) (h3 : l.order.length ≤ 3) :
    ∃ q, addSub K (fun a b => a - b) l r = some q ∧ q.order = List.zipWith max l.order r.order ∧
      WellFormed q.order q.coefs ∧ ∀ x : List K, x.length = l.order.length → Bez.eval q x = Bez.eval l x - Bez.eval r x := by
  simpa using addSub_spec (K := K) true l r hl hr hd h3

/-- **C34** (degree elevation): defined for all higher or equal orders, and the values do not change. -/
theorem C34_raise_order (p : P A) (hw : WellFormed p.order p.coefs) (h3 : p.order.length ≤ 3) (newOrder : List Nat)
    (hn : List.Forall₂ (· ≤ ·) p.order newOrder) : ∃ q, raiseOrder K p newOrder = some q ∧ q.order = newOrder ∧
      WellFormed q.order q.coefs ∧ ∀ x : List K, x.length = p.order.length → Bez.eval q x = Bez.eval p x :=
  raiseOrder_spec p hw h3 newOrder hn

/-- Lower orders are refused. -/
theorem C34_raise_order_refused (p : P A) (newOrder : List Nat) (hl : newOrder.length = p.order.length)
    (hn : ¬ List.Forall₂ (· ≤ ·) p.order newOrder) : raiseOrder K p newOrder = none := by
  unfold raiseOrder
  rw [if_neg, if_neg]
  · rw [all_le_iff hl.symm]; exact hn
  · intro h
    apply hn
    rw [h]
    induction p.order with
    | nil => exact .nil
    | cons a l ih => exact .cons le_rfl ih

end

/-- **C34** (negation). -/
theorem C34_negate {K V : Type} [Field K] [AddCommGroup V] [Module K V] (p : P V) (hw : WellFormed p.order p.coefs)
    (x : List K) (hx : x.length = p.order.length) :
    WellFormed (negate K p).order (negate K p).coefs ∧ Bez.eval (negate K p) x = -Bez.eval p x := by
  refine ⟨linearTransform_wf p hw _ _, ?_⟩
  unfold negate
  rw [linearTransform_spec p hw _ _ x hx, neg_one_smul, add_zero]

section
variable {K : Type} [Field K] [CharZero K] {V : Type} [AddCommGroup V] [Module K V]

omit [CharZero K] in
/-- Accumulation of `basis_coef * coef`. -/
theorem accumulate_spec {α : Type} (ord : List Nat) (f : List (Nat → K)) (L : List α) (q : α → P K) (c : α → V)
    (hq : ∀ a ∈ L, (q a).coefs.length = listProd ord) : ∀ comp : List V, comp.length = listProd ord →
    (L.foldl (fun comp a => List.zipWith (· + ·) comp ((q a).coefs.map fun b => b • c a) ++ comp.drop (q a).coefs.length)
      comp).length = listProd ord ∧
    ts ord f (fun k => (L.foldl (fun comp a => List.zipWith (· + ·) comp ((q a).coefs.map fun b => b • c a) ++
      comp.drop (q a).coefs.length) comp).getD k 0) =
      ts ord f (fun k => comp.getD k 0) + (L.map fun a => ts ord f (fun k => (q a).coefs.getD k 0) • c a).sum := by
  induction L with
  | nil => intro comp hc; simp [hc]
  | cons a L ih =>
    intro comp hc
    have ha := hq a (by simp)
    rw [List.foldl_cons]
    have hdrop : comp.drop (q a).coefs.length = [] := by rw [ha, ← hc]; simp
    rw [hdrop, List.append_nil]
    obtain ⟨e1, e2⟩ := ih (fun b hb => hq b (by simp [hb])) (List.zipWith (· + ·) comp ((q a).coefs.map fun b => b • c a))
      (by simp [hc, ha])
    refine ⟨e1, ?_⟩
    rw [e2, List.map_cons, List.sum_cons, ← add_assoc]
    congr 1
    have h1 : ∀ k < listProd ord, (List.zipWith (· + ·) comp ((q a).coefs.map fun b => b • c a)).getD k 0 =
        comp.getD k 0 + (q a).coefs.getD k 0 • c a := by
      intro k hk
      rw [getD_zipWith _ _ _ _ 0 0 _ (by omega) (by simp; omega), getD_map_of_lt _ _ _ 0 _ (by omega)]
    rw [ts_congr' h1, ts_add]
    congr 1
    unfold ts
    induction indices ord with
    | nil => simp
    | cons i M ihM =>
      rw [List.map_cons, List.sum_cons, ihM, List.map_cons, List.sum_cons, add_smul, smul_smul, smul_eq_mul]

omit [CharZero K] in
theorem eval_component {m : Nat} (rhs : P (Fin m → K)) (hw : WellFormed rhs.order rhs.coefs) (x : List K)
    (hx : x.length = rhs.order.length) (k : Fin m) :
    Bez.eval (extractComponent rhs k) x = Bez.eval rhs x k := by
  have := eval_map_affine rhs hw x hx (LinearMap.proj k : (Fin m → K) →ₗ[K] K) 0
  simpa [extractComponent] using this

/-- The order of the composition. -/
theorem composeOrder (o : List Nat) (hp : ∀ n ∈ o, 0 < n) (n : List Nat) (bases : List (List (P K)))
    (h : List.Forall₂ (fun (b : List (P K)) n => (b.headD ⟨[], []⟩).order = orderPow o (n - 1)) bases n) :
    ((List.range o.length).map fun d => bases.foldl (fun c b => c + ((b.headD ⟨[], []⟩).order.getD d 0 - 1)) 1) =
      orderPow o (n.map (· - 1)).sum := by
  apply List.ext_getElem
  · simp [orderPow]
  intro d h1 h2
  have hd : d < o.length := by simpa using h1
  rw [List.getElem_map, List.getElem_range]
  simp only [orderPow, List.getElem_map]
  have key : ∀ c : Nat, bases.foldl (fun c b => c + ((b.headD ⟨[], []⟩).order.getD d 0 - 1)) c =
      c + (n.map (· - 1)).sum * (o[d] - 1) := by
    clear h1 h2
    induction h with
    | nil => intro c; simp
    | @cons b k bs ns hb _ ih =>
      intro c
      rw [List.foldl_cons, ih, hb]
      simp only [orderPow, List.map_cons, List.sum_cons]
      rw [List.getD_eq_getElem?_getD, List.getElem?_map, List.getElem?_eq_getElem hd]
      simp only [Option.map_some, Option.getD_some, Nat.add_sub_cancel]
      ring
  rw [key]; ring

theorem orderPow_pos {o : List Nat} (k : Nat) : ∀ n ∈ orderPow o k, 0 < n := by
  intro n hn
  unfold orderPow at hn
  obtain ⟨a, _, rfl⟩ := List.mem_map.1 hn
  omega

/-- The bases of `Bezier_composition`: one list per component. -/
structure Bases (o : List Nat) (n : Nat) (y : List K → K) (b : List (P K)) : Prop where
  len : b.length = n
  is : ∀ i < n, Is (orderPow o (n - 1)) o.length (fun x => bernstein (n - 1) i (y x)) (b.getD i ⟨[], []⟩)

theorem basisProducts_spec (o : List Nat) (h3 : o.length ≤ 3) (ns : List Nat) (ys : List (List K → K))
    (bases : List (List (P K))) (hy : ys.length = ns.length) (hb : bases.length = ns.length) (h1 : 1 ≤ ns.length)
    (hn3 : ns.length ≤ 3)
    (h : ∀ k < ns.length, Bases o (ns.getD k 0) (ys.getD k (fun _ => 0)) (bases.getD k [])) :
    ∃ Q : List Nat → P K, basisProducts bases = (indices ns).map Q ∧ ∀ i ∈ indices ns,
      Is (orderPow o (ns.map (· - 1)).sum) o.length
        (fun x => basisProd (bernsteinBasis ns (ys.map fun y => y x)) i) (Q i) := by
  have tab : ∀ b : List (P K), b = (List.range b.length).map fun i => b.getD i ⟨[], []⟩ := fun b => eq_map_getD b _
  match ns, ys, bases, hy, hb, h1, hn3, h with
  | [n], [y], [b], _, _, _, _, h =>
    have h0 := h 0 (by simp)
    simp only [List.getD_cons_zero] at h0
    refine ⟨fun i => b.getD (i.headD 0) ⟨[], []⟩, ?_, ?_⟩
    · simp only [basisProducts, indices, List.flatMap_cons, List.flatMap_nil, List.append_nil, List.map_map]
      conv_lhs => rw [tab b, h0.len]
      rfl
    · intro i hi
      cases mem_indices.1 hi with
      | @cons k _ i _ h1 h2 =>
        cases h2
        have := h0.is k h1
        simpa [basisProd, bernsteinBasis] using this
  | [n, m], [y, z], [b, c], _, _, _, _, h =>
    have h0 := h 0 (by simp)
    have h1 := h 1 (by simp)
    simp only [List.getD_cons_zero, List.getD_cons_succ] at h0 h1
    refine ⟨fun i => mul K (b.getD (i.getD 0 0) ⟨[], []⟩) (c.getD (i.getD 1 0) ⟨[], []⟩), ?_, ?_⟩
    · simp only [basisProducts, indices, List.flatMap_cons, List.flatMap_nil, List.append_nil, List.map_flatMap,
        List.flatMap_map, List.map_map]
      conv_lhs => rw [tab b, tab c, h0.len, h1.len]
      simp only [List.flatMap_map, List.map_map]
      rfl
    · intro i hi
      cases mem_indices.1 hi with
      | @cons k _ i _ g1 g2 =>
        cases g2 with
        | @cons l _ i _ g2 g3 =>
          cases g3
          have := (h0.is k g1).mul (h1.is l g2) (orderPow_length _ _) (orderPow_length _ _) h3
          rw [prodOrder_pow] at this
          simpa [basisProd, bernsteinBasis] using this
  | [n, m, p], [y, z, w], [b, c, d], _, _, _, _, h =>
    have h0 := h 0 (by simp)
    have h1 := h 1 (by simp)
    have h2 := h 2 (by simp)
    simp only [List.getD_cons_zero, List.getD_cons_succ] at h0 h1 h2
    refine ⟨fun i => mul K (b.getD (i.getD 0 0) ⟨[], []⟩) (mul K (d.getD (i.getD 2 0) ⟨[], []⟩)
      (c.getD (i.getD 1 0) ⟨[], []⟩)), ?_, ?_⟩
    · simp only [basisProducts, indices, List.flatMap_cons, List.flatMap_nil, List.append_nil, List.map_flatMap,
        List.flatMap_map, List.map_map, List.flatMap_assoc]
      conv_lhs => rw [tab b, tab c, tab d, h0.len, h1.len, h2.len]
      simp only [List.flatMap_map, List.map_map]
      rfl
    · intro i hi
      cases mem_indices.1 hi with
      | @cons k _ i _ g1 g2 =>
        cases g2 with
        | @cons l _ i _ g2 g3 =>
          cases g3 with
          | @cons j _ i _ g3 g4 =>
            cases g4
            have h23 := (h2.is j g3).mul (h1.is l g2) (orderPow_length _ _) (orderPow_length _ _) h3
            rw [prodOrder_pow] at h23
            have := (h0.is k g1).mul h23 (orderPow_length _ _) (orderPow_length _ _) h3
            rw [prodOrder_pow] at this
            obtain ⟨a1, a2, a3⟩ := this
            refine ⟨by simpa [add_comm, add_left_comm] using a1, by simpa using a2, ?_⟩
            intro x hx
            have e := a3 x hx
            simp only [List.getD_cons_zero, List.getD_cons_succ]
            rw [e]
            simp only [basisProd, bernsteinBasis, List.map_cons, List.map_nil, List.zipWith_cons_cons, List.zipWith_nil_left]
            ring

/-- **C34** (composition): the composition evaluates to the first polynomial at the value of the second. `m` is the
dimension of the first one and the number of components of the second one. -/
theorem C34_composition (l : P V) {m : Nat} (rhs : P (Fin m → K)) (hl : WellFormed l.order l.coefs)
    (hr : WellFormed rhs.order rhs.coefs) (hm : l.order.length = m) (hm3 : m ≤ 3) (h3 : rhs.order.length ≤ 3) :
    WellFormed (compose l rhs).order (compose l rhs).coefs ∧ (compose l rhs).order.length = rhs.order.length ∧
    ∀ x : List K, x.length = rhs.order.length →
      Bez.eval (compose l rhs) x = Bez.eval l (List.ofFn (Bez.eval rhs x)) := by
  have h1 : 1 ≤ m := by rw [← hm]; exact List.length_pos_of_ne_nil hl.1
  obtain ⟨bases, hbases⟩ : ∃ b, b = List.ofFn fun k : Fin m => composeBernstein (extractComponent rhs k) (l.order.getD k 0) :=
    ⟨_, rfl⟩
  have hbl : bases.length = l.order.length := by rw [hbases]; simp [hm]
  have hpos : ∀ k, k < l.order.length → 0 < l.order.getD k 0 := by
    intro k hk
    exact hl.2.1 _ (by simp [hk])
  have hB : ∀ k < l.order.length, Bases rhs.order (l.order.getD k 0)
      ((List.ofFn fun (k : Fin m) (x : List K) => Bez.eval rhs x k).getD k (fun _ => 0)) (bases.getD k []) := by
    intro k hk
    have hkm : k < m := by omega
    have e1 : bases.getD k [] = composeBernstein (extractComponent rhs ⟨k, hkm⟩) (l.order.getD k 0) := by
      rw [hbases, List.getD_eq_getElem?_getD, List.getElem?_eq_getElem (by simpa using hkm)]; simp
    have e2 : (List.ofFn fun (k : Fin m) (x : List K) => Bez.eval rhs x k).getD k (fun _ => 0) =
        fun x => Bez.eval rhs x ⟨k, hkm⟩ := by
      rw [List.getD_eq_getElem?_getD, List.getElem?_eq_getElem (by simpa using hkm)]; simp
    rw [e1, e2]
    obtain ⟨s1, s2⟩ := composeBernstein_spec (extractComponent rhs ⟨k, hkm⟩) (wellFormed_map hr _) h3
      (l.order.getD k 0) (hpos k hk)
    refine ⟨s1, ?_⟩
    intro i hi
    obtain ⟨t1, t2, t3⟩ := s2 i hi
    refine ⟨t1, t2, ?_⟩
    intro x hx
    rw [t3 x hx]
    dsimp only
    rw [eval_component rhs hr x hx]
  obtain ⟨Q, hQ1, hQ2⟩ := basisProducts_spec rhs.order h3 l.order
    (List.ofFn fun (k : Fin m) (x : List K) => Bez.eval rhs x k) bases (by simp [hm]) hbl (by omega) (by omega) hB
  obtain ⟨ord, hord⟩ : ∃ o, o = orderPow rhs.order (l.order.map (· - 1)).sum := ⟨_, rfl⟩
  have hco : ((List.range rhs.order.length).map fun d => bases.foldl (fun c b => c + ((b.headD ⟨[], []⟩).order.getD d 0 - 1)) 1) =
      ord := by
    rw [hord]
    apply composeOrder rhs.order hr.2.1
    rw [List.forall₂_iff_get]
    refine ⟨hbl, ?_⟩
    intro k hk1 hk2
    have hb := hB k hk2
    have e3 : bases.getD k [] = bases[k] := by
      rw [List.getD_eq_getElem?_getD, List.getElem?_eq_getElem hk1]; rfl
    have e4 : l.order.getD k 0 = l.order[k] := by
      rw [List.getD_eq_getElem?_getD, List.getElem?_eq_getElem hk2]; rfl
    rw [e3, e4] at hb
    have := (hb.is 0 (by rw [← e4]; exact hpos k hk2)).1
    simp only [List.get_eq_getElem]
    rw [← this]
    congr 1
    cases bases[k] <;> rfl
  have hcomp : compose l rhs = ⟨ord, (indices l.order).foldl (fun comp i =>
      List.zipWith (· + ·) comp ((Q i).coefs.map fun b => b • l.coefs.getD (flatIndex i l.order) 0) ++
        comp.drop (Q i).coefs.length) (List.replicate (listProd ord) 0)⟩ := by
    unfold compose
    rw [← hbases]
    dsimp only
    rw [hco, hQ1, tsize_eq]
    congr 1
    have hz : ((indices l.order).map Q).zip l.coefs =
        (indices l.order).map fun i => (Q i, l.coefs.getD (flatIndex i l.order) 0) := by
      rw [List.zip_map_left, zip_indices _ _ hl.2.2, List.map_map]
      rfl
    rw [hz, List.foldl_map]
  have hlenQ : ∀ i ∈ indices l.order, (Q i).coefs.length = listProd ord := by
    intro i hi
    obtain ⟨t1, t2, _⟩ := hQ2 i hi
    rw [t2.2.2, t1, hord]
  have hord0 : ord ≠ [] := by
    intro h
    have := congrArg List.length h
    rw [hord, orderPow_length] at this
    exact hr.1 (List.length_eq_zero_iff.1 this)
  have hordp : ∀ n ∈ ord, 0 < n := by rw [hord]; exact orderPow_pos _
  have hwf : WellFormed (compose l rhs).order (compose l rhs).coefs := by
    rw [hcomp]
    exact ⟨hord0, hordp, (accumulate_spec ord (bernsteinBasis ord ([] : List K)) (indices l.order) Q _ hlenQ _ (by simp)).1⟩
  have hol : (compose l rhs).order.length = rhs.order.length := by
    rw [hcomp]; simp only; rw [hord, orderPow_length]
  refine ⟨hwf, hol, ?_⟩
  intro x hx
  obtain ⟨_, e2⟩ := accumulate_spec ord (bernsteinBasis ord x) (indices l.order) Q
    (fun i => l.coefs.getD (flatIndex i l.order) 0) hlenQ (List.replicate (listProd ord) 0) (by simp)
  rw [C30_value _ hwf x (by omega), C30_value l hl _ (by simp [hm]), tensorSum_eq, tensorSum_eq, hcomp]
  dsimp only
  rw [e2]
  have hz : ts ord (bernsteinBasis ord x) (fun k => (List.replicate (listProd ord) (0 : V)).getD k 0) = 0 := by
    refine Eq.trans ?_ (ts_zero (V := V) ord (bernsteinBasis ord x))
    congr 1
    funext k
    rw [List.getD_eq_getElem?_getD, List.getElem?_replicate]
    split_ifs <;> rfl
  rw [hz, zero_add]
  unfold ts
  congr 1
  apply List.map_congr_left
  intro i hi
  obtain ⟨t1, t2, t3⟩ := hQ2 i hi
  have e := t3 x hx
  rw [C30_value _ t2 x (by rw [t1, orderPow_length]; exact hx), tensorSum_eq, t1, ← hord] at e
  have hys : (List.ofFn fun (k : Fin m) (x : List K) => Bez.eval rhs x k).map (fun y => y x) = List.ofFn (Bez.eval rhs x) := by
    rw [List.map_ofFn]; rfl
  dsimp only at e
  rw [hys] at e
  unfold ts at e
  rw [e]

end

/-! ### C36 -/

section
variable {K V : Type} [Field K] [AddCommGroup V] [Module K V]

/-- **C36** (linear transform of the coefficients): `scale * p + shift`. -/
theorem C36_linear_transform (p : P V) (hw : WellFormed p.order p.coefs) (scale : K) (shift : V) (x : List K)
    (hx : x.length = p.order.length) :
    WellFormed (linearTransform p scale shift).order (linearTransform p scale shift).coefs ∧
    Bez.eval (linearTransform p scale shift) x = scale • Bez.eval p x + shift :=
  ⟨linearTransform_wf p hw scale shift, linearTransform_spec p hw scale shift x hx⟩

/-- **C36** (image of scalar polynomials): values are mapped by the affine map that sends the old interval to the new one. -/
theorem C36_transform_image (p : P K) (hw : WellFormed p.order p.coefs) (old new : K × K) (hne : old.1 ≠ old.2) :
    (∀ x : List K, x.length = p.order.length → Bez.eval (transformImage1 p old new) x =
      (Bez.eval p x - old.1) * (new.2 - new.1) / (old.2 - old.1) + new.1) ∧
    (∀ x : List K, x.length = p.order.length → Bez.eval p x = old.1 → Bez.eval (transformImage1 p old new) x = new.1) ∧
    (∀ x : List K, x.length = p.order.length → Bez.eval p x = old.2 → Bez.eval (transformImage1 p old new) x = new.2) := by
  have hd : old.2 - old.1 ≠ 0 := sub_ne_zero.2 hne.symm
  have key : ∀ x : List K, x.length = p.order.length → Bez.eval (transformImage1 p old new) x =
      (Bez.eval p x - old.1) * (new.2 - new.1) / (old.2 - old.1) + new.1 := by
    intro x hx
    have := linearTransform_spec p hw ((new.2 - new.1) / (old.2 - old.1))
      (new.1 - old.1 * (new.2 - new.1) / (old.2 - old.1)) x hx
    rw [show transformImage1 p old new = linearTransform p ((new.2 - new.1) / (old.2 - old.1))
      (new.1 - old.1 * (new.2 - new.1) / (old.2 - old.1)) by
        unfold transformImage1 linearTransform
        congr 1
        apply List.map_congr_left
        intro c _
        rw [smul_eq_mul]; ring, this, smul_eq_mul]
    ring
  refine ⟨key, ?_, ?_⟩
  · intro x hx h
    rw [key x hx, h]; simp
  · intro x hx h
    rw [key x hx, h, mul_div_assoc, mul_div_cancel₀ _ hd]; ring

/-- **C36** (components): evaluating a component is taking the component of the value. -/
theorem C36_components {m : Nat} (p : P (Fin m → K)) (hw : WellFormed p.order p.coefs) (x : List K)
    (hx : x.length = p.order.length) (k : Fin m) :
    WellFormed (extractComponent p k).order (extractComponent p k).coefs ∧
    Bez.eval (extractComponent p k) x = Bez.eval p x k :=
  ⟨wellFormed_map hw _, eval_component p hw x hx k⟩

/-- A vector-valued polynomial is determined by its components. -/
theorem C36_components_determine {m : Nat} (hm : 0 < m) (p q : P (Fin m → K)) (h : ∀ k, extractComponent p k = extractComponent q k) :
    p = q := by
  have ho : p.order = q.order := by simpa [extractComponent] using congrArg P.order (h ⟨0, hm⟩)
  have hc : ∀ k : Fin m, (p.coefs.map fun c => c k) = q.coefs.map fun c => c k := fun k => by simpa [extractComponent] using congrArg P.coefs (h k)
  obtain ⟨po, pc⟩ := p
  obtain ⟨qo, qc⟩ := q
  simp only at ho hc
  subst ho
  congr 1
  have hl : pc.length = qc.length := by simpa using congrArg List.length (hc ⟨0, hm⟩)
  apply List.ext_getElem hl
  intro i h1 h2
  funext k
  have := congrArg (fun l => l[i]?) (hc k)
  simp only [List.getElem?_map, List.getElem?_eq_getElem h1, List.getElem?_eq_getElem h2, Option.map_some,
    Option.some.injEq] at this
  exact this

omit [AddCommGroup V] [Module K V] in
theorem scale_getD {m : Nat} (old new : Fin m → K × K) (y : Fin m → K) (k : Fin m) :
    (Box.scaleToNewDomain (List.ofFn old) (List.ofFn new) (List.ofFn y)).getD k 0 =
      (y k - (old k).1) * ((new k).2 - (new k).1) / ((old k).2 - (old k).1) + (new k).1 := by
  unfold Box.scaleToNewDomain
  rw [List.getD_eq_getElem?_getD, List.getElem?_eq_getElem (by simp)]
  simp

/-- **C36** (image of vector-valued polynomials): the values are scaled from the old to the new box. -/
theorem C36_transform_image_points {m : Nat} (p : P (Fin m → K)) (hw : WellFormed p.order p.coefs) (old new : Fin m → K × K)
    (x : List K) (hx : x.length = p.order.length) :
    List.ofFn (Bez.eval (transformImage p old new) x) =
      Box.scaleToNewDomain (List.ofFn old) (List.ofFn new) (List.ofFn (Bez.eval p x)) := by
  have hlin : transformImage p old new = ⟨p.order, p.coefs.map fun c =>
      (LinearMap.pi fun k => (((new k).2 - (new k).1) / ((old k).2 - (old k).1)) • (LinearMap.proj k : (Fin m → K) →ₗ[K] K)) c +
      fun k => (new k).1 - (old k).1 * ((new k).2 - (new k).1) / ((old k).2 - (old k).1)⟩ := by
    unfold transformImage
    congr 1
    apply List.map_congr_left
    intro c _
    funext k
    rw [scale_getD]
    simp only [Pi.add_apply, LinearMap.pi_apply, LinearMap.smul_apply, LinearMap.proj_apply, smul_eq_mul]
    ring
  rw [hlin, eval_map_affine p hw x hx]
  apply List.ext_getElem
  · simp [Box.scaleToNewDomain]
  intro k h1 h2
  have hk : k < m := by simpa using h1
  have e := scale_getD old new (Bez.eval p x) ⟨k, hk⟩
  rw [List.getD_eq_getElem?_getD, List.getElem?_eq_getElem h2] at e
  simp only [Option.getD_some] at e
  rw [e, List.getElem_ofFn]
  simp only [Pi.add_apply, LinearMap.pi_apply, LinearMap.smul_apply, LinearMap.proj_apply, smul_eq_mul]
  ring

end

/-! Concrete cases. -/

/-- `x (1 - x)`, `x`, product, sum; composition of `x^2` (as `[0, 0, 1]`) with `1 - 2 x`. -/
example : mul ℚ (⟨[2], [0, 1]⟩ : P ℚ) ⟨[2], [1, 0]⟩ = ⟨[3], [0, 1 / 2, 0]⟩ := by decide +kernel
example : addSub ℚ (fun a b => a + b) (⟨[2, 1], [0, 1]⟩ : P ℚ) ⟨[1, 2], [0, 1]⟩ = some ⟨[2, 2], [0, 1, 1, 2]⟩ := by
  decide +kernel
example : raiseOrder ℚ (⟨[2], [0, 2]⟩ : P ℚ) [3] = some ⟨[3], [0, 1, 2]⟩ := by decide +kernel
example : compose (K := ℚ) (V := ℚ) ⟨[3], [0, 0, 1]⟩ (m := 1) ⟨[2], [fun _ => 1, fun _ => -1]⟩ = ⟨[3], [1, -1, 1]⟩ := by
  decide +kernel
example : WellFormed [3] [(0 : ℚ), 0, 1] := ⟨by simp, by simp, rfl⟩

end Qugar.Poly
