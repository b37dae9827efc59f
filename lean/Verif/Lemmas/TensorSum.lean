import Verif.Spec.Poly
import Verif.Lemmas.Tensor
import Mathlib.Algebra.BigOperators.Group.Finset.Basic
import Mathlib.Algebra.BigOperators.Ring.Finset
import Mathlib.Algebra.BigOperators.GroupWithZero.Action
import Mathlib.Algebra.Algebra.Basic
import Mathlib.Tactic.Ring
import Mathlib.Tactic.Abel
/-
Lemmas about sums over tensor indices.
-/
namespace Qugar.TS
open Spec Finset

variable {K V : Type} [Field K] [AddCommGroup V] [Module K V]

/-- `tensorSum` for coefficients given by a function of the flat index. -/
def ts (size : List Nat) (f : List (Nat → K)) (c : Nat → V) : V :=
  ((indices size).map fun i => basisProd f i • c (flatIndex i size)).sum

theorem tensorSum_eq (f : List (Nat → K)) (size : List Nat) (c : List V) :
    tensorSum f size c = ts size f (fun k => c.getD k 0) := rfl

theorem indices_eq (size : List Nat) : indices size = rangeList (size.map fun _ => 0) size := by
  induction size with
  | nil => rfl
  | cons n ns ih => simp only [indices, List.map_cons, rangeList, ih, Nat.sub_zero, List.range_eq_range']

theorem mem_indices {size i : List Nat} : i ∈ indices size ↔ List.Forall₂ (· < ·) i size := by
  induction size generalizing i with
  | nil => cases i <;> simp [indices]
  | cons n ns ih =>
    simp only [indices, List.mem_flatMap, List.mem_map, List.mem_range]
    constructor
    · rintro ⟨t, ht, x, hx, rfl⟩
      exact .cons hx (ih.1 ht)
    · intro h
      cases h with
      | cons h1 h2 => exact ⟨_, ih.2 h2, _, h1, rfl⟩

theorem nodup_indices (size : List Nat) : (indices size).Nodup := by
  rw [indices_eq]; exact nodup_rangeList _ _

theorem flatIndex_inj {size i j : List Nat} (hi : i ∈ indices size) (hj : j ∈ indices size)
    (h : flatIndex i size = flatIndex j size) : i = j := by
  rw [← unflatRec_flatIndex (mem_indices.1 hi), h, unflatRec_flatIndex (mem_indices.1 hj)]

theorem flatIndex_lt' {size i : List Nat} (hi : i ∈ indices size) : flatIndex i size < listProd size :=
  flatIndex_lt (mem_indices.1 hi)

theorem sum_map_flatMap {α β M : Type} [AddCommMonoid M] (L : List α) (f : α → List β) (g : β → M) :
    ((L.flatMap f).map g).sum = (L.map fun t => ((f t).map g).sum).sum := by
  induction L with
  | nil => simp
  | cons a L ih => simp [ih]

theorem list_sum_range {M : Type} [AddCommMonoid M] (n : Nat) (g : Nat → M) :
    ((List.range n).map g).sum = ∑ i ∈ range n, g i := by
  induction n with
  | zero => simp
  | succ n ih => rw [List.range_succ, List.map_append, List.sum_append, ih, sum_range_succ]; simp

theorem smul_list_sum {α : Type} (a : K) (L : List α) (g : α → V) :
    a • (L.map g).sum = (L.map fun x => a • g x).sum := by
  induction L with
  | nil => simp
  | cons b L ih => simp [ih]

@[simp] theorem ts_nil (f : List (Nat → K)) (c : Nat → V) : ts [] f c = c 0 := by
  simp [ts, indices, basisProd, flatIndex]

theorem ts_cons (n : Nat) (ns : List Nat) (φ : Nat → K) (f : List (Nat → K)) (c : Nat → V) :
    ts (n :: ns) (φ :: f) c = ts ns f (fun k => ∑ i ∈ range n, φ i • c (i + n * k)) := by
  unfold ts
  simp only [indices]
  rw [sum_map_flatMap]
  congr 1
  apply List.map_congr_left
  intro t _
  rw [List.map_map, list_sum_range, smul_sum]
  apply sum_congr rfl
  intro i _
  simp only [Function.comp, basisProd, flatIndex]
  rw [smul_smul, mul_comm]

theorem ts_congr {size : List Nat} {f g : List (Nat → K)} {c d : Nat → V}
    (h : ∀ i ∈ indices size, basisProd f i • c (flatIndex i size) = basisProd g i • d (flatIndex i size)) :
    ts size f c = ts size g d := by
  unfold ts
  rw [List.map_congr_left h]

theorem ts_congr' {size : List Nat} {f : List (Nat → K)} {c d : Nat → V} (h : ∀ k, k < listProd size → c k = d k) :
    ts size f c = ts size f d :=
  ts_congr fun i hi => by rw [h _ (flatIndex_lt' hi)]

theorem ts_add (size : List Nat) (f : List (Nat → K)) (c d : Nat → V) :
    ts size f (fun k => c k + d k) = ts size f c + ts size f d := by
  unfold ts
  generalize indices size = L
  induction L with
  | nil => simp
  | cons a L ih =>
    simp only [List.map_cons, List.sum_cons] at ih ⊢
    rw [ih, smul_add]; abel

theorem ts_sum {ι : Type} (s : Finset ι) (size : List Nat) (f : List (Nat → K)) (c : ι → Nat → V) :
    ts size f (fun k => ∑ i ∈ s, c i k) = ∑ i ∈ s, ts size f (c i) := by
  classical
  induction s using Finset.induction_on with
  | empty =>
    simp only [sum_empty]
    unfold ts
    generalize indices size = L
    induction L with
    | nil => simp
    | cons a L ih => simp
  | insert a s ha ih =>
    simp only [sum_insert ha]
    rw [ts_add, ih]

theorem ts_smul (size : List Nat) (f : List (Nat → K)) (a : K) (c : Nat → V) :
    ts size f (fun k => a • c k) = a • ts size f c := by
  unfold ts
  rw [smul_list_sum]
  congr 1
  apply List.map_congr_left
  intro i _
  rw [smul_comm]

theorem ts_zero (size : List Nat) (f : List (Nat → K)) : ts size f (fun _ => (0 : V)) = 0 := by
  have := ts_smul size f (0 : K) (fun _ => (0 : V))
  simpa using this

/-- The last direction is the slowest: sum over blocks. -/
theorem ts_append (ns : List Nat) (n : Nat) (f : List (Nat → K)) (φ : Nat → K) (hl : f.length = ns.length)
    (c : Nat → V) :
    ts (ns ++ [n]) (f ++ [φ]) c = ∑ i ∈ range n, φ i • ts ns f (fun k => c (k + listProd ns * i)) := by
  induction ns generalizing f c with
  | nil =>
    rw [List.length_nil, List.length_eq_zero_iff] at hl
    subst hl
    rw [List.nil_append, List.nil_append, ts_cons]
    simp [listProd]
  | cons m ns ih =>
    cases f with
    | nil => simp at hl
    | cons ψ f =>
      rw [List.cons_append, List.cons_append, ts_cons, ih f (by simpa using hl)]
      apply sum_congr rfl
      intro i _
      rw [ts_cons]
      congr 1
      apply ts_congr'
      intro k _
      apply sum_congr rfl
      intro j _
      congr 2
      simp only [listProd]
      ring

/-- Only one coefficient. -/
theorem ts_single (size : List Nat) (f : List (Nat → K)) (j : List Nat) (hj : j ∈ indices size) (v : V) :
    ts size f (fun k => if k = flatIndex j size then v else 0) = basisProd f j • v := by
  unfold ts
  have key : ∀ L : List (List Nat), (∀ i ∈ L, i ∈ indices size) → L.Nodup →
      (L.map fun i => basisProd f i • (if flatIndex i size = flatIndex j size then v else (0 : V))).sum =
        if j ∈ L then basisProd f j • v else 0 := by
    intro L
    induction L with
    | nil => simp
    | cons a L ih =>
      intro hL hn
      rw [List.nodup_cons] at hn
      rw [List.map_cons, List.sum_cons, ih (fun i hi => hL i (by simp [hi])) hn.2]
      by_cases ha : a = j
      · subst ha
        simp [hn.1]
      · have : flatIndex a size ≠ flatIndex j size := fun h => ha (flatIndex_inj (hL a (by simp)) hj h)
        rw [if_neg this, smul_zero, zero_add]
        have h2 : (j ∈ a :: L) ↔ j ∈ L := by simp [Ne.symm ha]
        by_cases hjL : j ∈ L <;> simp [hjL, Ne.symm ha]
  rw [key _ (fun i hi => hi) (nodup_indices size), if_pos hj]

/-- Add `v` at position `k`. -/
def addAt (c : List V) (k : Nat) (v : V) : List V := c.modify k (· + v)

theorem addAt_length (c : List V) (k : Nat) (v : V) : (addAt c k v).length = c.length := by simp [addAt]

theorem getD_addAt (c : List V) (k : Nat) (v : V) (hk : k < c.length) (j : Nat) :
    (addAt c k v).getD j 0 = c.getD j 0 + if j = k then v else 0 := by
  unfold addAt
  rw [List.getD_eq_getElem?_getD, List.getD_eq_getElem?_getD, List.getElem?_modify]
  by_cases h : k = j
  · subst h
    rw [List.getElem?_eq_getElem hk]; simp
  · simp [h, Ne.symm h]

theorem ts_addAt (size : List Nat) (f : List (Nat → K)) (c : List V) (j : List Nat) (hj : j ∈ indices size)
    (hc : c.length = listProd size) (v : V) :
    ts size f (fun k => (addAt c (flatIndex j size) v).getD k 0) =
      ts size f (fun k => c.getD k 0) + basisProd f j • v := by
  rw [← ts_single size f j hj v, ← ts_add]
  apply ts_congr'
  intro k _
  exact getD_addAt c _ v (by rw [hc]; exact flatIndex_lt' hj) k

/-- A loop that adds values at positions. -/
theorem ts_foldl_addAt {α : Type} (size : List Nat) (f : List (Nat → K)) (L : List α) (pos : α → List Nat) (val : α → V)
    (hpos : ∀ a ∈ L, pos a ∈ indices size) : ∀ (c : List V), c.length = listProd size →
    (L.foldl (fun c a => addAt c (flatIndex (pos a) size) (val a)) c).length = listProd size ∧
    ts size f (fun k => (L.foldl (fun c a => addAt c (flatIndex (pos a) size) (val a)) c).getD k 0) =
      ts size f (fun k => c.getD k 0) + (L.map fun a => basisProd f (pos a) • val a).sum := by
  induction L with
  | nil => intro c hc; simp [hc]
  | cons a L ih =>
    intro c hc
    rw [List.foldl_cons]
    have h1 : (addAt c (flatIndex (pos a) size) (val a)).length = listProd size := by rw [addAt_length, hc]
    obtain ⟨e1, e2⟩ := ih (fun b hb => hpos b (by simp [hb])) _ h1
    refine ⟨e1, ?_⟩
    rw [e2, ts_addAt size f c _ (hpos a (by simp)) hc, List.map_cons, List.sum_cons, add_assoc]

/-- The sum of all products is the product of the sums. -/
theorem sum_basisProd (size : List Nat) (f : List (Nat → K)) (hl : f.length = size.length) :
    ((indices size).map fun i => basisProd f i).sum = (List.zipWith (fun n φ => ∑ i ∈ range n, φ i) size f).prod := by
  induction size generalizing f with
  | nil => simp [indices, basisProd]
  | cons n ns ih =>
    cases f with
    | nil => simp at hl
    | cons φ f =>
      simp only [indices]
      rw [sum_map_flatMap, List.zipWith_cons_cons, List.prod_cons, ← ih f (by simpa using hl)]
      have : ∀ t, (((List.range n).map (· :: t)).map fun i => basisProd (φ :: f) i).sum =
          (∑ i ∈ range n, φ i) * basisProd f t := by
        intro t
        rw [List.map_map, list_sum_range, sum_mul]
        rfl
      simp only [this]
      induction indices ns with
      | nil => simp
      | cons a L ih' => simp only [List.map_cons, List.sum_cons, mul_add]; rw [ih']

theorem basisProd_mul (f g : List (Nat → K)) (i : List Nat) (hl : f.length = g.length) :
    basisProd (List.zipWith (fun a b k => a k * b k) f g) i = basisProd f i * basisProd g i := by
  induction f generalizing g i with
  | nil =>
    cases g with
    | nil => simp [basisProd]
    | cons => simp at hl
  | cons a f ih =>
    cases g with
    | nil => simp at hl
    | cons b g =>
      cases i with
      | nil => simp [basisProd]
      | cons k i =>
        simp only [List.zipWith_cons_cons, basisProd]
        rw [ih g i (by simpa using hl)]; ring

/-- The basis functions only matter below the sizes. -/
theorem basisProd_congr {size : List Nat} {f g : List (Nat → K)} (hf : f.length = size.length)
    (hg : g.length = size.length)
    (h : ∀ d, d < size.length → ∀ i, i < size.getD d 0 → f.getD d (fun _ => 0) i = g.getD d (fun _ => 0) i) :
    ∀ i ∈ indices size, basisProd f i = basisProd g i := by
  induction size generalizing f g with
  | nil =>
    intro i hi
    rw [List.length_nil, List.length_eq_zero_iff] at hf hg
    rw [hf, hg]
  | cons n ns ih =>
    cases f with
    | nil => simp at hf
    | cons a f =>
      cases g with
      | nil => simp at hg
      | cons b g =>
        intro i hi
        cases mem_indices.1 hi with
        | @cons k _ t _ h1 h2 =>
          simp only [basisProd]
          have h0 := h 0 (by simp) k (by simpa using h1)
          simp only [List.getD_cons_zero] at h0
          rw [h0, ih (by simpa using hf) (by simpa using hg) (fun d hd j hj => by
            have := h (d + 1) (by simpa using hd) j (by simpa using hj)
            simpa using this) t (mem_indices.2 h2)]

/-- Coefficients are read in flat order. -/
theorem indices_flat (size : List Nat) : (indices size).map (fun i => flatIndex i size) = List.range (listProd size) := by
  induction size with
  | nil => simp [indices, flatIndex, listProd]
  | cons n ns ih =>
    simp only [indices, List.map_flatMap, listProd]
    have : ∀ L : List (List Nat), L.flatMap (fun t => ((List.range n).map (· :: t)).map fun i => flatIndex i (n :: ns)) =
        (L.map fun i => flatIndex i ns).flatMap fun k => (List.range n).map fun x => x + n * k := by
      intro L
      induction L with
      | nil => rfl
      | cons a L ihL =>
        rw [List.flatMap_cons, ihL, List.map_cons, List.flatMap_cons, List.map_map]
        rfl
    rw [this, ih]
    generalize listProd ns = m
    induction m with
    | zero => simp
    | succ m ihm =>
      rw [List.range_succ, List.flatMap_append, ihm, Nat.mul_succ, List.range_add]
      simp [Nat.add_comm]

end Qugar.TS
