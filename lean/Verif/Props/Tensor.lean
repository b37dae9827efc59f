import Verif.Lemmas.Tensor
/-
Property theorems C01, C02, C03, C04, C49 (tensor indices and index ranges).
-/
namespace Qugar
open Spec

/-- **C01** (tensor → flat → tensor). For an in-range tensor index the flat index is defined, is below the
total size, and the constructor from the flat index gives the tensor index back. -/
theorem C01_tensor_flat_tensor (size i : List Nat) (h : InSize size i) :
    ∃ fl, flat i size = some fl ∧ fl < tsize size ∧ unflat fl size = some i := by
  have h2 := forall2_lt_iff_inSize.2 h
  have hlt := flatIndex_lt h2
  refine ⟨_, flat_eq h, by rwa [tsize_eq], ?_⟩
  rw [unflat_eq hlt, unflatRec_flatIndex h2]

/-- **C01** (flat → tensor → flat). For a flat index below the total size the tensor index is defined, is in
range, and has that flat index. -/
theorem C01_flat_tensor_flat (size : List Nat) (fl : Nat) (h : fl < tsize size) :
    ∃ i, unflat fl size = some i ∧ InSize size i ∧ flat i size = some fl := by
  rw [tsize_eq] at h
  have h2 := unflatRec_lt (s := size) (fl := fl) (by omega)
  have hin := forall2_lt_iff_inSize.1 h2
  exact ⟨_, unflat_eq h, hin, by rw [flat_eq hin, flatIndex_unflatRec h]⟩

/-- **C01** (exactly the in-range inputs are accepted): outside of the valid ranges the assertions fire. -/
theorem C01_domain (size : List Nat) :
    (∀ i, (flat i size).isSome ↔ InSize size i) ∧ (∀ fl, (unflat fl size).isSome ↔ fl < tsize size) := by
  constructor
  · intro i
    by_cases h : InSize size i
    · simp [flat_eq h, h]
    · simp [flat_none h, h]
  · intro fl
    by_cases h : fl < tsize size <;> simp [unflat, h]

/-- **C01** direction 0 runs fastest: the flat index is `i0 + s0 * (i1 + s1 * (...))`, and `tsize` is the
product of the sizes. -/
theorem C01_flat_formula (size i : List Nat) (h : InSize size i) :
    flat i size = some (flatIndex i size) ∧ tsize size = listProd size :=
  ⟨flat_eq h, tsize_eq size⟩

example : InSize [3, 4, 2] [2, 1, 1] ∧ flat [2, 1, 1] [3, 4, 2] = some 17 ∧ unflat 17 [3, 4, 2] = some [2, 1, 1] := by
  refine ⟨⟨rfl, ?_⟩, by decide, by decide⟩
  intro k hk
  have : k = 0 ∨ k = 1 ∨ k = 2 := by simp at hk; omega
  rcases this with rfl | rfl | rfl <;> simp

/-- What the loop over a range must do: visit exactly the indices of the box, in the order of a nested loop
with direction 0 innermost, with strictly increasing flat indices in any enclosing tensor. -/
def VisitsBox (r : Range) (l : List (List Nat)) : Prop :=
  l.length = r.size ∧ (∀ i, i ∈ l ↔ InBox r.lo r.up i) ∧ l.Pairwise Before ∧
  ∀ size, (∀ i, InBox r.lo r.up i → InSize size i) →
    (∀ i ∈ l, (flat i size).isSome) ∧
    l.Pairwise (fun a b => ∃ x y, flat a size = some x ∧ flat b size = some y ∧ x < y)

/-- **C02 (partial)**. For every dimension ≥ 1 and every range that is non-empty in all directions, the iteration
terminates after `size()` steps and visits the box exactly. For a range with `lower = upper` it visits nothing.
Missing: ranges with some, but not all, empty directions, for which the code misbehaves, see
`C02_range_iteration_empty_direction_fails`. -/
theorem C02_range_iteration_partial (r : Range) (hv : r.Valid) (hd : r.lo ≠ []) :
    ((∀ k, k < r.lo.length → r.lo.getD k 0 < r.up.getD k 0) →
      ∀ fuel, r.size ≤ fuel → ∃ l, r.visit fuel = some l ∧ VisitsBox r l) ∧
    (r.lo = r.up → ∀ fuel, ∃ l, r.visit fuel = some l ∧ l = [] ∧ VisitsBox r l) := by
  have hsz := size_eq_length r hv.1
  have box : VisitsBox r (rangeList r.lo r.up) := by
    refine ⟨hsz.symm, fun i => mem_rangeList, rangeList_pairwise_before _ _, ?_⟩
    intro size hs
    refine ⟨fun i hi => ?_, ?_⟩
    · rw [flat_eq (hs i (mem_rangeList.1 hi))]; rfl
    · refine List.Pairwise.imp_of_mem ?_ (rangeList_pairwise_flat _ _ size hs)
      intro a b ha hb hab
      exact ⟨_, _, flat_eq (hs a (mem_rangeList.1 ha)), flat_eq (hs b (mem_rangeList.1 hb)), hab⟩
  constructor
  · intro hne fuel hf
    have hbox : NonemptyBox r.lo r.up := forall2_lt_iff_inSize.2 ⟨hv.1, fun k hk => hne k (by rw [hv.1]; exact hk)⟩
    exact ⟨_, visit_nonempty r hbox hd fuel hf, box⟩
  · intro he fuel
    have hnil : rangeList r.lo r.up = [] := by
      apply List.eq_nil_iff_forall_not_mem.2
      intro i hi
      have hb := mem_rangeList.1 hi
      rw [← he] at hb
      have hpos : 0 < i.length := by rw [hb.1]; exact List.length_pos_iff.2 hd
      have := hb.2.2 0 hpos
      omega
    refine ⟨[], ?_, rfl, by rw [← hnil]; exact box⟩
    cases fuel <;> simp [Range.visit, Range.loop, he]

/-- Non-vacuity of C02: a concrete 2D range meets the hypotheses; the loop visits its six indices. -/
example : (⟨[1, 2], [4, 4]⟩ : Range).visit 6 =
    some [[1, 2], [2, 2], [3, 2], [1, 3], [2, 3], [3, 3]] := by decide

/-- **C02 (negation of the full statement)**. Whenever a valid range is empty (`size() = 0`) and its bounds are not
equal, the first visited index is `lower`, which is not in the range: the iteration is never empty. -/
theorem C02_range_iteration_empty_direction_fails (r : Range) (hv : r.Valid) (h0 : r.size = 0)
    (hne : r.lo ≠ r.up) :
    ¬ InBox r.lo r.up r.lo ∧ ∀ fuel l, r.visit fuel = some l → ∃ l', l = r.lo :: l' := by
  constructor
  · intro hb
    have := mem_rangeList.2 hb
    rw [size_eq_length r hv.1] at h0
    rw [List.length_eq_zero_iff.1 h0] at this
    simp at this
  · intro fuel l hl
    cases fuel with
    | zero => simp [Range.visit, Range.loop, hne] at hl
    | succ f =>
      simp only [Range.visit, Range.loop, hne, if_false, Option.map_eq_some_iff] at hl
      obtain ⟨l', _, rfl⟩ := hl
      exact ⟨l', rfl⟩

/-- Concrete witness for the failure: `[0,0) x [0,1)` has size 0 and yet the index (0,0) is visited. -/
example : (⟨[0, 0], [0, 1]⟩ : Range).size = 0 ∧ (⟨[0, 0], [0, 1]⟩ : Range).visit 5 = some [[0, 0]] := by decide

/-- **C03**. Splitting a valid range with more than one index succeeds and gives two valid, non-empty, strictly
smaller ranges; every index of the range is in exactly one of them, nothing else is in either, and the sizes add
up. -/
theorem C03_split_bipartition (r : Range) (hv : r.Valid) (hs : 1 < r.size) :
    ∃ a b, r.split = some (a, b) ∧ a.Valid ∧ b.Valid ∧
      (∀ i, InBox r.lo r.up i ↔ (InBox a.lo a.up i ∨ InBox b.lo b.up i)) ∧
      (∀ i, ¬ (InBox a.lo a.up i ∧ InBox b.lo b.up i)) ∧
      0 < a.size ∧ 0 < b.size ∧ a.size + b.size = r.size := by
  obtain ⟨hd1, hd2, hm, hpos⟩ := split_dir_facts r hv hs
  have hlen := hv.1
  simp only [Range.split, hs, if_true]
  generalize hd : argmax r.sizes = d at *
  generalize hmm : (r.lo.getD d 0 + r.up.getD d 0) / 2 = m
  have hm1 : r.lo.getD d 0 < m := by omega
  have hm2 : m < r.up.getD d 0 := by omega
  have va : Range.Valid ⟨r.lo, r.up.set d m⟩ := by
    refine ⟨by simpa using hlen, fun k => ?_⟩
    simp only
    rw [getD_set _ _ _ _ hd2]
    split
    · rename_i h; subst h; omega
    · exact hv.2 k
  have vb : Range.Valid ⟨r.lo.set d m, r.up⟩ := by
    refine ⟨by simpa using hlen, fun k => ?_⟩
    simp only
    rw [getD_set _ _ _ _ hd1]
    split
    · rename_i h; subst h; omega
    · exact hv.2 k
  refine ⟨_, _, rfl, va, vb, ?_, ?_, ?_, ?_, ?_⟩
  · intro i
    simp only [InBox, List.length_set]
    constructor
    · rintro ⟨h1, h2, h⟩
      by_cases hi : i.getD d 0 < m
      · refine Or.inl ⟨h1, h2, fun k hk => ⟨(h k hk).1, ?_⟩⟩
        rw [getD_set _ _ _ _ hd2]
        split
        · rename_i e; subst e; exact hi
        · exact (h k hk).2
      · refine Or.inr ⟨h1, h2, fun k hk => ⟨?_, (h k hk).2⟩⟩
        rw [getD_set _ _ _ _ hd1]
        split
        · rename_i e; subst e; omega
        · exact (h k hk).1
    · rintro (⟨h1, h2, h⟩ | ⟨h1, h2, h⟩)
      · refine ⟨h1, h2, fun k hk => ?_⟩
        have := h k hk
        rw [getD_set _ _ _ _ hd2] at this
        split at this
        · rename_i e; subst e; omega
        · exact this
      · refine ⟨h1, h2, fun k hk => ?_⟩
        have := h k hk
        rw [getD_set _ _ _ _ hd1] at this
        split at this
        · rename_i e; subst e; omega
        · exact this
  · rintro i ⟨⟨h1, h2, h⟩, ⟨h1', h2', h'⟩⟩
    simp only at *
    have hk : d < i.length := by omega
    have a1 := (h d hk).2
    have a2 := (h' d hk).1
    rw [getD_set _ _ _ _ hd2, if_pos rfl] at a1
    rw [getD_set _ _ _ _ hd1, if_pos rfl] at a2
    omega
  · rw [Range.size, tsize_eq, listProd_pos]
    intro k hk
    rw [sizes_getD _ va.1]
    rw [sizes_length _ va.1, List.length_set] at hk
    simp only
    rw [getD_set _ _ _ _ hd2]
    have := hpos k (by omega)
    split
    · rename_i e; subst e; omega
    · omega
  · rw [Range.size, tsize_eq, listProd_pos]
    intro k hk
    rw [sizes_getD _ vb.1]
    rw [sizes_length _ vb.1] at hk
    simp only at hk ⊢
    rw [getD_set _ _ _ _ hd1]
    have := hpos k (by omega)
    split
    · rename_i e; subst e; omega
    · omega
  · simp only [Range.size, tsize_eq]
    have hsl := sizes_length r hlen
    have e1 : Range.sizes ⟨r.lo, r.up.set d m⟩ = r.sizes.set d (m - r.lo.getD d 0) := by
      apply ext_getD
      · simp [Range.sizes]
      · intro k
        rw [sizes_getD _ va.1, getD_set r.sizes d (m - r.lo.getD d 0) k (by omega), sizes_getD r hlen]
        simp only
        rw [getD_set _ _ _ _ hd2]
        split
        · rename_i e; subst e; rfl
        · rfl
    have e2 : Range.sizes ⟨r.lo.set d m, r.up⟩ = r.sizes.set d (r.up.getD d 0 - m) := by
      apply ext_getD
      · simp [Range.sizes]
      · intro k
        rw [sizes_getD _ vb.1, getD_set r.sizes d (r.up.getD d 0 - m) k (by omega), sizes_getD r hlen]
        simp only
        rw [getD_set _ _ _ _ hd1]
        split
        · rename_i e; subst e; rfl
        · rfl
    rw [e1, e2, ← listProd_set_add _ _ _ _ (by omega)]
    congr 1
    apply ext_getD
    · simp
    · intro k
      rw [getD_set _ _ _ _ (by omega), sizes_getD _ hlen]
      split
      · rename_i e; subst e; omega
      · rfl

example : (⟨[0, 1], [2, 6]⟩ : Range).split = some (⟨[0, 1], [2, 3]⟩, ⟨[0, 3], [2, 6]⟩) := by decide

/-- **C04**. `is_in_range` is exact, `size()` is the number of indices of the range (the length of any duplicate-free
listing of them), and a flat index is accepted iff it is the flat index of an in-range tensor index of the enclosing
tensor that lies in the range. -/
theorem C04_membership_and_size (r : Range) (hv : r.Valid) :
    (∀ i, i.length = r.lo.length → (r.isInRange i = true ↔ InBox r.lo r.up i)) ∧
    (∀ l : List (List Nat), l.Nodup → (∀ i, i ∈ l ↔ InBox r.lo r.up i) → l.length = r.size) ∧
    (∀ fl total, total.length = r.lo.length →
      (r.isInRangeFlat fl total = true ↔
        ∃ i, InSize total i ∧ flat i total = some fl ∧ InBox r.lo r.up i)) := by
  refine ⟨fun i hi => isInRange_iff r i hi (by rw [hi, hv.1]), ?_, ?_⟩
  · intro l hl hm
    rw [size_eq_length r hv.1]
    apply List.Perm.length_eq
    rw [List.perm_ext_iff_of_nodup hl (nodup_rangeList _ _)]
    intro i; rw [hm, mem_rangeList]
  · intro fl total ht
    unfold Range.isInRangeFlat
    by_cases h : tsize total ≤ fl
    · simp only [h, if_true]
      constructor
      · intro h; exact absurd h (by simp)
      · rintro ⟨i, hi, hf, _⟩
        obtain ⟨fl', hf', hlt, _⟩ := C01_tensor_flat_tensor total i hi
        rw [hf] at hf'; cases hf'; omega
    · simp only [h, if_false]
      obtain ⟨i, hu, hi, hf⟩ := C01_flat_tensor_flat total fl (by omega)
      have hil : i.length = r.lo.length := by rw [hi.1, ht]
      rw [hu]
      simp only
      rw [isInRange_iff r i hil (by rw [hil, hv.1])]
      constructor
      · intro hb; exact ⟨i, hi, hf, hb⟩
      · rintro ⟨j, hj, hfj, hb⟩
        obtain ⟨fl', hf', hlt, hu'⟩ := C01_tensor_flat_tensor total j hj
        rw [hfj] at hf'; cases hf'
        rw [hu] at hu'; cases hu'; exact hb

example : (⟨[1, 0], [3, 2]⟩ : Range).isInRangeFlat 6 [4, 5] = true ∧
    (⟨[1, 0], [3, 2]⟩ : Range).isInRangeFlat 4 [4, 5] = false ∧
    (⟨[1, 0], [3, 2]⟩ : Range).isInRangeFlat 20 [4, 5] = false ∧ (⟨[1, 0], [3, 2]⟩ : Range).size = 4 := by decide

/-- **C49 (partial)**. `operator<` compares component 0 strictly and all the others non-strictly; it is
irreflexive, asymmetric and transitive. Missing: it is *not* a strict weak order, see
`C49_not_strict_weak_order`. -/
theorem C49_strict_partial_order_partial :
    (∀ x y a b, a.length = b.length →
      (tidxLt (x :: a) (y :: b) = true ↔ x < y ∧ List.Forall₂ (· ≤ ·) a b)) ∧
    (∀ a, tidxLt a a = false) ∧
    (∀ a b, a.length = b.length → tidxLt a b = true → tidxLt b a = false) ∧
    (∀ a b c, a.length = b.length → b.length = c.length →
      tidxLt a b = true → tidxLt b c = true → tidxLt a c = true) := by
  have hnil : tidxLt [] [] = false := by decide
  refine ⟨tidxLt_cons, ?_, ?_, ?_⟩
  · intro a
    cases a with
    | nil => exact hnil
    | cons x xs =>
      rw [← Bool.not_eq_true, tidxLt_cons _ _ _ _ rfl]
      rintro ⟨h, _⟩; omega
  · intro a b hl hab
    cases a with
    | nil => cases b with
      | nil => simp [hnil] at hab
      | cons => simp at hl
    | cons x xs => cases b with
      | nil => simp at hl
      | cons y ys =>
        have hl' : xs.length = ys.length := by simpa using hl
        rw [tidxLt_cons _ _ _ _ hl'] at hab
        rw [← Bool.not_eq_true, tidxLt_cons _ _ _ _ hl'.symm]
        rintro ⟨h, _⟩; omega
  · intro a b c hl hl2 hab hbc
    cases a with
    | nil => cases b with
      | nil => simp [hnil] at hab
      | cons => simp at hl
    | cons x xs => cases b with
      | nil => simp at hl
      | cons y ys => cases c with
        | nil => simp at hl2
        | cons z zs =>
          have hl' : xs.length = ys.length := by simpa using hl
          have hl2' : ys.length = zs.length := by simpa using hl2
          rw [tidxLt_cons _ _ _ _ hl'] at hab
          rw [tidxLt_cons _ _ _ _ hl2'] at hbc
          rw [tidxLt_cons _ _ _ _ (hl'.trans hl2')]
          exact ⟨by omega, forall2_le_trans hab.2 hbc.2⟩

/-- **C49 (negation)**. In every dimension at least 2 there are distinct incomparable indices, and incomparability
is not transitive, so `operator<` does not meet the requirements of ordered containers and `std::sort`. -/
theorem C49_not_strict_weak_order :
    (∀ n, ∃ a b : List Nat, a.length = n + 2 ∧ b.length = n + 2 ∧ a ≠ b ∧
      tidxLt a b = false ∧ tidxLt b a = false) ∧
    ∃ a b c : List Nat, a.length = 2 ∧ b.length = 2 ∧ c.length = 2 ∧
      tidxLt a b = false ∧ tidxLt b a = false ∧ tidxLt b c = false ∧ tidxLt c b = false ∧ tidxLt a c = true := by
  constructor
  · intro n
    refine ⟨0 :: 0 :: List.replicate n 0, 0 :: 1 :: List.replicate n 0, by simp, by simp, by simp, ?_, ?_⟩ <;>
    · rw [← Bool.not_eq_true, tidxLt_cons _ _ _ _ (by simp)]
      rintro ⟨h, _⟩; omega
  · exact ⟨[0, 0], [0, 5], [1, 0], by decide⟩

end Qugar
