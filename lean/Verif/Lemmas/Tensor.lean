import Verif.Model.Tensor
import Verif.Spec.Tensor
import Mathlib.Data.List.Forall2
import Mathlib.Data.List.Chain
import Mathlib.Data.List.GetD
import Mathlib.Tactic.Ring
import Mathlib.Tactic.Linarith

namespace Qugar
open Spec

theorem forall2_lt_iff_inSize {i size : List Nat} :
    List.Forall₂ (· < ·) i size ↔ InSize size i := by
  induction i generalizing size with
  | nil => cases size <;> simp [InSize]
  | cons a as ih =>
    cases size with
    | nil => simp [InSize]
    | cons s ss =>
      rw [List.forall₂_cons, ih]
      unfold InSize
      constructor
      · rintro ⟨h0, hl, h⟩
        refine ⟨by simp [hl], ?_⟩
        intro k hk
        cases k with
        | zero => simpa using h0
        | succ k => simpa using h k (by simpa using hk)
      · rintro ⟨hl, h⟩
        refine ⟨by simpa using h 0 (by simp), by simpa using hl, ?_⟩
        intro k hk
        simpa using h (k+1) (by simpa using hk)

theorem tsize_aux (s : List Nat) (a : Nat) : s.foldl (fun acc n => acc * n) a = a * listProd s := by
  induction s generalizing a with
  | nil => simp [listProd]
  | cons x xs ih => simp only [List.foldl_cons, listProd]; rw [ih]; ring

theorem tsize_eq (s : List Nat) : tsize s = listProd s := by
  simp [tsize, tsize_aux]

theorem listProd_append (a b : List Nat) : listProd (a ++ b) = listProd a * listProd b := by
  induction a with
  | nil => simp [listProd]
  | cons x xs ih => simp [listProd, ih]; ring

theorem flatLoop_eq {i s : List Nat} (h : List.Forall₂ (· < ·) i s) (acc fl : Nat) :
    flatLoop i s acc fl = some (fl + acc * flatIndex i s) := by
  induction h generalizing acc fl with
  | nil => simp [flatLoop, flatIndex]
  | cons h0 h ih =>
    simp only [flatLoop, h0, if_true, flatIndex]
    rw [ih]; congr 1; ring

theorem flatLoop_none {i s : List Nat} (h : ¬ List.Forall₂ (· < ·) i s) (acc fl : Nat) :
    flatLoop i s acc fl = none := by
  induction i generalizing s acc fl with
  | nil => cases s with
    | nil => simp at h
    | cons => simp [flatLoop]
  | cons a as ih =>
    cases s with
    | nil => simp [flatLoop]
    | cons b bs =>
      simp only [flatLoop]
      split
      · rename_i hab
        apply ih
        intro h'
        exact h (List.Forall₂.cons hab h')
      · rfl

theorem flat_eq {i s : List Nat} (h : InSize s i) : flat i s = some (flatIndex i s) := by
  rw [flat, flatLoop_eq (forall2_lt_iff_inSize.2 h)]; simp

theorem flat_none {i s : List Nat} (h : ¬ InSize s i) : flat i s = none :=
  flatLoop_none (fun h' => h (forall2_lt_iff_inSize.1 h')) _ _

theorem flatIndex_lt {i s : List Nat} (h : List.Forall₂ (· < ·) i s) : flatIndex i s < listProd s := by
  induction h with
  | nil => simp [flatIndex, listProd]
  | @cons a b l₁ l₂ h0 h ih =>
    simp only [flatIndex, listProd]
    have : b * (flatIndex l₁ l₂ + 1) ≤ b * listProd l₂ := Nat.mul_le_mul_left _ ih
    rw [Nat.mul_add] at this
    omega

/-- Recursive form of the inverse of `flatIndex`. -/
def unflatRec : List Nat → Nat → List Nat
  | [], _ => []
  | s :: ss, fl => (fl % s) :: unflatRec ss (fl / s)

theorem unflatRec_append (a b : List Nat) (fl : Nat) :
    unflatRec (a ++ b) fl = unflatRec a fl ++ unflatRec b (fl / listProd a) := by
  induction a generalizing fl with
  | nil => simp [unflatRec, listProd]
  | cons x xs ih => simp [unflatRec, listProd, ih, Nat.div_div_eq_div_mul]

theorem unflatRec_mod (a : List Nat) (fl : Nat) : unflatRec a (fl % listProd a) = unflatRec a fl := by
  induction a generalizing fl with
  | nil => simp [unflatRec]
  | cons x xs ih =>
    simp only [unflatRec, listProd]
    rw [Nat.mod_mul_right_mod, Nat.mod_mul_right_div_self, ih]

theorem listProd_reverse (a : List Nat) : listProd a.reverse = listProd a := by
  induction a with
  | nil => rfl
  | cons x xs ih => simp [listProd, listProd_append, ih]; ring

theorem unflatLoop_eq (rs : List Nat) (fl : Nat) (hpos : 0 < listProd rs) (h : fl < listProd rs) :
    (unflatLoop rs (listProd rs) fl).reverse = unflatRec rs.reverse fl := by
  induction rs generalizing fl with
  | nil => simp [unflatLoop, unflatRec]
  | cons s ss ih =>
    simp only [listProd] at hpos h
    have hs : 0 < s := Nat.pos_of_mul_pos_right hpos
    have hP : 0 < listProd ss := Nat.pos_of_mul_pos_left hpos
    simp only [unflatLoop, listProd, Nat.mul_div_cancel_left _ hs, List.reverse_cons]
    have hmod : fl - fl / listProd ss * listProd ss = fl % listProd ss := by
      have := Nat.div_add_mod fl (listProd ss)
      rw [Nat.mul_comm] at this
      omega
    rw [hmod, ih _ hP (Nat.mod_lt _ hP), unflatRec_append, listProd_reverse]
    congr 1
    · rw [← listProd_reverse, unflatRec_mod]
    · simp only [unflatRec]
      rw [Nat.mod_eq_of_lt]
      exact Nat.div_lt_of_lt_mul (by rw [Nat.mul_comm]; exact h)

theorem unflat_eq {s : List Nat} {fl : Nat} (h : fl < listProd s) :
    unflat fl s = some (unflatRec s fl) := by
  have hp : 0 < listProd s := by omega
  have := unflatLoop_eq s.reverse fl (by rwa [listProd_reverse]) (by rwa [listProd_reverse])
  rw [listProd_reverse, List.reverse_reverse] at this
  simp [unflat, tsize_eq, h, this]

theorem unflatRec_lt {s : List Nat} {fl : Nat} (h : 0 < listProd s) :
    List.Forall₂ (· < ·) (unflatRec s fl) s := by
  induction s generalizing fl with
  | nil => simp [unflatRec]
  | cons x xs ih =>
    simp only [listProd] at h
    refine List.Forall₂.cons (Nat.mod_lt _ (Nat.pos_of_mul_pos_right h)) (ih (Nat.pos_of_mul_pos_left h))

theorem flatIndex_unflatRec {s : List Nat} {fl : Nat} (h : fl < listProd s) :
    flatIndex (unflatRec s fl) s = fl := by
  induction s generalizing fl with
  | nil => simp [listProd] at h; simp [flatIndex, unflatRec, h]
  | cons x xs ih =>
    simp only [unflatRec, flatIndex]
    rw [ih (Nat.div_lt_of_lt_mul h), Nat.mod_add_div]

theorem unflatRec_flatIndex {i s : List Nat} (h : List.Forall₂ (· < ·) i s) :
    unflatRec s (flatIndex i s) = i := by
  induction h with
  | nil => simp [unflatRec]
  | @cons a b l₁ l₂ h0 h ih =>
    simp only [unflatRec, flatIndex]
    rw [Nat.add_mul_mod_self_left, Nat.mod_eq_of_lt h0]
    rw [Nat.add_mul_div_left _ _ (by omega), Nat.div_eq_of_lt h0, Nat.zero_add, ih]

/-! ### Ranges -/

/-- Nested-loop enumeration of a box, direction 0 innermost. -/
def rangeList : (lo up : List Nat) → List (List Nat)
  | [], [] => [[]]
  | l :: ls, u :: us => (rangeList ls us).flatMap fun t => (List.range' l (u - l)).map (· :: t)
  | _, _ => []

theorem forall2_inBox {lo up i : List Nat} :
    (List.Forall₂ (· ≤ ·) lo i ∧ List.Forall₂ (· < ·) i up) ↔ InBox lo up i := by
  induction i generalizing lo up with
  | nil => cases lo <;> cases up <;> simp [InBox]
  | cons a as ih =>
    cases lo with
    | nil => simp [InBox]
    | cons l ls =>
      cases up with
      | nil => simp [InBox]
      | cons u us =>
        have := @ih ls us
        rw [List.forall₂_cons, List.forall₂_cons]
        constructor
        · rintro ⟨⟨h1, h2⟩, h3, h4⟩
          obtain ⟨e1, e2, h⟩ := this.1 ⟨h2, h4⟩
          refine ⟨by simp [e1], by simp [e2], ?_⟩
          intro k hk
          cases k with
          | zero => simpa using ⟨h1, h3⟩
          | succ k => simpa using h k (by simpa using hk)
        · rintro ⟨e1, e2, h⟩
          have h0 := h 0 (by simp)
          have := this.2 ⟨by simpa using e1, by simpa using e2, fun k hk => by
            simpa using h (k+1) (by simpa using hk)⟩
          simp at h0
          exact ⟨⟨h0.1, this.1⟩, h0.2, this.2⟩

theorem mem_rangeList {lo up i : List Nat} : i ∈ rangeList lo up ↔ InBox lo up i := by
  rw [← forall2_inBox]
  induction lo generalizing up i with
  | nil =>
    cases up with
    | nil => cases i <;> simp [rangeList]
    | cons => cases i <;> simp [rangeList]
  | cons l ls ih =>
    cases up with
    | nil => cases i <;> simp [rangeList]
    | cons u us =>
      simp only [rangeList, List.mem_flatMap, List.mem_map, List.mem_range'_1]
      cases i with
      | nil => simp
      | cons a as =>
        rw [List.forall₂_cons, List.forall₂_cons]
        constructor
        · rintro ⟨t, ht, x, hx, he⟩
          obtain ⟨rfl, rfl⟩ := List.cons.inj he
          have := ih.1 ht
          exact ⟨⟨hx.1, this.1⟩, by omega, this.2⟩
        · rintro ⟨⟨h1, h2⟩, h3, h4⟩
          exact ⟨as, ih.2 ⟨h2, h4⟩, a, by omega, rfl⟩

theorem length_rangeList (lo up : List Nat) (h : lo.length = up.length) :
    (rangeList lo up).length = listProd (List.zipWith (fun u l => u - l) up lo) := by
  induction lo generalizing up with
  | nil => cases up <;> simp_all [rangeList, listProd]
  | cons l ls ih =>
    cases up with
    | nil => simp at h
    | cons u us =>
      simp only [List.length_cons, Nat.add_right_cancel_iff] at h
      simp only [rangeList, List.length_flatMap, List.length_map, List.length_range', List.zipWith_cons_cons,
        listProd, ← ih us h]
      simp [Nat.mul_comm]

theorem flatIndex_lt_of_before_tail {a b a' b' size : List Nat} {x y s : Nat}
    (_ : a = x :: a') (_ : b = y :: b') (hx : x < s) (h : flatIndex a' size < flatIndex b' size) :
    flatIndex (x :: a') (s :: size) < flatIndex (y :: b') (s :: size) := by
  simp only [flatIndex]
  have : s * (flatIndex a' size + 1) ≤ s * flatIndex b' size := Nat.mul_le_mul_left _ h
  rw [Nat.mul_add] at this
  omega

/-- The enumeration is strictly increasing for any order `R` in which direction 0 is fastest. -/
theorem rangeList_pairwise_flat (lo up size : List Nat)
    (hs : ∀ i, InBox lo up i → InSize size i) :
    (rangeList lo up).Pairwise (fun a b => flatIndex a size < flatIndex b size) := by
  suffices H : ∀ (lo up size : List Nat), List.Forall₂ (· ≤ ·) up size →
      (rangeList lo up).Pairwise (fun a b => flatIndex a size < flatIndex b size) by
    -- reduce to `up ≤ size`; if the box is empty the list is empty
    by_cases hne : rangeList lo up = []
    · simp [hne]
    · obtain ⟨i, hi⟩ := List.exists_mem_of_ne_nil _ hne
      have hb := mem_rangeList.1 hi
      apply H
      -- the top corner `up - 1` is in the box
      have key : ∀ (lo up size i : List Nat), InBox lo up i → (∀ i, InBox lo up i → InSize size i) →
          List.Forall₂ (· ≤ ·) up size := by
        intro lo
        induction lo with
        | nil =>
          intro up size i hi hsz
          have h1 := hi.1; have h2 := hi.2.1
          have := (hsz i hi).1
          have e : i = [] := by simpa using h1
          subst e
          cases up <;> cases size <;> simp_all
        | cons l ls ih =>
          intro up size i hi hsz
          rw [← forall2_inBox] at hi
          obtain ⟨hi1, hi2⟩ := hi
          cases hi1 with
          | @cons _ a _ as h1 h2 =>
            cases hi2 with
            | @cons _ u _ us h3 h4 =>
              have hlen := (hsz (a :: as) (forall2_inBox.1 ⟨.cons h1 h2, .cons h3 h4⟩)).1
              cases size with
              | nil => simp at hlen
              | cons s ss =>
                refine .cons ?_ ?_
                · have := forall2_lt_iff_inSize.2
                    (hsz ((u-1) :: as) (forall2_inBox.1 ⟨.cons (by omega) h2, .cons (by omega) h4⟩))
                  cases this with
                  | cons h _ => omega
                · apply ih us ss as (forall2_inBox.1 ⟨h2, h4⟩)
                  intro j hj
                  rw [← forall2_inBox] at hj
                  have := forall2_lt_iff_inSize.2
                    (hsz (a :: j) (forall2_inBox.1 ⟨.cons h1 hj.1, .cons h3 hj.2⟩))
                  cases this with
                  | cons _ h => exact forall2_lt_iff_inSize.1 h
      exact key lo up size i hb hs
  clear hs lo up size
  intro lo
  induction lo with
  | nil => intro up size _; cases up <;> simp [rangeList]
  | cons l ls ih =>
    intro up size hle
    cases hle with
    | nil => simp [rangeList]
    | @cons u s us ss h1 h2 =>
      have hp := ih us ss h2
      simp only [rangeList]
      rw [List.flatMap]
      rw [List.pairwise_flatten]
      constructor
      · intro l' hl'
        simp only [List.mem_map] at hl'
        obtain ⟨t, ht, rfl⟩ := hl'
        rw [List.pairwise_map]
        refine List.Pairwise.imp ?_ List.pairwise_lt_range'
        intro a b hab
        simp only [flatIndex]
        omega
      · rw [List.pairwise_map]
        refine List.Pairwise.imp ?_ hp
        intro a b hab x hx y hy
        simp only [List.mem_map, List.mem_range'_1] at hx hy
        obtain ⟨p, hp, rfl⟩ := hx
        obtain ⟨q, hq, rfl⟩ := hy
        exact flatIndex_lt_of_before_tail rfl rfl (by omega) hab

theorem rangeList_pairwise_before (lo up : List Nat) :
    (rangeList lo up).Pairwise Before := by
  induction lo generalizing up with
  | nil => cases up <;> simp [rangeList]
  | cons l ls ih =>
    cases up with
    | nil => simp [rangeList]
    | cons u us =>
      have hp := ih us
      simp only [rangeList]
      rw [List.flatMap, List.pairwise_flatten]
      constructor
      · intro l' hl'
        simp only [List.mem_map] at hl'
        obtain ⟨t, ht, rfl⟩ := hl'
        rw [List.pairwise_map]
        refine List.Pairwise.imp ?_ List.pairwise_lt_range'
        intro a b hab
        refine ⟨0, by simp, by simpa using hab, ?_⟩
        intro j hj
        obtain ⟨j, rfl⟩ : ∃ j', j = j' + 1 := ⟨j - 1, by omega⟩
        simp
      · rw [List.pairwise_map]
        refine List.Pairwise.imp ?_ hp
        intro a b hab x hx y hy
        simp only [List.mem_map, List.mem_range'_1] at hx hy
        obtain ⟨p, hp, rfl⟩ := hx
        obtain ⟨q, hq, rfl⟩ := hy
        obtain ⟨k, hk, h1, h2⟩ := hab
        refine ⟨k + 1, by simpa using hk, by simpa using h1, ?_⟩
        intro j hj
        obtain ⟨j, rfl⟩ : ∃ j', j = j' + 1 := ⟨j - 1, by omega⟩
        simpa using h2 j (by omega)

theorem nodup_rangeList (lo up : List Nat) : (rangeList lo up).Nodup := by
  refine List.Pairwise.imp ?_ (rangeList_pairwise_before lo up)
  rintro a b ⟨k, _, h, _⟩ rfl
  exact Nat.lt_irrefl _ h

/-- A non-empty box: all directions non-empty. -/
abbrev NonemptyBox (lo up : List Nat) : Prop := List.Forall₂ (· < ·) lo up

theorem rangeList_head {lo up : List Nat} (h : NonemptyBox lo up) :
    (rangeList lo up).head? = some lo := by
  induction h with
  | nil => simp [rangeList]
  | @cons l u ls us h0 h ih =>
    simp only [rangeList]
    obtain ⟨n, hn⟩ : ∃ n, u - l = n + 1 := ⟨u - l - 1, by omega⟩
    cases hr : rangeList ls us with
    | nil => simp [hr] at ih
    | cons t ts =>
      simp [hr] at ih
      simp [hn, List.range'_succ, ih]

theorem chain_tail {α} {R : α → α → Prop} {a : α} {l : List α} (h : List.IsChain R (a :: l)) :
    List.IsChain R l := by
  cases h with
  | singleton => simp
  | cons_cons _ h => exact h

theorem map_range'_chain (l n : Nat) (t ls us : List Nat) (u : Nat) (hu : l + n ≤ u) :
    List.IsChain (fun a b => incr a (l' :: ls) (u :: us) = some b) ((List.range' l n).map (· :: t)) := by
  induction n generalizing l with
  | zero => simp
  | succ n ih =>
    rw [List.range'_succ, List.map_cons]
    cases n with
    | zero => simp
    | succ n =>
      have := ih (l+1) (by omega)
      rw [List.range'_succ, List.map_cons] at this ⊢
      refine List.IsChain.cons_cons ?_ this
      simp only [incr]
      rw [if_pos (by omega)]

theorem getLast_map_range' (l u : Nat) (t : List Nat) (h : l < u) :
    ((List.range' l (u - l)).map (· :: t)).getLast? = some ((u - 1) :: t) := by
  obtain ⟨n, hn⟩ : ∃ n, u - l = n + 1 := ⟨u - l - 1, by omega⟩
  rw [hn, List.getLast?_map, List.getLast?_range']
  simp; omega

theorem head_map_range' (l u : Nat) (t : List Nat) (h : l < u) :
    ((List.range' l (u - l)).map (· :: t)).head? = some (l :: t) := by
  obtain ⟨n, hn⟩ : ∃ n, u - l = n + 1 := ⟨u - l - 1, by omega⟩
  rw [hn]; simp [List.range'_succ]

theorem flatMap_chain (l u : Nat) (ls us : List Nat) (h : l < u) (L : List (List Nat))
    (hL : List.IsChain (fun a b => incr a ls us = some b) L) :
    List.IsChain (fun a b => incr a (l :: ls) (u :: us) = some b)
      (L.flatMap fun t => (List.range' l (u - l)).map (· :: t)) := by
  induction L with
  | nil => simp
  | cons t ts ih =>
    rw [List.flatMap_cons, List.isChain_append]
    refine ⟨map_range'_chain _ _ _ _ _ _ (by omega), ih (chain_tail hL), ?_⟩
    intro x hx y hy
    rw [getLast_map_range' _ _ _ h] at hx
    simp only [Option.mem_def, Option.some.injEq] at hx
    subst hx
    cases ts with
    | nil => simp at hy
    | cons t' ts' =>
      rw [List.flatMap_cons, List.head?_append, head_map_range' _ _ _ h] at hy
      simp only [Option.some_or, Option.mem_def, Option.some.injEq] at hy
      subst hy
      have : incr t ls us = some t' := by
        cases hL with
        | cons_cons h _ => exact h
      simp only [incr]
      rw [if_neg (by omega), this]; rfl

theorem rangeList_chain {lo up : List Nat} (h : NonemptyBox lo up) :
    List.IsChain (fun a b => incr a lo up = some b) (rangeList lo up) := by
  induction h with
  | nil => simp [rangeList]
  | cons h0 h ih => exact flatMap_chain _ _ _ _ h0 _ ih

theorem rangeList_last {lo up : List Nat} (h : NonemptyBox lo up) :
    ∃ x, (rangeList lo up).getLast? = some x ∧ incr x lo up = none := by
  induction h with
  | nil => exact ⟨[], by simp [rangeList], by simp [incr]⟩
  | @cons l u ls us h0 h ih =>
    obtain ⟨x, hx, hn⟩ := ih
    refine ⟨(u - 1) :: x, ?_, ?_⟩
    · simp only [rangeList]
      obtain ⟨M, hM⟩ := List.getLast?_eq_some_iff.1 hx
      rw [hM, List.flatMap_append]
      simp only [List.flatMap_cons, List.flatMap_nil, List.append_nil]
      rw [List.getLast?_append, getLast_map_range' _ _ _ h0]; simp
    · simp only [incr]
      rw [if_neg (by omega), hn]; rfl

theorem loop_of_chain (r : Range) (L : List (List Nat)) (x : List Nat)
    (hne : ∀ y ∈ x :: L, y ≠ r.up)
    (hc : List.IsChain (fun a b => incr a r.lo r.up = some b) (x :: L))
    (hl : ∃ z, (x :: L).getLast? = some z ∧ incr z r.lo r.up = none) (fuel : Nat) (hf : L.length < fuel) :
    r.loop fuel x = some (x :: L) := by
  induction L generalizing x fuel with
  | nil =>
    obtain ⟨z, hz, hn⟩ := hl
    simp at hz; subst hz
    obtain ⟨f, rfl⟩ : ∃ f, fuel = f + 1 := ⟨fuel - 1, by simp at hf; omega⟩
    simp only [Range.loop]
    rw [if_neg (hne x (by simp))]
    simp only [Range.next, hn, Option.getD_none]
    cases f <;> simp [Range.loop]
  | cons y ys ih =>
    obtain ⟨f, rfl⟩ : ∃ f, fuel = f + 1 := ⟨fuel - 1, by simp at hf; omega⟩
    simp only [Range.loop]
    rw [if_neg (hne x (by simp))]
    have hxy : incr x r.lo r.up = some y := by
      cases hc with
      | cons_cons h _ => exact h
    simp only [Range.next, hxy, Option.getD_some]
    rw [ih y (fun w hw => hne w (List.mem_cons_of_mem _ hw)) (chain_tail hc) ?_ f (by simp at hf; omega)]
    · rfl
    · obtain ⟨z, hz, hn⟩ := hl
      exact ⟨z, by simpa [List.getLast?_cons_cons] using hz, hn⟩

theorem visit_nonempty (r : Range) (h : NonemptyBox r.lo r.up) (hd : r.lo ≠ []) (fuel : Nat)
    (hf : r.size ≤ fuel) : r.visit fuel = some (rangeList r.lo r.up) := by
  have hh := rangeList_head h
  obtain ⟨L, hr⟩ : ∃ L, rangeList r.lo r.up = r.lo :: L := by
    cases hr : rangeList r.lo r.up with
    | nil => simp [hr] at hh
    | cons x L => simp [hr] at hh; exact ⟨L, by rw [hh]⟩
  rw [Range.visit, hr]
  apply loop_of_chain
  · intro y hy he
    rw [← hr] at hy
    have := (forall2_inBox.2 (mem_rangeList.1 hy)).2
    subst he
    have hlen : r.up ≠ [] := by
      intro h0
      have := h.length_eq
      rw [h0] at this
      exact hd (by simpa using this)
    cases hu : r.up with
    | nil => exact hlen hu
    | cons a b =>
      rw [hu] at this
      cases this with
      | cons h _ => exact Nat.lt_irrefl _ h
  · rw [← hr]; exact rangeList_chain h
  · rw [← hr]; exact rangeList_last h
  · have hl := length_rangeList r.lo r.up h.length_eq
    have : r.size = listProd (List.zipWith (fun u l => u - l) r.up r.lo) := by
      simp [Range.size, tsize_eq, Range.sizes]
    rw [this, ← hl, hr] at hf
    simp at hf
    omega

end Qugar

namespace Qugar
open Spec

/-! ### argmax and split -/

theorem argmaxLoop_spec (pre xs : List Nat) (best val : Nat) (hb : best < pre.length)
    (hv : pre.getD best 0 = val) (hmax : ∀ k, pre.getD k 0 ≤ val) :
    let d := argmaxLoop xs pre.length best val
    d < (pre ++ xs).length ∧ ∀ k, (pre ++ xs).getD k 0 ≤ (pre ++ xs).getD d 0 := by
  induction xs generalizing pre best val with
  | nil => simp only [argmaxLoop, List.append_nil]; exact ⟨hb, fun k => by rw [hv]; exact hmax k⟩
  | cons x xs ih =>
    simp only [argmaxLoop]
    have e : pre ++ x :: xs = (pre ++ [x]) ++ xs := by simp
    rw [e]
    have hlen : pre.length + 1 = (pre ++ [x]).length := by simp
    split
    · rw [hlen]
      apply ih (pre ++ [x])
      · simp
      · simp
      · intro k
        rcases Nat.lt_trichotomy k pre.length with h | h | h
        · rw [List.getD_append _ _ _ _ h]; have := hmax k; omega
        · subst h; simp
        · rw [List.getD_eq_default _ _ (by simp; omega)]; omega
    · rw [hlen]
      apply ih (pre ++ [x])
      · simp; omega
      · rw [List.getD_append _ _ _ _ hb, hv]
      · intro k
        rcases Nat.lt_trichotomy k pre.length with h | h | h
        · rw [List.getD_append _ _ _ _ h]; exact hmax k
        · subst h; simp; omega
        · rw [List.getD_eq_default _ _ (by simp; omega)]; omega

theorem argmax_spec (l : List Nat) (h : l ≠ []) :
    argmax l < l.length ∧ ∀ k, l.getD k 0 ≤ l.getD (argmax l) 0 := by
  cases l with
  | nil => exact absurd rfl h
  | cons x xs =>
    have := argmaxLoop_spec [x] xs 0 x (by simp) (by simp) (by
      intro k; cases k <;> simp)
    simpa [argmax] using this

theorem listProd_pos {l : List Nat} : 0 < listProd l ↔ ∀ k, k < l.length → 0 < l.getD k 0 := by
  induction l with
  | nil => simp [listProd]
  | cons x xs ih =>
    rw [listProd]
    constructor
    · intro h k hk
      have h1 := Nat.pos_of_mul_pos_right h
      have h2 := ih.1 (Nat.pos_of_mul_pos_left h)
      cases k with
      | zero => simpa using h1
      | succ k => rw [List.getD_cons_succ]; exact h2 k (by simpa using hk)
    · intro h
      refine Nat.mul_pos (by simpa using h 0 (by simp)) (ih.2 fun k hk => ?_)
      have := h (k+1) (by simpa using hk)
      rwa [List.getD_cons_succ] at this

theorem listProd_le_one {l : List Nat} (h : ∀ k, l.getD k 0 ≤ 1) : listProd l ≤ 1 := by
  induction l with
  | nil => simp [listProd]
  | cons x xs ih =>
    simp only [listProd]
    have h0 := h 0
    have := ih (fun k => by simpa using h (k+1))
    simp at h0
    calc x * listProd xs ≤ 1 * 1 := Nat.mul_le_mul h0 this
      _ = 1 := rfl

theorem listProd_set_add (l : List Nat) (d x y : Nat) (h : d < l.length) :
    listProd (l.set d (x + y)) = listProd (l.set d x) + listProd (l.set d y) := by
  induction l generalizing d with
  | nil => simp at h
  | cons a as ih =>
    cases d with
    | zero => simp [listProd, Nat.add_mul]
    | succ d => simp [listProd, ih d (by simpa using h), Nat.mul_add]

theorem sizes_getD (r : Range) (h : r.lo.length = r.up.length) (k : Nat) :
    r.sizes.getD k 0 = r.up.getD k 0 - r.lo.getD k 0 := by
  simp only [Range.sizes, List.getD_eq_getElem?_getD, List.getElem?_zipWith]
  by_cases hk : k < r.up.length
  · rw [List.getElem?_eq_getElem hk, List.getElem?_eq_getElem (by omega : k < r.lo.length)]; simp
  · rw [List.getElem?_eq_none (by omega), List.getElem?_eq_none (by omega)]; simp

theorem sizes_length (r : Range) (h : r.lo.length = r.up.length) : r.sizes.length = r.up.length := by
  simp [Range.sizes, h]

theorem ext_getD {a b : List Nat} (hl : a.length = b.length) (h : ∀ k, a.getD k 0 = b.getD k 0) : a = b := by
  apply List.ext_getElem hl
  intro k h1 h2
  have := h k
  simpa [List.getD_eq_getElem?_getD, h1, h2] using this

theorem getD_set (l : List Nat) (d m k : Nat) (h : d < l.length) :
    (l.set d m).getD k 0 = if k = d then m else l.getD k 0 := by
  simp only [List.getD_eq_getElem?_getD, List.getElem?_set]
  by_cases hk : k = d
  · subst hk; simp [h]
  · rw [if_neg (by omega), if_neg hk]

/-- Facts on the split direction of a range with more than one index. -/
theorem split_dir_facts (r : Range) (hv : r.Valid) (hs : 1 < r.size) :
    let d := argmax r.sizes
    d < r.lo.length ∧ d < r.up.length ∧ r.lo.getD d 0 + 2 ≤ r.up.getD d 0 ∧
      ∀ k, k < r.lo.length → r.lo.getD k 0 < r.up.getD k 0 := by
  intro d
  have hlen := hv.1
  have hsl := sizes_length r hlen
  rw [Range.size, tsize_eq] at hs
  have hpos := listProd_pos.1 (show 0 < listProd r.sizes by omega)
  have hne : r.sizes ≠ [] := by
    intro h; rw [h] at hs; simp [listProd] at hs
  obtain ⟨hd, hmax⟩ := argmax_spec _ hne
  have h2 : 2 ≤ r.sizes.getD d 0 := by
    by_contra hlt
    have := listProd_le_one (l := r.sizes) (fun k => by have := hmax k; change _ ≤ r.sizes.getD d 0 at this; omega)
    omega
  rw [sizes_getD r hlen] at h2
  refine ⟨by omega, by omega, by omega, ?_⟩
  intro k hk
  have := hpos k (by omega)
  rw [sizes_getD r hlen] at this
  omega

theorem isInRange_iff (r : Range) (i : List Nat) (h1 : i.length = r.lo.length) (h2 : i.length = r.up.length) :
    r.isInRange i = true ↔ InBox r.lo r.up i := by
  rw [← forall2_inBox]
  obtain ⟨lo, up⟩ := r
  simp only [Range.isInRange, Bool.and_eq_true] at *
  have e1 : ∀ (a b : List Nat), a.length = b.length →
      (((List.zipWith (fun l i => decide (l ≤ i)) a b).all id) = true ↔ List.Forall₂ (· ≤ ·) a b) := by
    intro a
    induction a with
    | nil => intro b hb; cases b <;> simp_all
    | cons x xs ih =>
      intro b hb
      cases b with
      | nil => simp at hb
      | cons y ys => simp [← ih ys (by simpa using hb)]
  have e2 : ∀ (a b : List Nat), a.length = b.length →
      (((List.zipWith (fun l i => decide (l < i)) a b).all id) = true ↔ List.Forall₂ (· < ·) a b) := by
    intro a
    induction a with
    | nil => intro b hb; cases b <;> simp_all
    | cons x xs ih =>
      intro b hb
      cases b with
      | nil => simp at hb
      | cons y ys => simp [← ih ys (by simpa using hb)]
  rw [e1 _ _ h1.symm, e2 _ _ h2]

theorem size_eq_length (r : Range) (h : r.lo.length = r.up.length) :
    r.size = (rangeList r.lo r.up).length := by
  rw [length_rangeList _ _ h, Range.size, tsize_eq, Range.sizes]

/-! ### operator< -/

theorem ltLoop_iff (a b : List Nat) (hl : a.length = b.length) :
    ltLoop a b = true ↔ ∃ a' x b' y, a = a' ++ [x] ∧ b = b' ++ [y] ∧ List.Forall₂ (· ≤ ·) a' b' ∧ x < y := by
  induction a generalizing b with
  | nil => cases b <;> simp [ltLoop]
  | cons p ps ih =>
    cases b with
    | nil => simp at hl
    | cons q qs =>
      cases ps with
      | nil =>
        have : qs = [] := by simpa using hl.symm
        subst this
        simp only [ltLoop, decide_eq_true_eq]
        constructor
        · intro h; exact ⟨[], p, [], q, by simp, by simp, .nil, h⟩
        · rintro ⟨a', x, b', y, h1, h2, h3, h4⟩
          cases a' with
          | nil => cases b' with
            | nil => simp at h1 h2; omega
            | cons => simp at h2
          | cons => simp at h1
      | cons p2 ps2 =>
        cases qs with
        | nil => simp at hl
        | cons q2 qs2 =>
          have := ih (q2 :: qs2) (by simpa using hl)
          simp only [ltLoop]
          by_cases hqp : q < p
          · simp only [hqp, if_true]
            constructor
            · intro h; exact absurd h (by simp)
            · rintro ⟨a', x, b', y, h1, h2, h3, h4⟩
              cases h3 with
              | nil => simp at h1
              | cons h _ => simp at h1 h2; omega
          · simp only [hqp, if_false]
            rw [this]
            constructor
            · rintro ⟨a', x, b', y, h1, h2, h3, h4⟩
              exact ⟨p :: a', x, q :: b', y, by simp [h1], by simp [h2], .cons (by omega) h3, h4⟩
            · rintro ⟨a', x, b', y, h1, h2, h3, h4⟩
              cases h3 with
              | nil => simp at h1
              | @cons _ _ l1 l2 h h3 => 
                simp at h1 h2
                exact ⟨l1, x, l2, y, h1.2, h2.2, h3, h4⟩

theorem forall2_le_reverse {a b : List Nat} : List.Forall₂ (· ≤ ·) a.reverse b.reverse ↔ List.Forall₂ (· ≤ ·) a b := by
  exact List.forall₂_reverse_iff

theorem forall2_le_trans {a b c : List Nat} (h1 : List.Forall₂ (· ≤ ·) a b) (h2 : List.Forall₂ (· ≤ ·) b c) :
    List.Forall₂ (· ≤ ·) a c := by
  induction h1 generalizing c with
  | nil => exact h2
  | cons h _ ih => cases h2 with
    | cons h' t' => exact .cons (Nat.le_trans h h') (ih t')

theorem tidxLt_cons (x y : Nat) (a b : List Nat) (hl : a.length = b.length) :
    tidxLt (x :: a) (y :: b) = true ↔ x < y ∧ List.Forall₂ (· ≤ ·) a b := by
  unfold tidxLt
  rw [ltLoop_iff _ _ (by simp [hl])]
  simp only [List.reverse_cons]
  constructor
  · rintro ⟨a', x', b', y', h1, h2, h3, h4⟩
    have e1 := List.append_inj' h1 rfl
    have e2 := List.append_inj' h2 rfl
    rw [← e1.1, ← e2.1, forall2_le_reverse] at h3
    simp at e1 e2
    exact ⟨by omega, h3⟩
  · rintro ⟨h1, h2⟩
    exact ⟨a.reverse, x, b.reverse, y, rfl, rfl, forall2_le_reverse.2 h2, h1⟩

end Qugar
