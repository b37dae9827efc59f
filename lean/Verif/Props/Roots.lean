import Verif.Model.Roots
import Verif.Props.Tolerance
import Mathlib.Tactic.Linarith
import Mathlib.Tactic.NormNum
import Mathlib.Tactic.IntervalCases
/-
Property theorems C48 (numbering of facets and edges) and C42 (roots of a height direction).
-/
namespace Qugar.Ids

/-- **C48**, facets: in every dimension the facets `0 .. 2 dim - 1` correspond one to one to the pairs
(direction, side), and the id of the pair is the facet. -/
theorem C48_facets (dim : Nat) :
    (∀ f, f < 2 * dim → ∃ d s, facetConstantDir dim f = some d ∧ facetSide dim f = some s ∧ d < dim ∧ s ≤ 1 ∧
      localFacetId dim d s = some f) ∧
    (∀ d s, d < dim → s ≤ 1 → ∃ f, localFacetId dim d s = some f ∧ f < 2 * dim ∧
      facetConstantDir dim f = some d ∧ facetSide dim f = some s) ∧
    (∀ f, 2 * dim ≤ f → facetConstantDir dim f = none ∧ facetSide dim f = none) ∧
    (∀ d s, dim ≤ d ∨ 2 ≤ s → localFacetId dim d s = none) := by
  refine ⟨?_, ?_, ?_, ?_⟩
  · intro f hf
    refine ⟨f / 2, f % 2, ?_, ?_, ?_, ?_, ?_⟩
    · simp [facetConstantDir]; omega
    · simp [facetSide]; omega
    · omega
    · omega
    · have h1 : f / 2 < dim := by omega
      have h2 : f % 2 ≤ 1 := by omega
      simp only [localFacetId, h1, h2, if_true, Option.some.injEq]
      omega
  · intro d s hd hs
    refine ⟨d * 2 + s, ?_, ?_, ?_, ?_⟩
    · simp [localFacetId, hd, hs]
    · omega
    · have h1 : d * 2 + s < dim * 2 := by omega
      simp only [facetConstantDir, h1, if_true, Option.some.injEq]
      omega
    · have h1 : d * 2 + s < dim * 2 := by omega
      simp only [facetSide, h1, if_true, Option.some.injEq]
      omega
  · intro f hf
    have : ¬ f < dim * 2 := by omega
    simp [facetConstantDir, facetSide, this]
  · intro d s h
    unfold localFacetId
    rcases h with h | h
    · rw [if_neg (by omega)]
    · by_cases hd : d < dim
      · rw [if_pos hd, if_neg (by omega)]
      · rw [if_neg hd]

/-- **C48**, edges of a cube: the ids `0 .. 11` correspond one to one to the choices of two different (increasing)
constant directions and of a side for each of them. -/
theorem C48_edges_3D :
    (∀ e, e < 12 → ∃ d0 d1 s0 s1, edgeConstantDirs 3 e = some [d0, d1] ∧ edgeSides 3 e = some [s0, s1] ∧
      d0 < d1 ∧ d1 < 3 ∧ s0 ≤ 1 ∧ s1 ≤ 1) ∧
    (∀ d0 d1 s0 s1, d0 < d1 → d1 < 3 → s0 ≤ 1 → s1 ≤ 1 →
      ∃! e, e < 12 ∧ edgeConstantDirs 3 e = some [d0, d1] ∧ edgeSides 3 e = some [s0, s1]) ∧
    (∀ e, 12 ≤ e → edgeConstantDirs 3 e = none ∧ edgeSides 3 e = none) := by
  refine ⟨?_, ?_, ?_⟩
  · intro e he
    have h3 : ¬ (3 = 2) := by decide
    simp only [edgeConstantDirs, edgeSides, h3, if_false, he, if_true]
    by_cases h4 : e < 4
    · exact ⟨0, 1, _, _, by rw [if_pos h4], rfl, by omega, by omega, by omega, by omega⟩
    · by_cases h8 : e < 8
      · exact ⟨0, 2, _, _, by rw [if_neg h4, if_pos h8], rfl, by omega, by omega, by omega, by omega⟩
      · exact ⟨1, 2, _, _, by rw [if_neg h4, if_neg h8], rfl, by omega, by omega, by omega, by omega⟩
  · intro d0 d1 s0 s1 h01 h1 hs0 hs1
    have key : ∀ e, e < 12 ∧ edgeConstantDirs 3 e = some [d0, d1] ∧ edgeSides 3 e = some [s0, s1] ↔
        e = 4 * (d0 + d1 - 1) + 2 * s1 + s0 := by
      intro e
      have h3 : ¬ (3 = 2) := by decide
      constructor
      · rintro ⟨he, ha, hb⟩
        simp only [edgeConstantDirs, edgeSides, h3, if_false, he, if_true] at ha hb
        simp only [Option.some.injEq, List.cons.injEq, and_true] at hb
        by_cases h4 : e < 4
        · rw [if_pos h4] at ha; simp at ha; omega
        · by_cases h8 : e < 8
          · rw [if_neg h4, if_pos h8] at ha; simp at ha; omega
          · rw [if_neg h4, if_neg h8] at ha; simp at ha; omega
      · intro he
        have hlt : e < 12 := by omega
        refine ⟨hlt, ?_, ?_⟩
        · simp only [edgeConstantDirs, h3, if_false, hlt, if_true]
          by_cases h4 : e < 4
          · rw [if_pos h4]; simp; omega
          · by_cases h8 : e < 8
            · rw [if_neg h4, if_pos h8]; simp; omega
            · rw [if_neg h4, if_neg h8]; simp; omega
        · simp only [edgeSides, h3, if_false, hlt, if_true]; simp; omega
    exact ⟨_, (key _).2 rfl, fun e he => (key e).1 he⟩
  · intro e he
    have h3 : ¬ (3 = 2) := by decide
    have h12 : ¬ e < 12 := by omega
    simp [edgeConstantDirs, edgeSides, h12]

/-- **C48**, edges of a square are its facets. -/
theorem C48_edges_2D :
    (∀ e, e < 4 → ∃ d s, edgeConstantDirs 2 e = some [d] ∧ edgeSides 2 e = some [s] ∧ d < 2 ∧ s ≤ 1) ∧
    (∀ d s, d < 2 → s ≤ 1 → ∃! e, edgeConstantDirs 2 e = some [d] ∧ edgeSides 2 e = some [s]) := by
  have h : ∀ e, edgeConstantDirs 2 e = (if e < 4 then some [e / 2] else none) ∧
      edgeSides 2 e = (if e < 4 then some [e % 2] else none) := by
    intro e
    simp only [edgeConstantDirs, edgeSides, facetConstantDir, facetSide, if_true]
    by_cases h : e < 4 <;> simp [h]
  constructor
  · intro e he
    exact ⟨e / 2, e % 2, by rw [(h e).1, if_pos he], by rw [(h e).2, if_pos he], by omega, by omega⟩
  · intro d s hd hs
    refine ⟨2 * d + s, ⟨?_, ?_⟩, ?_⟩
    · rw [(h _).1, if_pos (by omega)]; simp; omega
    · rw [(h _).2, if_pos (by omega)]; simp; omega
    · rintro e ⟨h1, h2⟩
      rw [(h e).1] at h1
      rw [(h e).2] at h2
      split at h1 <;> rename_i he <;> simp [he] at h1 h2
      omega

end Qugar.Ids

namespace Qugar.Roots
variable {K : Type} [Field K] [LinearOrder K] [IsStrictOrderedRing K]

/-- An end point entry: function id -1 and within the tolerance of one of the ends. -/
def IsEnd (tol x0 x1 : K) (r : Root K) : Prop := r.2 = -1 ∧ (|r.1 - x0| ≤ tol ∨ |r.1 - x1| ≤ tol)

/-- What the loop does to a root that is kept. -/
def moved (tol x0 x1 : K) (prev : Option K) (r : Root K) : Root K :=
  if |r.1 - x0| ≤ tol then (x0, r.2) else if |r.1 - x1| ≤ tol then (x1, r.2)
  else match prev with
    | some q => if |r.1 - q| ≤ tol then (q, r.2) else r
    | none => r

instance (tol x0 x1 : K) (r : Root K) : Decidable (IsEnd tol x0 x1 r) := by unfold IsEnd; infer_instance

/-- The kept roots, moved. -/
def movedList (tol x0 x1 : K) : Option K → List (Root K) → List (Root K)
  | _, [] => []
  | prev, r :: rs => (if IsEnd tol x0 x1 r then [] else [moved tol x0 x1 prev r]) ++ movedList tol x0 x1 (some r.1) rs

omit [IsStrictOrderedRing K] in
theorem loop_eq (tol x0 x1 : K) (rs : List (Root K)) : ∀ (prev : Option K) (s : Loop K),
    loop tol x0 x1 prev rs s = ⟨s.out ++ movedList tol x0 x1 prev rs,
      s.hasX0 || rs.any (fun r => decide (r.2 = -1 ∧ |r.1 - x0| ≤ tol)),
      s.hasX1 || rs.any (fun r => decide (r.2 = -1 ∧ ¬ |r.1 - x0| ≤ tol ∧ |r.1 - x1| ≤ tol))⟩ := by
  induction rs with
  | nil => intro prev s; simp [loop, movedList]
  | cons r rs ih =>
    intro prev s
    rw [loop, ih]
    rw [show movedList tol x0 x1 prev (r :: rs) = (if IsEnd tol x0 x1 r then [] else [moved tol x0 x1 prev r]) ++
      movedList tol x0 x1 (some r.1) rs from rfl]
    generalize movedList tol x0 x1 (some r.1) rs = ml
    unfold step moved IsEnd Tol.equal
    by_cases h0 : |r.1 - x0| ≤ tol <;> by_cases h1 : |r.1 - x1| ≤ tol <;> by_cases hm : r.2 = -1 <;>
      simp only [h0, h1, hm, decide_true, decide_false, if_true, if_false, List.any_cons, Bool.false_or, Bool.true_or,
        Bool.or_true, or_true, true_or, or_false, false_or, and_true, and_false, and_self, not_true, not_false_eq_true,
        List.nil_append, List.append_assoc, true_and, false_and, Bool.or_assoc, or_self, Bool.false_eq_true] <;>
      (try rfl)
    all_goals
      cases prev with
      | none => simp
      | some q => by_cases hq : |r.1 - q| ≤ tol <;> simp [hq]

/-- An end entry was present. -/
def hasX0 (tol x0 : K) (old : List (Root K)) : Prop := ∃ r ∈ old, r.2 = -1 ∧ |r.1 - x0| ≤ tol
def hasX1 (tol x0 x1 : K) (old : List (Root K)) : Prop := ∃ r ∈ old, r.2 = -1 ∧ ¬ |r.1 - x0| ≤ tol ∧ |r.1 - x1| ≤ tol

open Classical in
omit [IsStrictOrderedRing K] in
theorem adjust_eq (tol x0 x1 : K) (old : List (Root K)) :
    adjust tol x0 x1 old = (if hasX0 tol x0 old then [(x0, -1)] else []) ++ movedList tol x0 x1 none old ++
      (if hasX1 tol x0 x1 old then [(x1, -1)] else []) := by
  unfold adjust
  cases old with
  | nil => simp [movedList, hasX0, hasX1]
  | cons a l =>
    simp only [List.isEmpty_cons, Bool.false_eq_true, if_false, loop_eq, Bool.false_or]
    have e0 : ((a :: l).any fun r => decide (r.2 = -1 ∧ |r.1 - x0| ≤ tol)) = decide (hasX0 tol x0 (a :: l)) := by
      rw [Bool.eq_iff_iff, decide_eq_true_iff]; simp only [List.any_eq_true, decide_eq_true_eq, hasX0]
    have e1 : ((a :: l).any fun r => decide (r.2 = -1 ∧ ¬ |r.1 - x0| ≤ tol ∧ |r.1 - x1| ≤ tol)) =
        decide (hasX1 tol x0 x1 (a :: l)) := by
      rw [Bool.eq_iff_iff, decide_eq_true_iff]; simp only [List.any_eq_true, decide_eq_true_eq, hasX1]
    rw [e0, e1]
    by_cases h0 : hasX0 tol x0 (a :: l) <;> by_cases h1 : hasX1 tol x0 x1 (a :: l) <;> simp [h0, h1]

theorem near_x0 {tol x0 : K} {r : Root K} (h : x0 - tol ≤ r.1) : |r.1 - x0| ≤ tol ↔ r.1 ≤ x0 + tol := by
  rw [abs_le]
  exact ⟨fun h' => by linarith [h'.2], fun h' => ⟨by linarith, by linarith⟩⟩
theorem near_x1 {tol x1 : K} {r : Root K} (h : r.1 ≤ x1 + tol) : |r.1 - x1| ≤ tol ↔ x1 - tol ≤ r.1 := by
  rw [abs_le]
  exact ⟨fun h' => by linarith [h'.1], fun h' => ⟨by linarith, by linarith⟩⟩

/-- The three cases. -/
theorem moved_cases {tol x0 x1 : K} (prev : Option K) {r : Root K} (h0 : x0 - tol ≤ r.1)
    (h1 : r.1 ≤ x1 + tol) (hp : ∀ q, prev = some q → q ≤ r.1) :
    ((moved tol x0 x1 prev r).1 = x0 ∧ r.1 ≤ x0 + tol) ∨
    ((moved tol x0 x1 prev r).1 = x1 ∧ x1 - tol ≤ r.1 ∧ x0 + tol < r.1) ∨
    ((moved tol x0 x1 prev r).1 ≤ r.1 ∧ r.1 ≤ (moved tol x0 x1 prev r).1 + tol ∧ x0 + tol < r.1 ∧ r.1 < x1 - tol ∧
      (∀ q, prev = some q → q ≤ (moved tol x0 x1 prev r).1)) ∨
    (tol < 0) := by
  unfold moved
  simp only [near_x0 h0, near_x1 h1]
  by_cases c0 : r.1 ≤ x0 + tol
  · exact .inl ⟨by rw [if_pos c0], c0⟩
  · rw [if_neg c0]
    by_cases c1 : x1 - tol ≤ r.1
    · exact .inr (.inl ⟨by rw [if_pos c1], c1, not_le.1 c0⟩)
    · rw [if_neg c1]
      rcases lt_or_ge tol 0 with ht | ht
      · exact .inr (.inr (.inr ht))
      refine .inr (.inr (.inl ?_))
      cases prev with
      | none => exact ⟨le_refl _, by simp [ht], not_le.1 c0, not_le.1 c1, by simp⟩
      | some q =>
        have hq := hp q rfl
        by_cases h2 : |r.1 - q| ≤ tol
        · simp only [h2, if_true]
          refine ⟨hq, by linarith [(abs_le.1 h2).2], not_le.1 c0, not_le.1 c1, ?_⟩
          intro q' hq'; cases hq'; exact le_refl _
        · simp only [h2, if_false]
          refine ⟨le_refl _, by linarith, not_le.1 c0, not_le.1 c1, ?_⟩
          intro q' hq'; cases hq'; exact hq

theorem moved_mem {tol x0 x1 : K} (ht : 0 ≤ tol) (h01 : x0 ≤ x1) (prev : Option K) {r : Root K} (h0 : x0 - tol ≤ r.1)
    (h1 : r.1 ≤ x1 + tol) (hp : ∀ q, prev = some q → q ≤ r.1) :
    x0 ≤ (moved tol x0 x1 prev r).1 ∧ (moved tol x0 x1 prev r).1 ≤ x1 := by
  rcases moved_cases prev h0 h1 hp with h | h | h | h
  · rw [h.1]; exact ⟨le_refl _, h01⟩
  · rw [h.1]; exact ⟨h01, le_refl _⟩
  · exact ⟨by linarith [h.1, h.2.1, h.2.2.1], by linarith [h.1, h.2.1, h.2.2.1]⟩
  · exact absurd ht (not_le.2 h)

theorem moved_mono {tol x0 x1 : K} (ht : 0 ≤ tol) (h01 : x0 ≤ x1) (prev : Option K) (q : K) {r r' : Root K}
    (h0 : x0 - tol ≤ r.1) (h1 : r'.1 ≤ x1 + tol) (hp : ∀ q, prev = some q → q ≤ r.1) (hq : r.1 ≤ q) (hq' : q ≤ r'.1) :
    (moved tol x0 x1 prev r).1 ≤ (moved tol x0 x1 (some q) r').1 := by
  have hm := moved_mem ht h01 prev h0 (by linarith) hp
  have hm' := moved_mem ht h01 (some q) (r := r') (by linarith) h1 (by intro a ha; cases ha; exact hq')
  rcases moved_cases (tol := tol) (x0 := x0) (x1 := x1) (some q) (r := r') (by linarith) h1
    (by intro a ha; cases ha; exact hq') with h | h | h | h
  · rcases moved_cases prev h0 (by linarith : r.1 ≤ x1 + tol) hp with k | k | k | k
    · rw [k.1]; exact hm'.1
    · linarith [k.2.2, h.2]
    · linarith [k.2.2.1, h.2]
    · exact absurd ht (not_le.2 k)
  · rw [h.1]; exact hm.2
  · rcases moved_cases prev h0 (by linarith : r.1 ≤ x1 + tol) hp with k | k | k | k
    · rw [k.1]; exact hm'.1
    · linarith [k.2.1, h.2.2.2.1]
    · linarith [k.1, h.2.2.2.2 q rfl]
    · exact absurd ht (not_le.2 k)
  · exact absurd ht (not_le.2 h)

omit [IsStrictOrderedRing K] in
theorem mem_movedList {tol x0 x1 : K} (rs : List (Root K)) : ∀ (q : K), rs.Pairwise (fun a b => a.1 ≤ b.1) →
    (∀ r ∈ rs, q ≤ r.1) → ∀ a ∈ movedList tol x0 x1 (some q) rs,
    ∃ r ∈ rs, ∃ q', q ≤ q' ∧ q' ≤ r.1 ∧ a = moved tol x0 x1 (some q') r := by
  induction rs with
  | nil => intro q _ _ a ha; simp [movedList] at ha
  | cons r rs ih =>
    intro q hs hq a ha
    rw [List.pairwise_cons] at hs
    have htail : ∀ a ∈ movedList tol x0 x1 (some r.1) rs,
        ∃ r' ∈ r :: rs, ∃ q', q ≤ q' ∧ q' ≤ r'.1 ∧ a = moved tol x0 x1 (some q') r' := by
      intro a ha
      obtain ⟨r', h1, q', h2, h3, h4⟩ := ih r.1 hs.2 hs.1 a ha
      exact ⟨r', by simp [h1], q', le_trans (hq r (by simp)) h2, h3, h4⟩
    unfold movedList at ha
    split at ha
    · exact htail a (by simpa using ha)
    · rcases List.mem_cons.1 (by simpa using ha) with rfl | ha
      · exact ⟨r, by simp, q, le_refl _, hq r (by simp), rfl⟩
      · exact htail a ha

/-- The moved roots are sorted and within the interval. -/
theorem movedList_sorted {tol x0 x1 : K} (ht : 0 ≤ tol) (h01 : x0 ≤ x1) (rs : List (Root K)) :
    ∀ (prev : Option K), (∀ r ∈ rs, x0 - tol ≤ r.1 ∧ r.1 ≤ x1 + tol) → rs.Pairwise (fun a b => a.1 ≤ b.1) →
    (∀ q, prev = some q → ∀ r ∈ rs, q ≤ r.1) →
    (movedList tol x0 x1 prev rs).Pairwise (fun a b => a.1 ≤ b.1) ∧
    (∀ r ∈ movedList tol x0 x1 prev rs, x0 ≤ r.1 ∧ r.1 ≤ x1) := by
  induction rs with
  | nil => intro prev _ _ _; simp [movedList]
  | cons r rs ih =>
    intro prev hin hs hp
    rw [List.pairwise_cons] at hs
    obtain ⟨ih1, ih2⟩ := ih (some r.1) (fun a ha => hin a (by simp [ha])) hs.2 (fun q hq => by cases hq; exact hs.1)
    have hr := hin r (by simp)
    unfold movedList
    split
    · exact ⟨ih1, ih2⟩
    · rw [List.singleton_append]
      refine ⟨List.pairwise_cons.2 ⟨?_, ih1⟩, ?_⟩
      · intro a ha
        obtain ⟨r', h1, q, h2, h3, rfl⟩ := mem_movedList rs r.1 hs.2 hs.1 a ha
        exact moved_mono ht h01 prev q hr.1 (hin r' (by simp [h1])).2 (fun q hq => hp q hq r (by simp)) h2 h3
      · intro a ha
        rcases List.mem_cons.1 ha with rfl | ha
        · exact moved_mem ht h01 prev hr.1 hr.2 (fun q hq => hp q hq r (by simp))
        · exact ih2 a ha

/-- How far a kept root may move: not at all, to an end within the tolerance, or down to the previous root. -/
theorem movedList_forall2 {tol x0 x1 : K} (ht : 0 ≤ tol) (rs : List (Root K)) : ∀ (prev : Option K),
    List.Forall₂ (fun r r' : Root K => r'.2 = r.2 ∧ |r'.1 - r.1| ≤ tol ∧
        (|r.1 - x0| ≤ tol → r'.1 = x0) ∧ (tol < |r.1 - x0| → |r.1 - x1| ≤ tol → r'.1 = x1))
      (rs.filter fun r => ¬ IsEnd tol x0 x1 r) (movedList tol x0 x1 prev rs) := by
  induction rs with
  | nil => intro prev; simp [movedList]
  | cons r rs ih =>
    intro prev
    unfold movedList
    by_cases he : IsEnd tol x0 x1 r
    · rw [List.filter_cons_of_neg (by simpa using he), if_pos he]
      exact ih _
    · rw [List.filter_cons_of_pos (by simpa using he), if_neg he, List.singleton_append]
      refine .cons ?_ (ih _)
      unfold moved
      by_cases h0 : |r.1 - x0| ≤ tol
      · simp only [h0, if_true]
        exact ⟨trivial, by rw [abs_sub_comm]; exact h0, fun _ => trivial, fun h => absurd h0 (not_le.2 h)⟩
      · by_cases h1 : |r.1 - x1| ≤ tol
        · simp only [h0, h1, if_true, if_false]
          exact ⟨trivial, by rw [abs_sub_comm]; exact h1, fun h => absurd h (by simp), fun _ _ => trivial⟩
        · simp only [h0, h1, if_false]
          cases prev with
          | none => simp [ht]
          | some q =>
            by_cases h2 : |r.1 - q| ≤ tol
            · simp only [h2, if_true]
              exact ⟨trivial, by rw [abs_sub_comm]; exact h2, fun h => absurd h (by simp), fun _ h => absurd h (by simp)⟩
            · simp [h2, ht]

/-- `old` is a sorted arrangement of the roots added. -/
def IsSortedPerm (roots old : List (Root K)) : Prop := old.Perm roots ∧ old.Pairwise (fun a b => a.1 ≤ b.1)

open Classical in
/-- **C42** (partial: "no two distinct consecutive roots closer than the tolerance" fails, see
`C42_chains_are_not_merged`; what holds of merging is the last clause). For every list of roots (in the interval up to
the tolerance), in whatever way the sort orders equal roots:

* the result is the end entry `(x0, -1)` iff there was one (within the tolerance of `x0`), then the other roots in
  order, then the end entry `(x1, -1)` iff there was one;
* every other root is kept exactly once with its function, moved by at most the tolerance, roots within the tolerance
  of an end being moved to that end;
* the result is sorted and in the interval. -/
theorem C42_adjusted_roots_partial (tol x0 x1 : K) (ht : 0 ≤ tol) (h01 : x0 ≤ x1) (roots old : List (Root K))
    (hold : IsSortedPerm roots old) (hin : ∀ r ∈ roots, x0 - tol ≤ r.1 ∧ r.1 ≤ x1 + tol) :
    ∃ mid, adjust tol x0 x1 old =
        (if ∃ r ∈ roots, r.2 = -1 ∧ |r.1 - x0| ≤ tol then [(x0, -1)] else []) ++ mid ++
        (if ∃ r ∈ roots, r.2 = -1 ∧ tol < |r.1 - x0| ∧ |r.1 - x1| ≤ tol then [(x1, -1)] else []) ∧
      List.Forall₂ (fun r r' : Root K => r'.2 = r.2 ∧ |r'.1 - r.1| ≤ tol ∧
        (|r.1 - x0| ≤ tol → r'.1 = x0) ∧ (tol < |r.1 - x0| → |r.1 - x1| ≤ tol → r'.1 = x1))
        (old.filter fun r => ¬ (r.2 = -1 ∧ (|r.1 - x0| ≤ tol ∨ |r.1 - x1| ≤ tol))) mid ∧
      (adjust tol x0 x1 old).Pairwise (fun a b => a.1 ≤ b.1) ∧
      ∀ r ∈ adjust tol x0 x1 old, x0 ≤ r.1 ∧ r.1 ≤ x1 := by
  have hin' : ∀ r ∈ old, x0 - tol ≤ r.1 ∧ r.1 ≤ x1 + tol := fun r hr => hin r (hold.1.mem_iff.1 hr)
  obtain ⟨s1, s2⟩ := movedList_sorted ht h01 old none hin' hold.2 (by simp)
  have e0 : hasX0 tol x0 old ↔ ∃ r ∈ roots, r.2 = -1 ∧ |r.1 - x0| ≤ tol := by
    unfold hasX0; simp only [hold.1.mem_iff]
  have e1 : hasX1 tol x0 x1 old ↔ ∃ r ∈ roots, r.2 = -1 ∧ tol < |r.1 - x0| ∧ |r.1 - x1| ≤ tol := by
    unfold hasX1; simp only [hold.1.mem_iff, not_le]
  refine ⟨movedList tol x0 x1 none old, ?_, ?_, ?_, ?_⟩
  · rw [adjust_eq]
    simp only [e0, e1]
  · have := movedList_forall2 (x0 := x0) (x1 := x1) ht old none
    have e : (old.filter fun r => ¬ (r.2 = -1 ∧ (|r.1 - x0| ≤ tol ∨ |r.1 - x1| ≤ tol))) =
        old.filter fun r => ¬ IsEnd tol x0 x1 r := by
      apply List.filter_congr
      intro r _
      simp [IsEnd]
    rw [e]
    exact this
  · rw [adjust_eq, List.append_assoc, List.pairwise_append, List.pairwise_append]
    refine ⟨by split <;> simp, ⟨s1, by split <;> simp, ?_⟩, ?_⟩
    · intro a ha b hb
      split at hb
      · rw [List.mem_singleton] at hb; rw [hb]; exact (s2 a ha).2
      · simp at hb
    · intro a ha b hb
      split at ha
      · rw [List.mem_singleton] at ha
        rw [ha]
        rcases List.mem_append.1 hb with hb | hb
        · exact (s2 b hb).1
        · split at hb
          · rw [List.mem_singleton] at hb; rw [hb]; exact h01
          · simp at hb
      · simp at ha
  · intro r hr
    rw [adjust_eq, List.append_assoc] at hr
    rcases List.mem_append.1 hr with hr | hr
    · split at hr
      · rw [List.mem_singleton] at hr; rw [hr]; exact ⟨le_refl _, h01⟩
      · simp at hr
    · rcases List.mem_append.1 hr with hr | hr
      · exact s2 r hr
      · split at hr
        · rw [List.mem_singleton] at hr; rw [hr]; exact ⟨h01, le_refl _⟩
        · simp at hr

omit [IsStrictOrderedRing K] in
/-- **C42**, merging: a root within the tolerance of the previous root, both away from the ends, takes the previous
root's (old) value; so two roots become equal whenever the first of them was not moved itself. -/
theorem C42_close_roots_are_merged (tol x0 x1 : K) (pre post : List (Root K)) (q r : Root K)
    (h0 : tol < |r.1 - x0|) (h1 : tol < |r.1 - x1|) (hq : |r.1 - q.1| ≤ tol) :
    ∃ l m, adjust tol x0 x1 (pre ++ q :: r :: post) = l ++ (q.1, r.2) :: m := by
  have key : ∀ (pre : List (Root K)) (prev : Option K),
      ∃ l m, movedList tol x0 x1 prev (pre ++ q :: r :: post) = l ++ (q.1, r.2) :: m := by
    intro pre
    induction pre with
    | nil =>
      intro prev
      have hne : ¬ IsEnd tol x0 x1 r := by
        rintro ⟨_, h | h⟩
        · exact absurd h (not_le.2 h0)
        · exact absurd h (not_le.2 h1)
      simp only [List.nil_append, movedList, hne, if_false]
      have : moved tol x0 x1 (some q.1) r = (q.1, r.2) := by
        simp [moved, not_le.2 h0, not_le.2 h1, hq]
      rw [this]
      exact ⟨_, _, rfl⟩
    | cons a pre ih =>
      intro prev
      obtain ⟨l, m, h⟩ := ih (some a.1)
      rw [List.cons_append, movedList, h]
      exact ⟨(if IsEnd tol x0 x1 a then [] else [moved tol x0 x1 prev a]) ++ l, m, by rw [List.append_assoc]⟩
  obtain ⟨l, m, h⟩ := key pre none
  rw [adjust_eq, h]
  exact ⟨_ ++ l, m ++ _, by simp only [List.append_assoc, List.cons_append]; rfl⟩

/-- **C42**, negated clause: distinct consecutive roots closer than the tolerance remain: a chain of three roots `a`,
`a + d`, `a + 2 d` with `tol / 2 < d ≤ tol` away from the ends becomes `a`, `a`, `a + d`. -/
theorem C42_chains_are_not_merged (tol x0 x1 a d : K) (hd0 : 0 < d) (hd : d ≤ tol) (h0 : x0 + tol < a)
    (h1 : a + 2 * d < x1 - tol) (f g h : Int) :
    adjust tol x0 x1 [(x0, -1), (a, f), (a + d, g), (a + 2 * d, h), (x1, -1)] =
      [(x0, -1), (a, f), (a, g), (a + d, h), (x1, -1)] := by
  have ht : 0 ≤ tol := by linarith
  have n0 : ∀ t, x0 + tol < t → ¬ |t - x0| ≤ tol := fun t h h' => by linarith [(abs_le.1 h').2]
  have n1 : ∀ t, t < x1 - tol → ¬ |t - x1| ≤ tol := fun t h h' => by linarith [(abs_le.1 h').1]
  have a1 : ¬ |a - x0| ≤ tol := n0 _ h0
  have a2 : ¬ |a + d - x0| ≤ tol := n0 _ (by linarith)
  have a3 : ¬ |a + 2 * d - x0| ≤ tol := n0 _ (by linarith)
  have a4 : ¬ |x1 - x0| ≤ tol := n0 _ (by linarith)
  have b1 : ¬ |a - x1| ≤ tol := n1 _ (by linarith)
  have b2 : ¬ |a + d - x1| ≤ tol := n1 _ (by linarith)
  have b3 : ¬ |a + 2 * d - x1| ≤ tol := n1 _ (by linarith)
  have c0 : |(0 : K)| ≤ tol := by rwa [abs_zero]
  have c1 : |d| ≤ tol := by rw [abs_le]; constructor <;> linarith
  have c2 : |2 * d - d| ≤ tol := by rw [abs_le]; constructor <;> linarith
  simp [adjust, loop, step, Tol.equal, a1, a2, a3, a4, b1, b2, b3, c0, c1, c2, ht]

/-- The hypotheses are met, and the chain of the last theorem exists. -/
example : adjust (1 / 10 : ℚ) 0 1 [(0, -1), (1 / 20, 2), (1 / 2, 0), (11 / 20, 1), (1, -1)] =
    [(0, -1), (0, 2), (1 / 2, 0), (1 / 2, 1), (1, -1)] := by decide +kernel
example : adjust (1 / 10 : ℚ) 0 1 [(0, -1), (50 / 100, 0), (59 / 100, 1), (68 / 100, 2), (1, -1)] =
    [(0, -1), (50 / 100, 0), (50 / 100, 1), (59 / 100, 2), (1, -1)] := by decide +kernel

end Qugar.Roots
