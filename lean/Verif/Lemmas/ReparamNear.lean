import Verif.Lemmas.ReparamEvents
import Mathlib.Tactic.Linarith
/-
Breaks and inserted points are close to roots of the polynomials.
-/
namespace Qugar.Reparam
open Roots Mesh Poly Spec TS
variable {K : Type} [Field K] [LinearOrder K] [IsStrictOrderedRing K]

theorem forall2_mem_left {α β : Type} {R : α → β → Prop} {l : List α} {l' : List β} (h : List.Forall₂ R l l') {a : α} (ha : a ∈ l) :
    ∃ b ∈ l', R a b := by
  induction h with
  | nil => simp at ha
  | @cons x y l l' hxy _ ih =>
    rcases List.mem_cons.1 ha with rfl | h
    · exact ⟨y, by simp, hxy⟩
    · obtain ⟨b, hb, h⟩ := ih h
      exact ⟨b, by simp [hb], h⟩

/-- The ends and the roots of functions: after sorting and adjusting, the ends are at the ends, and in between there is one value
per root, within the tolerance of it. -/
theorem adjust_near {tol : K} (ht : 0 ≤ tol) (ht1 : tol < 1) {R old : List (Root K)} (hs : IsSortedPerm R old) {fs : List (Root K)}
    (hR : R.Perm ([((0 : K), (-1 : Int)), (1, -1)] ++ fs)) (hid : ∀ r ∈ fs, 0 ≤ r.2) (hin : ∀ r ∈ fs, 0 ≤ r.1 ∧ r.1 ≤ 1) :
    ∃ mid : List (Root K), adjust tol 0 1 old = (0, -1) :: mid ++ [(1, -1)] ∧
      (∀ r ∈ mid, ∃ a ∈ fs, r.2 = a.2 ∧ |r.1 - a.1| ≤ tol) ∧ (∀ a ∈ fs, ∃ r ∈ mid, r.2 = a.2 ∧ |r.1 - a.1| ≤ tol) := by
  classical
  have hmem : ∀ r, r ∈ R ↔ r = (0, -1) ∨ r = (1, -1) ∨ r ∈ fs := by
    intro r
    rw [hR.mem_iff]
    simp [or_assoc]
  have hinR : ∀ r ∈ R, 0 ≤ r.1 ∧ r.1 ≤ 1 := by
    intro r hr
    rcases (hmem r).1 hr with rfl | rfl | h
    · simp
    · simp
    · exact hin r h
  obtain ⟨mid, h1, h2, _, _⟩ := C42_adjusted_roots_partial tol 0 1 ht (by norm_num) R old hs
    (fun r hr => ⟨by linarith [(hinR r hr).1], by linarith [(hinR r hr).2]⟩)
  have e0 : ∃ r ∈ R, r.2 = -1 ∧ |r.1 - 0| ≤ tol := ⟨(0, -1), (hmem _).2 (Or.inl rfl), rfl, by simpa using ht⟩
  have e1 : ∃ r ∈ R, r.2 = -1 ∧ tol < |r.1 - 0| ∧ |r.1 - 1| ≤ tol :=
    ⟨(1, -1), (hmem _).2 (Or.inr (Or.inl rfl)), rfl, by simpa using ht1, by simpa using ht⟩
  rw [if_pos e0, if_pos e1] at h1
  refine ⟨mid, by rw [h1]; rfl, ?_, ?_⟩
  · intro r hr
    obtain ⟨a, ha, hra⟩ := forall2_mem_right h2 hr
    obtain ⟨ha, hna⟩ := List.mem_filter.1 ha
    refine ⟨a, ?_, hra.1, hra.2.1⟩
    rcases (hmem a).1 (hs.1.mem_iff.1 ha) with rfl | rfl | h
    · simp [ht] at hna
    · simp [ht] at hna
    · exact h
  · intro a ha
    have ha' : a ∈ old.filter fun r => ¬ (r.2 = -1 ∧ (|r.1 - 0| ≤ tol ∨ |r.1 - 1| ≤ tol)) := by
      rw [List.mem_filter]
      refine ⟨hs.1.mem_iff.2 ((hmem a).2 (Or.inr (Or.inr ha))), ?_⟩
      have := hid a ha
      simp only [decide_eq_true_eq]
      rintro ⟨h, _⟩
      omega
    obtain ⟨r, hr, hra⟩ := forall2_mem_left h2 ha'
    exact ⟨r, hr, hra.1, hra.2.1⟩

/-- Breaks that are close to the roots at `p`. -/
def NearRoots (E : Env K) (L : Level K) (p : List K) (rts : List (Root K)) : Prop :=
  ∃ mid : List (Root K), rts = (0, -1) :: mid ++ [(1, -1)] ∧
    (∀ r ∈ mid, ∃ i, i < L.phi.count ∧ ∃ x ∈ L.phi.roots i p, r.2 = (i : Int) ∧ |r.1 - x| ≤ E.tol) ∧
    (∀ i, i < L.phi.count → ∀ x ∈ L.phi.roots i p, ∃ r ∈ mid, r.2 = (i : Int) ∧ |r.1 - x| ≤ E.tol)

theorem mem_flat_roots (phi : PolySet K) (p : List K) (a : Root K) :
    a ∈ ((List.range phi.count).flatMap fun (i : Nat) => (phi.roots i p).map fun r => (r, (i : Int))) ↔
      ∃ i, i < phi.count ∧ ∃ x ∈ phi.roots i p, a = (x, (i : Int)) := by
  simp only [List.mem_flatMap, List.mem_range, List.mem_map]
  constructor
  · rintro ⟨i, hi, x, hx, rfl⟩; exact ⟨i, hi, x, hx, rfl⟩
  · rintro ⟨i, hi, x, hx, rfl⟩; exact ⟨i, hi, x, hx, rfl⟩

theorem near_of_perm {E : Env K} (ht : 0 ≤ E.tol) (ht1 : E.tol < 1) (hs : IsRootSort E.srt) {L : Level K} (h : RootsOk [L])
    (p : List K) {R : List (Root K)} (hR : R.Perm (allRoots L.phi p)) : NearRoots E L p (adjust E.tol 0 1 (E.srt R)) := by
  obtain ⟨mid, h1, h2, h3⟩ := adjust_near ht ht1 (hs R) (fs := (List.range L.phi.count).flatMap fun (i : Nat) =>
      (L.phi.roots i p).map fun r => (r, (i : Int))) hR
    (by intro r hr; obtain ⟨i, _, x, _, rfl⟩ := (mem_flat_roots L.phi p r).1 hr; simp)
    (by intro r hr; obtain ⟨i, _, x, hx, rfl⟩ := (mem_flat_roots L.phi p r).1 hr; exact h L (by simp) i p x hx)
  refine ⟨mid, h1, ?_, ?_⟩
  · intro r hr
    obtain ⟨a, ha, e1, e2⟩ := h2 r hr
    obtain ⟨i, hi, x, hx, rfl⟩ := (mem_flat_roots L.phi p a).1 ha
    exact ⟨i, hi, x, hx, e1, e2⟩
  · intro i hi x hx
    exact h3 (x, (i : Int)) ((mem_flat_roots L.phi p _).2 ⟨i, hi, x, hx, rfl⟩)

theorem near_breaks {E : Env K} (ht : 0 ≤ E.tol) (ht1 : E.tol < 1) (hs : IsRootSort E.srt) {L : Level K} (h : RootsOk [L])
    (p : List K) : NearRoots E L p (breaks E L p) := near_of_perm ht ht1 hs h p (List.Perm.refl _)

/-- With a steady number of roots the intervals over `p` are given by the roots at `p`. -/
theorem near_similar {E : Env K} (ht : 0 ≤ E.tol) (ht1 : E.tol < 1) (hs : IsRootSort E.srt) {L : Level K} (h : RootsOk [L])
    {q p : List K} {act : List Bool} {iv : Intervals K} (hst : SteadyAt E L q p)
    (hiv : computeSimilar E L ⟨q, breaks E L q, act⟩ p = some iv) : NearRoots E L p iv.roots := by
  have hcnt := fun i hi => breaks_count ht hs h q i hi
  unfold computeSimilar at hiv
  dsimp only at hiv
  split at hiv
  · rename_i h2
    cases hiv
    obtain ⟨mid, h1, h3, h4⟩ := near_breaks ht ht1 hs h q
    have hm : mid = [] := by
      rw [h1] at h2
      simpa using h2
    subst hm
    refine ⟨[], h1, by simp, ?_⟩
    intro i hi x hx
    have hl := (hst i hi).1
    cases hq : L.phi.roots i q with
    | nil => rw [hq] at hl; rw [List.length_eq_zero_iff.1 hl] at hx; simp at hx
    | cons y ys => obtain ⟨r, hr, _⟩ := h4 i hi y (by rw [hq]; simp); simp at hr
  · obtain ⟨f, hf⟩ : ∃ f : Nat → Option (List (Root K)), f = fun (i : Nat) =>
        if (((breaks E L q).filter fun r => decide (r.2 = (i : Int))).map (·.1)).isEmpty then some []
        else (similarRoots E L i q p (((breaks E L q).filter fun r => decide (r.2 = (i : Int))).map (·.1))).map
          fun l => l.map fun r => (r, (i : Int)) := ⟨_, rfl⟩
    have hfi : ∀ i ∈ List.range L.phi.count, f i = some ((L.phi.roots i p).map fun r => (r, (i : Int))) := by
      intro i hi
      have hi := List.mem_range.1 hi
      have hc := hcnt i hi
      rw [hf]
      dsimp only
      split
      · rename_i he
        have : ((breaks E L q).filter fun r => decide (r.2 = (i : Int))).length = 0 := by
          have := congrArg List.length (List.isEmpty_iff.1 he)
          simpa using this
        rw [this] at hc
        have hl := (hst i hi).1
        rw [← hc] at hl
        rw [List.length_eq_zero_iff.1 hl]
        rfl
      · rw [similarRoots_steady hst hi (by rw [List.length_map]; exact hc)]
        rfl
    have hm : (List.range L.phi.count).mapM f = some ((List.range L.phi.count).map fun (i : Nat) => (L.phi.roots i p).map fun r => (r, (i : Int))) :=
      mapM_some _ _ _ hfi
    rw [hf] at hm
    rw [hm] at hiv
    simp only [Option.bind_eq_bind, Option.bind_some] at hiv
    split at hiv
    · cases hiv
      refine near_of_perm ht ht1 hs h p ?_
      rw [← List.flatMap_def]
      exact List.perm_append_comm
    · cases hiv

theorem near_intervals {E : Env K} (ht : 0 ≤ E.tol) (ht1 : E.tol < 1) (hs : IsRootSort E.srt) {L : Level K} (h : RootsOk [L])
    {M : RefMap K} {tid : List Nat} {q p : List K} {act : List Bool} (hM : M.lookup tid = some ⟨q, breaks E L q, act⟩)
    (hl : q.length = p.length) (hst : SteadyAt E L q p) {iv : Intervals K} (hiv : computeIntervals E L M p tid = some iv) :
    NearRoots E L p iv.roots := by
  unfold computeIntervals at hiv
  rw [hM] at hiv
  simp only [Option.bind_eq_bind, Option.bind_some] at hiv
  split at hiv
  · rename_i h0
    cases hiv
    have hp : p = [] := List.length_eq_zero_iff.1 h0
    have hq : q = [] := List.length_eq_zero_iff.1 (by rw [hl, h0])
    subst hp; subst hq
    exact near_breaks ht ht1 hs h []
  · exact near_similar ht ht1 hs h hst hiv

end Qugar.Reparam
