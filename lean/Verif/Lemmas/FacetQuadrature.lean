import Verif.Lemmas.Quadrature
/-
Helper lemmas for facet and unfitted boundary rules.
-/
namespace Qugar
open Spec
variable {K : Type} [Field K] [LinearOrder K]

theorem purgeFacetTest_eq (o : QOracle K) (dom : Box K) (f : Nat) (hasUnf isCut remUnf remCut : Bool) (p : List K) :
    purgeFacetTest o dom f (remUnf && hasUnf) (true && hasUnf) (remCut && isCut) p =
      decide (FacetPointRemoved o dom f hasUnf isCut remUnf remCut p) := by
  have hc : (facetCoord f : K) = if f % 2 = 0 then 0 else 1 := rfl
  rw [Bool.eq_iff_iff, decide_eq_true_iff]
  unfold purgeFacetTest FacetPointRemoved facetPoint PointsOut
  rw [hc]
  generalize Box.scaleFrom01 dom (p.insertIdx (f / 2) (if f % 2 = 0 then (0 : K) else 1)) = x
  simp only [Tol.isZero, Tol.isNegative, Tol.isPositive]
  by_cases hz : |o.val x| ≤ o.tol
  · by_cases hf : f % 2 = 0
    · by_cases ho : (o.grad x).getD (f / 2) 0 < -o.tol <;> cases hasUnf <;> cases remUnf <;> simp [hz, hf, ho]
    · by_cases ho : o.tol < (o.grad x).getD (f / 2) 0 <;> cases hasUnf <;> cases remUnf <;> simp [hz, hf, ho]
  · cases remCut <;> cases isCut <;> simp [hz]

theorem purgeFacet_spec (o : QOracle K) (g : Grid K) (d : Dom) (c f : Nat) (remUnf remCut : Bool) (q : FacetsQuad K)
    (b : List (Node K)) (hl : q.points.length = q.weights.length) (dom : Box K) (hdom : g.cellDomain c = some dom)
    (isCut : Bool) (hcut : d.isCutFacet c f = some isCut) (q' : FacetsQuad K)
    (h : purgeFacet o g d c f remUnf true remCut (q.push b) = some q') :
    ∃ hasUnf, d.hasUnfFacet c f = some hasUnf ∧ q' = q.push (b.filter fun x =>
      !decide (FacetPointRemoved o dom f hasUnf isCut remUnf remCut x.1)) := by
  unfold purgeFacet at h
  obtain ⟨hasUnf, h1, h⟩ := Option.bind_eq_some_iff.1 h
  refine ⟨hasUnf, h1, ?_⟩
  obtain ⟨pc, h2, h⟩ := Option.bind_eq_some_iff.1 h
  have hpc : pc = (remCut && isCut) := by
    cases remCut
    · simp at h2; simp [h2]
    · simp only [if_true, hcut] at h2; simpa using h2.symm
  subst hpc
  have hfil : (fun x : Node K => !decide (FacetPointRemoved o dom f hasUnf isCut remUnf remCut x.1)) =
      fun x : Node K => !purgeFacetTest o dom f (remUnf && hasUnf) (true && hasUnf) (remCut && isCut) x.1 := by
    funext x; rw [purgeFacetTest_eq]
  rw [hfil]
  split at h
  · rename_i hno
    injection h with h
    subst h
    have hno' : (remUnf && hasUnf) = false ∧ (true && hasUnf) = false ∧ (remCut && isCut) = false := by
      revert hno; cases remUnf <;> cases hasUnf <;> cases remCut <;> cases isCut <;> simp
    rw [hno'.1, hno'.2.1, hno'.2.2]
    have : b.filter (fun x => !purgeFacetTest o dom f false false false x.1) = b := by
      rw [List.filter_eq_self]
      intro x _
      simp [purgeFacetTest]
    rw [this]
  · rw [hdom] at h
    simp only [Option.map_some, Option.some.injEq] at h
    rw [← h]
    exact eraseFacet_push q b hl _

/-- One facet: what is appended, and that the static rules stay unit rules. -/
theorem facetQuad_spec (debug : Bool) (t : QuadType K) (o : QOracle K) (g : Grid K) (d : Dom) (n c f : Nat)
    (remUnf remCut : Bool) (ch : Cache K) (hg : g.length = 2 ∨ g.length = 3) (hc : CacheOk t ch) (q : FacetsQuad K)
    (hl : q.points.length = q.weights.length) (x : Cache K × FacetsQuad K)
    (h : facetQuad debug t o g d n c f remUnf remCut ch q = some x) :
    CacheOk t x.1 ∧ ∃ b, IsFacetRule t o g d n c f remUnf remCut b ∧ x.2 = q.push b := by
  unfold facetQuad at h
  split at h
  · obtain ⟨fullUnf, h1, h⟩ := Option.bind_eq_some_iff.1 h
    obtain ⟨full, h2, h⟩ := Option.bind_eq_some_iff.1 h
    have hrule : ∀ x', (refreshRule t (g.length - 1) n (facetSetSize g.length n) (ch.facet g.length)).map (fun r =>
          (({ ch with facet := fun k => if k = g.length then some r else ch.facet k } : Cache K),
           (⟨q.cells, q.facets, q.nPts ++ [((facetSetSize g.length n : Nat) : Int)], q.points ++ r.points,
             q.weights ++ r.weights⟩ : FacetsQuad K))) = some x' →
        CacheOk t x'.1 ∧ x'.2 = q.push (unitRule t (g.length - 1) n) := by
      intro x' hx
      obtain ⟨r, h3, rfl⟩ := Option.map_eq_some_iff.1 hx
      rw [refreshRule_eq t _ n _ (facetSetSize_eq _ n hg) (by omega) _ (hc.2 _)] at h3
      refine ⟨⟨hc.1, ?_⟩, ?_⟩
      · intro k r' hr
        dsimp only at hr
        split at hr
        · rename_i hk
          injection hr with hr
          exact ⟨n, by rw [hk, ← hr]; exact h3⟩
        · exact hc.2 k r' hr
      · rw [create01_eq] at h3
        split at h3
        · injection h3 with h3
          subst h3
          simp only [Rule.ofNodes, FacetsQuad.push, unitRule_length]
          rw [facetSetSize_eq _ n hg]
        · simp at h3
    cases fullUnf
    · simp only [Bool.false_eq_true, if_false] at h2
      cases full
      · simp only [Bool.false_eq_true, if_false] at h
        obtain ⟨cut, h3, h⟩ := Option.bind_eq_some_iff.1 h
        obtain ⟨b, h4, h⟩ := Option.bind_eq_some_iff.1 h
        cases b
        · simp only [Bool.false_eq_true, if_false, Option.some.injEq] at h
          subst h
          cases cut
          · simp only [Bool.false_eq_true, if_false] at h4
            exact ⟨hc, [], Or.inr (Or.inr ⟨h1, h2, false, false, h3, h4, Or.inr ⟨rfl, rfl, rfl⟩⟩),
              by simp [FacetsQuad.push]⟩
          · simp at h4
        · simp only [if_true] at h
          obtain ⟨q1, h5, h⟩ := Option.bind_eq_some_iff.1 h
          obtain ⟨q2, h6, rfl⟩ := Option.map_eq_some_iff.1 h
          obtain ⟨dom, hdom, rfl⟩ := algoimFacet_spec debug o g d c f n q q1 h5
          obtain ⟨hasUnf, h7, rfl⟩ := purgeFacet_spec o g d c f remUnf remCut q _ hl dom hdom cut h3 q2 h6
          refine ⟨hc, _, Or.inr (Or.inr ⟨h1, h2, cut, hasUnf, h3, h7, Or.inl ⟨?_, dom, hdom, rfl⟩⟩), rfl⟩
          cases cut
          · simp only [Bool.false_eq_true, if_false] at h4
            rw [h7] at h4
            right; simpa using h4
          · exact Or.inl rfl
      · simp only [if_true, Bool.false_and, Bool.false_eq_true, if_false] at h
        obtain ⟨r1, r2⟩ := hrule x h
        exact ⟨r1, _, Or.inr (Or.inl ⟨h1, h2, rfl⟩), r2⟩
    · simp only [if_true, Option.some.injEq] at h2
      subst h2
      simp only [if_true, Bool.true_and] at h
      cases remUnf
      · simp only [Bool.false_eq_true, if_false] at h
        obtain ⟨r1, r2⟩ := hrule x h
        exact ⟨r1, _, Or.inl ⟨h1, rfl⟩, by simpa using r2⟩
      · simp only [if_true, Option.some.injEq] at h
        subst h
        exact ⟨hc, _, Or.inl ⟨h1, rfl⟩, by simp [FacetsQuad.push]⟩
  · simp at h

theorem facetCreator_spec (debug : Bool) (t : QuadType K) (o : QOracle K) (g : Grid K) (d : Dom) (n : Nat)
    (kind : FacetIntegral) (c f : Nat) (ch : Cache K) (hg : g.length = 2 ∨ g.length = 3) (hc : CacheOk t ch)
    (q : FacetsQuad K) (hl : q.points.length = q.weights.length) (x : Cache K × FacetsQuad K)
    (h : facetCreator debug t o g d n kind c f ch q = some x) :
    CacheOk t x.1 ∧ ∃ b, IsIntegralFacetRule t o g d n kind c f b ∧ x.2 = q.push b := by
  unfold facetCreator at h
  obtain ⟨ext, h1, h⟩ := Option.bind_eq_some_iff.1 h
  have hzero : ({ q with nPts := q.nPts ++ [0] } : FacetsQuad K) = q.push [] := by simp [FacetsQuad.push]
  cases kind
  · cases ext
    · simp only [Bool.not_false, if_true] at h
      obtain ⟨r1, b, r2, r3⟩ := facetQuad_spec debug t o g d n c f _ _ ch hg hc q hl x h
      exact ⟨r1, b, Or.inl ⟨h1, r2⟩, r3⟩
    · simp only [Bool.not_true, Bool.false_eq_true, if_false, Option.some.injEq] at h
      subst h
      exact ⟨hc, [], Or.inr ⟨h1, rfl⟩, hzero⟩
  · cases ext
    · simp only [Bool.false_eq_true, if_false] at h
      obtain ⟨unf, h2, h⟩ := Option.bind_eq_some_iff.1 h
      cases unf
      · simp only [Bool.false_eq_true, if_false, Option.some.injEq] at h
        subst h
        exact ⟨hc, [], Or.inr (Or.inr ⟨h1, h2, rfl⟩), hzero⟩
      · simp only [if_true] at h
        obtain ⟨r1, b, r2, r3⟩ := facetQuad_spec debug t o g d n c f _ _ ch hg hc q hl x h
        exact ⟨r1, b, Or.inr (Or.inl ⟨h1, h2, r2⟩), r3⟩
    · simp only [if_true] at h
      obtain ⟨r1, b, r2, r3⟩ := facetQuad_spec debug t o g d n c f _ _ ch hg hc q hl x h
      exact ⟨r1, b, Or.inl ⟨h1, r2⟩, r3⟩

theorem facetLoop_spec (debug : Bool) (t : QuadType K) (o : QOracle K) (g : Grid K) (d : Dom) (n : Nat)
    (kind : FacetIntegral) (hg : g.length = 2 ∨ g.length = 3) (cs : List (Nat × Nat)) (ch : Cache K)
    (hc : CacheOk t ch) (q : FacetsQuad K) (bs : List (List (Node K))) (hq : Stored bs q.nPts q.points q.weights)
    (x : Cache K × FacetsQuad K) (h : facetLoop debug t o g d n kind cs ch q = some x) :
    CacheOk t x.1 ∧ ∃ bs', List.Forall₂ (fun cf => IsIntegralFacetRule t o g d n kind cf.1 cf.2) cs bs' ∧
      Stored (bs ++ bs') x.2.nPts x.2.points x.2.weights ∧ x.2.cells = q.cells ∧ x.2.facets = q.facets := by
  induction cs generalizing ch q bs with
  | nil =>
    simp only [facetLoop, Option.some.injEq] at h
    subst h
    exact ⟨hc, [], List.Forall₂.nil, by simpa using hq, rfl, rfl⟩
  | cons cf cs ih =>
    obtain ⟨c, f⟩ := cf
    rw [facetLoop] at h
    obtain ⟨y, h1, h2⟩ := Option.bind_eq_some_iff.1 h
    obtain ⟨hc', b, hb, hy⟩ := facetCreator_spec debug t o g d n kind c f ch hg hc q (Stored.lengths hq).1 y h1
    have hst : Stored (bs ++ [b]) y.2.nPts y.2.points y.2.weights := by rw [hy]; exact Stored.push hq b
    obtain ⟨r1, bs', r2, r3, r4, r5⟩ := ih y.1 hc' y.2 (bs ++ [b]) hst h2
    refine ⟨r1, b :: bs', List.Forall₂.cons hb r2, ?_, by rw [r4, hy]; rfl, by rw [r5, hy]; rfl⟩
    rw [show bs ++ b :: bs' = bs ++ [b] ++ bs' by simp]
    exact r3

end Qugar
