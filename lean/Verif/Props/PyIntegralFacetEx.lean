import Verif.Props.PyIntegralFacet
import Verif.Props.PyIntegralEx
/-
C91: a concrete integral over facets that meets the hypotheses, and its value.
-/
namespace Qugar.Py.Integral

open Pack Assemble Quad Spec

/-- One quadrature, with the table of `tableI`. -/
def infoF : Kernel.Info where
  tables := [0]
  constant _ := false
  permuted _ := false
  quadOf _ := 0
  quads := [0]
  boundary _ := false
  interior := false
  normals := []
  tdim := 2

/-- `for ic < 2: A[ic] += weights_0[iq] * FE[0][0][iq][ic] * w[0]`. -/
def loopF : Kernel.Loop ℚ where
  quad := 0
  pre := [.marker, .declWeights 0, .declTable 0]
  bound := .fixed 1
  body := [.code (.loop 0 2 (.accum (.var 0) (.op (· * ·) (.weight 0) (.op (· * ·) (.table4 0 none 0 none (.var 0)) (.input 0 (.lit 0))))))]

def specsF : List QuadSpec := [⟨1, false⟩]

/-- The right facet of the empty cell, the left one of the full cell, the lower one of the cut cell. -/
def facetsF : Facets := [(0, 2), (1, 1), (2, 0)]

theorem consistentF : Consistent basixI infoF [[tableI]] 2 specsF where
  names := by decide
  length := rfl
  specs := rfl
  tdim := rfl
  interior := rfl
  known := by
    rintro m q ts hm ht x hx
    rcases m with _ | m
    · simp only [List.getElem?_cons_zero, Option.some.injEq, infoF] at hm ht
      subst hm ht
      obtain rfl := List.mem_singleton.1 hx
      exact ⟨rfl, rfl, rfl⟩
    · simp at ht
  all := by
    intro t ht
    obtain rfl := List.mem_singleton.1 ht
    exact ⟨tableI, by simp, rfl⟩
  distinct := by decide
  wellFormed := by
    intro x hx _
    simp only [List.flatten_cons, List.flatten_nil, List.append_nil, List.mem_singleton] at hx
    subst hx
    exact ⟨.plain 0, ⟨0, 0, rfl, by decide, rfl, rfl, rfl⟩, show 1 ≤ 2 by decide, show 2 ≤ 3 by decide, rfl⟩
  dims := by
    intro x hx _
    simp only [List.flatten_cons, List.flatten_nil, List.append_nil, List.mem_singleton] at hx
    subst hx
    rfl
  one := by
    intro m m' ts ts' h1 h2 _ _
    have a := (List.getElem?_eq_some_iff.1 h1).1
    have b := (List.getElem?_eq_some_iff.1 h2).1
    simp only [List.length_cons, List.length_nil] at a b
    omega

theorem shapeF : Kernel.Shape infoF loopF [] [] [0] [0] [] where
  pre := rfl
  setup := by simp
  more := by simp
  tables := by simp
  between := by simp
  body := by simp [loopF, Kernel.IsBody, Kernel.FromFFCx, Kernel.Code.All, infoF]
  quads := by simp [loopF, infoF]

theorem kernelF : KernelOk infoF [[tableI]] loopF [] 1 where
  shape := ⟨_, _, _, _, shapeF⟩
  fixed := by
    intro l hl
    obtain rfl := List.mem_singleton.1 hl
    exact ⟨1, rfl⟩
  own := by
    intro l hl
    obtain rfl := List.mem_singleton.1 hl
    unfold Kernel.Local; decide +kernel
  allowed := by
    intro l hl c hc
    obtain rfl := List.mem_singleton.1 hl
    simp only [loopF, List.cons_append, List.nil_append, List.mem_cons, reduceCtorEq, Kernel.Stmt.code.injEq, List.not_mem_nil, or_false,
      false_or] at hc
    subst hc
    intro k hk
    refine ⟨rfl, ?_, ?_⟩
    · intro _
      refine ⟨rfl, rfl, by simp, ?_⟩
      intro n hn
      simp only [Kernel.Idx.val, Function.update_self, Option.some.injEq] at hn
      subst hn
      exact hk
    · intro _ n hn
      simp only [Kernel.Idx.val, Option.some.injEq] at hn
      subst hn
      exact Nat.zero_lt_one
  constant := by
    intro l hl c hc
    obtain rfl := List.mem_singleton.1 hl
    simp only [loopF, List.cons_append, List.nil_append, List.mem_cons, reduceCtorEq, Kernel.Stmt.code.injEq, List.not_mem_nil, or_false,
      false_or] at hc
    subst hc
    simp [Kernel.Code.All, ConstantFixed, infoF]

theorem origF (d : Dom) {c v : Nat} (h : ([2, 0, 1] : List Nat)[c]? = some v) : (domainI d).u.mesh.OrigCell c v :=
  (origCell_iff _ _ _).2 ⟨v, h, rfl⟩

theorem knownF {d : Dom} (h : build true Example.oracles Example.grid none = .ok d) {c : Nat} (hc : c < 3) : (domainI d).u.Known c := by
  obtain ⟨t0, t1, t2⟩ := statusI h
  have hu {v a b} := hasStatus_unique (v := v) (a := a) (b := b) (domainI_ok h).2.1
  match c, hc with
  | 0, _ => exact ⟨2, origF d rfl, fun k => absurd (hu k t2) (by decide)⟩
  | 1, _ => exact ⟨0, origF d rfl, fun k => absurd (hu k t0) (by decide)⟩
  | 2, _ => exact ⟨1, origF d rfl, fun k => absurd (hu k t1) (by decide)⟩

theorem facetOfF (d : Dom) : (domainI d).u.topo.FacetOf 0 2 8 ∧ (domainI d).u.topo.FacetOf 1 1 1 ∧ (domainI d).u.topo.FacetOf 2 0 4 :=
  ⟨⟨_, rfl, rfl⟩, ⟨_, rfl, rfl⟩, ⟨_, rfl, rfl⟩⟩

theorem goodF {d : Dom} (h : build true Example.oracles Example.grid none = .ok d) :
    FacetGood basixI infoF [[tableI]] loopF [] (domainI d) 3 ⟨1, 1⟩ 1 [[7], [5], [3]] facetsF specsF where
  built := (domainI_ok h).1
  mesh := (domainI_ok h).2.1
  points := by
    refine ⟨?_, ?_⟩
    · intro c dom f n _ x hx
      simp only [domainI, oracleI, Example.qo, List.mem_cons, List.not_mem_nil, or_false] at hx
      rcases hx with rfl | rfl <;> rfl
    · intro c dom f n _ x hx
      simp [domainI, oracleI, Example.qo] at hx
  data := consistentF
  degrees := by
    intro s hs
    obtain rfl := List.mem_singleton.1 hs
    exact ⟨rfl, show 1 + 1 ≤ 2 * 100 by decide⟩
  typesOk := ⟨.inl rfl, .inl rfl⟩
  facets := by
    intro p hp
    simp only [facetsF, List.mem_cons, List.not_mem_nil, or_false] at hp
    obtain ⟨f1, f2, f3⟩ := facetOfF d
    rcases hp with rfl | rfl | rfl
    · exact ⟨knownF h (by decide), _, f1⟩
    · exact ⟨knownF h (by decide), _, f2⟩
    · exact ⟨knownF h (by decide), _, f3⟩
  rows := rfl
  row := by decide
  kernel := kernelF

theorem answerF {d : Dom} (h : build true Example.oracles Example.grid none = .ok d) :
    (domainI d).u.Answer (.empty true) 0 2 ∧ (domainI d).u.Answer (.full true) 1 1 ∧ (domainI d).u.Answer (.cut true) 2 0 := by
  obtain ⟨d', h3, hn, e1, e2, e3⟩ := exists_ok_of (x := build true Example.oracles Example.grid none)
    (fun d : Dom => d.n = [3, 1] ∧ d.isEmptyFacet 2 1 = some true ∧ d.isFullFacet 0 0 = some true ∧ d.isCutFacet 1 2 = some true)
    (by decide +kernel)
  rw [h] at h3
  obtain rfl := Except.ok.inj h3
  have hd : (domainI d).u.dim = 2 := by show d.n.length = 2; rw [hn]; rfl
  have ext : ∀ f ∈ [8, 1, 4], (domainI d).u.Ext f := by
    intro f hf
    have : ∀ f ∈ [8, 1, 4], f < 10 ∧ (([[1], [1], [1, 2], [1], [2], [0, 2], [2], [0], [0], [0]] : List (List Nat)).getD f []).length = 1 := by decide
    obtain ⟨a, b⟩ := this f hf
    exact ⟨a, b, rfl⟩
  have hsays : ∀ {p : Nat → Nat → Option Bool} {c k v g : Nat}, ([2, 0, 1] : List Nat)[c]? = some v → g < 4 → SideFacet 2 k g → p v g = some true →
      (domainI d).u.Says p c k := by
    intro p c k v g a1 a2 a3 a4
    refine ⟨v, g, origF d a1, ?_, ?_, a4⟩
    · rw [hd]; exact a2
    · rw [hd]; exact a3
  obtain ⟨f1, f2, f3⟩ := facetOfF d
  exact ⟨⟨8, f1, ext 8 (by simp), hsays rfl (by decide) ⟨_, rfl, by decide⟩ e1⟩,
    ⟨1, f2, .inl ⟨ext 1 (by simp), hsays rfl (by decide) ⟨_, rfl, by decide⟩ e2⟩⟩,
    ⟨4, f3, .inl ⟨ext 4 (by simp), hsays rfl (by decide) ⟨_, rfl, by decide⟩ e3⟩⟩⟩

/-- The node of the cut facet; the one on the unfitted boundary is removed. -/
def nodesF : List (UNode ℚ) := [([1 / 4, 0], 1 / 2, [])]

set_option synthInstance.maxHeartbeats 400000 in
set_option synthInstance.maxSize 1000 in
theorem ruleF {d : Dom} (h : build true Example.oracles Example.grid none = .ok d) : IsSideRule (domainI d) ⟨1, false⟩ 2 0 nodesF := by
  obtain ⟨d', h3, e1, e2, e3, e4⟩ := exists_ok_of (x := build true Example.oracles Example.grid none)
    (fun d : Dom => d.isFullUnfFacet 1 2 = some false ∧ d.isFullFacet 1 2 = some false ∧ d.isCutFacet 1 2 = some true ∧
      d.hasUnfFacet 1 2 = some true) (by decide +kernel)
  rw [h] at h3
  obtain rfl := Except.ok.inj h3
  have hdom : Grid.cellDomain Example.grid 1 = some [((2 : ℚ), 4), (0, 1)] := by decide +kernel
  have hb : Grid.onBoundary Example.grid 1 2 = some true := by decide +kernel
  refine ⟨1, 2, [([1 / 4], 1 / 2)], origF d rfl, (show SideFacet 2 0 2 from ⟨_, rfl, by decide⟩), .inl ⟨hb, .inr (.inr ⟨e1, e2, true, true, e3, e4, .inl ⟨.inl rfl, _, hdom, ?_⟩⟩)⟩,
    by decide +kernel⟩
  show _ = (cutFacetRule oracleI [(2, 4), (0, 1)] 2 _).filter fun x => !decide (FacetPointRemoved oracleI [(2, 4), (0, 1)] 2 true true false false x.1)
  decide +kernel

/-- C91 non-vacuity: the integral of `w f` over three facets. The full one (with coefficient 5) adds `5 / 2` and `5 / 4`; the cut one (with
coefficient 3) adds, at its node `(1/4, 0)` with weight `1/2`, `3 / 8` and `3 / 32`. -/
example {argsort : List Int → List Nat} (hs : ∀ l, IsArgsort l (argsort l)) (toNat : ℚ → Nat) (hn : ∀ n : Nat, toNat (n : ℚ) = n) :
    ∃ d x i mem st A, build true Example.oracles Example.grid none = .ok d ∧
      facetInput argsort (domainI d) ⟨1, 1⟩ 1 [[7], [5], [3]] facetsF specsF {} Cache.init = some (x, i) ∧ pack i = some mem ∧
      assembleScalar (⟨toNat, scalarsI, basixI, infoF, false, [[tableI]], [loopF], ⟨1, 1⟩, 1, mem⟩ : Job Nat ℚ ℚ)
        ((List.range 3).map fun e => (i.rowPos e, valuesI))
        { registry := [], keys := [], size := 0, epoch := 0, data := fun _ => 0, base := 0, ptr := fun _ _ => none } 0 = some (st, A) ∧
      A 0 = 5 / 2 + 3 / 8 ∧ A 1 = 5 / 4 + 3 / 32 := by
  obtain ⟨d, h, -⟩ := exists_ok_of (x := build true Example.oracles Example.grid none) (fun _ => True) (by decide +kernel)
  have hk : Asked argsort (domainI d).u {} := .start
  have hr : Reached (domainI d) Cache.init := ⟨[], by simp, rfl⟩
  obtain ⟨s', ch', i, mem, h1, h2, -, -⟩ := C91_total hs toNat hn (goodF h) hk hr
  obtain ⟨t0, t1, t2⟩ := answerF h
  obtain ⟨o0, o1, o2⟩ := facetOfF d
  have p0 := UDomain.C66_exterior_partition (domainI_ok h).2.1 o0 (knownF h (by decide))
  have p1 := UDomain.C66_exterior_partition (domainI_ok h).2.1 o1 (knownF h (by decide))
  have p2 := UDomain.C66_exterior_partition (domainI_ok h).2.1 o2 (knownF h (by decide))
  obtain ⟨δ1, e1, e2⟩ := Option.map_eq_some_iff.1 (show (Kernel.run fullI infoF.tdim
    ([loopF].map (Kernel.skip infoF)) .empty [] 0).map (fun A => (A 0, A 1)) = some (5 / 2, 5 / 4) by decide +kernel)
  obtain ⟨δ2, f1, f2⟩ := Option.map_eq_some_iff.1 (show (cellSum (atNode scalarsI basixI [[tableI]] (coefOf scalarsI 1 [3]) valuesI) infoF loopF.pre
    (fun _ => nodesF) [loopF]).map (fun A => (A 0, A 1)) = some (3 / 8, 3 / 32) by decide +kernel)
  obtain ⟨st, g1, -⟩ := C91_scalar_partial hs toNat hn scalarsI (goodF h) hk hr h1 h2 (fun _ => valuesI)
    (fun e => if e = 0 then 0 else if e = 1 then δ1 else δ2)
    (by
      intro e he
      match e, he with
      | 0, _ => exact ⟨0, 2, [7], rfl, rfl, fun k => absurd ⟨k, t0⟩ p0.2.1, fun _ => rfl, fun _ k => absurd t0 k⟩
      | 1, _ => exact ⟨1, 1, [5], rfl, rfl, fun k => absurd ⟨k, t1⟩ p1.1, fun k => absurd ⟨t1, k⟩ p1.2.2.1, fun _ _ => e1⟩
      | 2, _ =>
        refine ⟨2, 0, [3], rfl, rfl, fun _ => ⟨fun _ => nodesF, ?_, f1⟩, fun k => absurd ⟨t2, k⟩ p2.2.1, fun k => absurd t2 k⟩
        intro m n s hm hs
        rcases m with _ | m
        · simp only [specsF, List.getElem?_cons_zero, Option.some.injEq] at hs
          subst hs
          exact ruleF h
        · simp [specsF] at hs) (.start _ _) 0
  refine ⟨d, _, i, mem, st, _, h, h1, h2, g1, ?_, ?_⟩
  · have a := congrArg Prod.fst e2
    have b := congrArg Prod.fst f2
    simp only at a b
    simp [facetsF, List.range_succ, a, b]
  · have a := congrArg Prod.snd e2
    have b := congrArg Prod.snd f2
    simp only at a b
    simp [facetsF, List.range_succ, a, b]

end Qugar.Py.Integral
