import Verif.Props.PyIntegral
import Verif.Props.QuadExamples
/-
C90: a concrete integral that meets the hypotheses, and its value.
-/
namespace Qugar.Py.Integral

open Pack Assemble Quad Spec

/-- The answers of Algoim of `Qugar.Example`, with gradients of the right length. -/
def oracleI : QOracle ℚ := { Example.qo with bzrGrad := fun _ _ => [1, 0] }

/-- The domain of `Qugar.Example` (three cells in a row: full, cut, empty), the cells in another local order, with its facets. -/
def domainI (d : Dom) : QDomain ℚ :=
  ⟨⟨⟨none, [], [2, 0, 1], []⟩, ⟨10, [[7, 5, 8, 9], [0, 1, 2, 3], [4, 2, 5, 6]], [[1], [1], [1, 2], [1], [2], [0, 2], [2], [0], [0], [0]]⟩,
    fun _ => false, (0, 10), 3, d⟩, Example.midpoint, oracleI, Example.grid, false⟩

/-- An element in dimension 2 with the functions `x` and `x ^ 2`. -/
def basixI : Tables.Basix Nat ℚ where
  dim := fun _ => 2
  dofs := fun _ => 2
  values := fun _ => 1
  valid := fun _ => true
  eval := fun _ x _ dof _ => (x.getD 0 0) ^ (dof + 1)

def tableI : Tables.Table Nat :=
  { name := 0, elem := .plain 0, elemDim := 2, component := 0, derivs := [0, 0], funcs := 2, perms := 1, const := false }

/-- A quadrature of the interior, with that table, and one of the boundary, without tables; the normal stands at the constants 0, 1. -/
def infoI : Kernel.Info where
  tables := [0]
  constant _ := false
  permuted _ := false
  quadOf _ := 0
  quads := [0, 1]
  boundary q := q == 1
  interior := false
  normals := [0]
  tdim := 2

/-- `for ic < 2: A[ic] += weights_0[iq] * FE[0][0][iq][ic] * w[0]`. -/
def firstI : Kernel.Loop ℚ where
  quad := 0
  pre := [.marker, .declWeights 0, .declWeights 1, .declTable 0]
  bound := .fixed 1
  body := [.code (.loop 0 2 (.accum (.var 0) (.op (· * ·) (.weight 0) (.op (· * ·) (.table4 0 none 0 none (.var 0)) (.input 0 (.lit 0))))))]

/-- `A[0] += weights_1[iq] * n[0]`. -/
def secondI : Kernel.Loop ℚ where
  quad := 1
  pre := []
  bound := .fixed 1
  body := [.code (.accum (.lit 0) (.op (· * ·) (.weight 1) (.const 0)))]

/-- Static tables of FFCx: the midpoint rule. -/
def valuesI : Kernel.Values ℚ where
  const _ := 0
  input _ _ := 0
  staticWeight _ _ := 1
  staticTable _ _ _ _ d := (1 / 2) ^ (d + 1)
  weight _ _ := 0
  table _ _ _ _ := 0
  normals _ _ := 0
  points _ := 0

def scalarsI : Scalars ℚ ℚ := ⟨id, fun l => l.headD 0⟩

def specsI : List QuadSpec := [⟨1, false⟩, ⟨1, true⟩]

theorem domainI_valid : Example.grid.Valid := by
  intro k hk
  simp only [Example.grid, List.mem_cons, List.not_mem_nil, or_false] at hk
  rcases hk with rfl | rfl <;> constructor <;> simp <;> norm_num

theorem domainI_orig {d : Dom} {l v : Nat} (h : (domainI d).u.mesh.OrigCell l v) : v < 3 := by
  rw [origCell_iff] at h
  obtain ⟨o, h2, h3⟩ := h
  have e : o = v := h3
  subst e
  have := List.mem_of_getElem? h2
  simp only [domainI, List.mem_cons, List.not_mem_nil, or_false] at this
  omega

theorem topologyI : Topology.Ok ⟨10, [[7, 5, 8, 9], [0, 1, 2, 3], [4, 2, 5, 6]], [[1], [1], [1, 2], [1], [2], [0, 2], [2], [0], [0], [0]]⟩ := by
  refine ⟨?_, by decide, by decide⟩
  intro f c cs h
  have hf : f < 10 := (List.getElem?_eq_some_iff.1 h).1
  have key : ∀ f < 10, ∀ c < 3, (c ∈ ([[1], [1], [1, 2], [1], [2], [0, 2], [2], [0], [0], [0]] : List (List Nat)).getD f []) ↔
      f ∈ ([[7, 5, 8, 9], [0, 1, 2, 3], [4, 2, 5, 6]] : List (List Nat)).getD c [] := by decide
  have hcs : ([[1], [1], [1, 2], [1], [2], [0, 2], [2], [0], [0], [0]] : List (List Nat)).getD f [] = cs := by
    rw [List.getD_eq_getElem?_getD, h]; rfl
  by_cases hc : c < 3
  · have := key f hf c hc
    rw [hcs] at this
    rw [this, List.getD_eq_getElem?_getD]
    have hc' : c < ([[7, 5, 8, 9], [0, 1, 2, 3], [4, 2, 5, 6]] : List (List Nat)).length := hc
    rw [List.getElem?_eq_getElem hc']
    simp
  · have h1 : ∀ f < 10, ∀ x ∈ ([[1], [1], [1, 2], [1], [2], [0, 2], [2], [0], [0], [0]] : List (List Nat)).getD f [], x < 3 := by decide
    constructor
    · intro hm
      exact absurd (h1 f hf c (by rw [hcs]; exact hm)) hc
    · rintro ⟨row, hr, -⟩
      have hlt := (List.getElem?_eq_some_iff.1 hr).1
      simp only [List.length_cons, List.length_nil] at hlt
      omega

theorem domainI_ok {d : Dom} (h : build true Example.oracles Example.grid none = .ok d) :
    (domainI d).Ok 3 ∧ (domainI d).u.Ok 3 ∧ PointDims (domainI d).oracle (domainI d).grid := by
  obtain ⟨d', h1, h2, -⟩ := build_facts true Example.oracles Example.grid none domainI_valid (by simp [Example.grid]) (.inr rfl)
  rw [h] at h1
  obtain rfl := Except.ok.inj h1
  have hn : d.n = [3, 1] := by
    obtain ⟨d', h3, h4⟩ := exists_ok_of (x := build true Example.oracles Example.grid none) (fun d : Dom => d.n = [3, 1]) (by decide +kernel)
    rw [h] at h3
    obtain rfl := Except.ok.inj h3
    exact h4
  have hm : (domainI d).u.mesh.Ok 3 := ⟨show [2, 0, 1].Nodup by decide, show ∀ i ∈ [2, 0, 1], i < 3 by decide, show [2, 0, 1] ≠ [] by decide,
    fun a h => by cases h⟩
  refine ⟨⟨domainI_valid, .inl rfl, ⟨true, Example.oracles, none, .inr rfl, h⟩, hm, fun l v h => domainI_orig h, rfl⟩,
    ⟨hm, h2, ?_, ?_, ?_, topologyI, show 10 ≤ 10 by decide, rfl, ?_, rfl, Nat.le_refl 3⟩, ⟨?_, ?_, ?_, ?_, ?_, ?_⟩⟩
  · show 1 ≤ d.n.length; rw [hn]; decide
  · show d.n.length ≤ 3; rw [hn]; decide
  · intro l v h
    show v < listProd d.n
    rw [hn]
    exact domainI_orig h
  · intro row hr
    have : ∀ row ∈ ([[7, 5, 8, 9], [0, 1, 2, 3], [4, 2, 5, 6]] : List (List Nat)), row.length = 4 := by decide
    rw [this row hr]
    show 4 = 2 * d.n.length
    rw [hn]; rfl
  · intro c dom n _ x hx
    simp only [domainI, oracleI, Example.qo, List.mem_singleton] at hx
    subst hx; rfl
  · intro c dom n _ x hx
    simp [domainI, oracleI, Example.qo] at hx
  · intro c dom n _ x hx
    simp only [domainI, oracleI, Example.qo, List.mem_singleton] at hx
    subst hx; rfl
  · intro c dom n _ x hx
    simp [domainI, oracleI, Example.qo] at hx
  · intro x _; rfl
  · intro c dom x _ _; rfl

theorem consistentI : Consistent basixI infoI [[tableI], []] 2 specsI where
  names := by decide
  length := rfl
  specs := rfl
  tdim := rfl
  interior := rfl
  known := by
    rintro m q ts hm ht x hx
    rcases m with _ | _ | m
    · simp only [List.getElem?_cons_zero, Option.some.injEq, infoI] at hm ht
      subst hm ht
      obtain rfl := List.mem_singleton.1 hx
      exact ⟨rfl, rfl, rfl⟩
    · simp only [List.getElem?_cons_succ, List.getElem?_cons_zero, Option.some.injEq] at ht
      subst ht
      simp at hx
    · simp at ht
  all := by
    intro t ht
    obtain rfl := List.mem_singleton.1 ht
    exact ⟨tableI, by simp, rfl⟩
  distinct := by decide
  wellFormed := by
    intro x hx _
    simp only [List.flatten_cons, List.flatten_nil, List.append_nil, List.mem_singleton] at hx
    subst hx
    exact ⟨.plain 0, ⟨0, 0, rfl, by decide, rfl, rfl, rfl⟩, show 1 ≤ 2 by decide, show 2 ≤ 3 by decide, rfl⟩
  dims := by
    intro x hx _
    simp only [List.flatten_cons, List.flatten_nil, List.append_nil, List.mem_singleton] at hx
    subst hx
    rfl
  one := by
    have key : ∀ (m : Nat) ts, ([[tableI], []] : List (List (Tables.Table Nat)))[m]? = some ts → (∃ x ∈ ts, x.const = false) → m = 0 := by
      intro m ts h h'
      rcases m with _ | _ | m
      · rfl
      · simp only [List.getElem?_cons_succ, List.getElem?_cons_zero, Option.some.injEq] at h
        subst h
        simp at h'
      · simp at h
    intro m m' ts ts' h1 h2 h3 h4
    rw [key m ts h1 h3, key m' ts' h2 h4]

theorem shapeI : Kernel.Shape infoI firstI [secondI] [] [0, 1] [0] [] where
  pre := rfl
  setup := by simp
  more := by simp
  tables := by simp
  between := by simp [secondI]
  body := by simp [firstI, secondI, Kernel.IsBody, Kernel.FromFFCx, Kernel.Code.All, infoI]
  quads := by simp [firstI, secondI, infoI]

theorem kernelI : KernelOk infoI [[tableI], []] firstI [secondI] 1 where
  shape := ⟨_, _, _, _, shapeI⟩
  fixed := by
    intro l hl
    simp only [List.mem_cons, List.not_mem_nil, or_false] at hl
    rcases hl with rfl | rfl <;> exact ⟨1, rfl⟩
  own := by
    intro l hl
    simp only [List.mem_cons, List.not_mem_nil, or_false] at hl
    rcases hl with rfl | rfl <;> (unfold Kernel.Local; decide +kernel)
  allowed := by
    intro l hl c hc
    simp only [List.mem_cons, List.not_mem_nil, or_false] at hl
    rcases hl with rfl | rfl
    · simp only [firstI, List.cons_append, List.nil_append, List.mem_cons, reduceCtorEq, Kernel.Stmt.code.injEq, List.not_mem_nil, or_false,
        false_or] at hc
      subst hc
      intro k hk
      refine ⟨rfl, ?_, ?_⟩
      · intro _
        refine ⟨rfl, rfl, by simp, ?_⟩
        intro n hn
        simp only [Kernel.Idx.val, Function.update_self, Option.some.injEq] at hn
        subst hn
        exact hk
      · intro _ n hn
        simp only [Kernel.Idx.val, Option.some.injEq] at hn
        subst hn
        exact Nat.zero_lt_one
    · simp only [firstI, secondI, List.cons_append, List.nil_append, List.mem_cons, reduceCtorEq, Kernel.Stmt.code.injEq, List.not_mem_nil, or_false,
        false_or] at hc
      subst hc
      exact ⟨rfl, trivial⟩
  constant := by
    intro l hl c hc
    simp only [List.mem_cons, List.not_mem_nil, or_false] at hl
    rcases hl with rfl | rfl
    · simp only [firstI, List.cons_append, List.nil_append, List.mem_cons, reduceCtorEq, Kernel.Stmt.code.injEq, List.not_mem_nil, or_false,
        false_or] at hc
      subst hc
      simp [Kernel.Code.All, ConstantFixed, infoI]
    · simp only [firstI, secondI, List.cons_append, List.nil_append, List.mem_cons, reduceCtorEq, Kernel.Stmt.code.injEq, List.not_mem_nil, or_false,
        false_or] at hc
      subst hc
      simp [Kernel.Code.All, ConstantFixed]

theorem goodI {d : Dom} (h : build true Example.oracles Example.grid none = .ok d) :
    Good basixI infoI [[tableI], []] firstI [secondI] (domainI d) 3 ⟨1, 1⟩ 1 [[7], [5], [3]] [0, 1, 2] specsI where
  built := (domainI_ok h).1
  mesh := (domainI_ok h).2.1
  points := (domainI_ok h).2.2
  data := consistentI
  degrees := by
    intro s hs
    simp only [specsI, List.mem_cons, List.not_mem_nil, or_false] at hs
    rcases hs with rfl | rfl <;> (show 1 + 1 ≤ 2 * 100; decide)
  typesOk := ⟨.inl rfl, .inl rfl⟩
  cells := by
    intro c hc
    show c < 3
    revert c
    decide
  rows := rfl
  row := by decide
  kernel := kernelI

/-- The nodes of the cut cell: in the left half, and in the boundary. -/
def rulesI (q : Nat) : List (UNode ℚ) := if q = 0 then [([1 / 4, 1 / 2], 1 / 2, [])] else [([1 / 2, 1 / 2], 1, [1, 0])]

/-- Cell 0 is full, cell 1 cut, cell 2 empty. -/
theorem statusI {d : Dom} (h : build true Example.oracles Example.grid none = .ok d) :
    HasStatus d.n d.tree 0 .full ∧ HasStatus d.n d.tree 1 .cut ∧ HasStatus d.n d.tree 2 .empty := by
  obtain ⟨d', h1, h2, -⟩ := build_facts true Example.oracles Example.grid none domainI_valid (by simp [Example.grid]) (.inr rfl)
  rw [h] at h1
  obtain rfl := Except.ok.inj h1
  obtain ⟨d', h3, h4⟩ := exists_ok_of (x := build true Example.oracles Example.grid none)
    (fun d : Dom => d.tree.isCell d.n .full 0 = some true ∧ d.tree.isCell d.n .cut 1 = some true ∧ d.tree.isCell d.n .empty 2 = some true)
    (by decide +kernel)
  rw [h] at h3
  obtain rfl := Except.ok.inj h3
  have hw := (Tree.WF.of_reachable h2.shape.2 h2.reach).1
  exact ⟨(hw.isCell_iff _ _).1 h4.1, (hw.isCell_iff _ _).1 h4.2.1, (hw.isCell_iff _ _).1 h4.2.2⟩

set_option synthInstance.maxHeartbeats 400000 in
set_option synthInstance.maxSize 1000 in
theorem ruleI {d : Dom} (h : build true Example.oracles Example.grid none = .ok d) :
    ∀ (m n : Nat) s, infoI.quads[m]? = some n → specsI[m]? = some s → IsRule (domainI d) s 1 (rulesI n) := by
  obtain ⟨d', h3, h4⟩ := exists_ok_of (x := build true Example.oracles Example.grid none)
    (fun d : Dom => d.isCutCell 1 = some true ∧ d.isCellWithUnf 1 = some true ∧
      ((cutSurfaceRule oracleI [(2, 4), (0, 1)] 0).filter fun x =>
        decide (∀ f < Example.grid.length * 2, d.hasUnfFacet 1 f = some true → ¬ OnFacet oracleI [(2, 4), (0, 1)] f x)) = rulesI 1)
    (by decide +kernel)
  rw [h] at h3
  obtain rfl := Except.ok.inj h3
  have hdom : Grid.cellDomain Example.grid 1 = some [((2 : ℚ), 4), (0, 1)] := by decide +kernel
  intro m n s hm hs
  rcases m with _ | _ | m
  · simp only [infoI, specsI, List.getElem?_cons_zero, Option.some.injEq] at hm hs
    subst hm hs
    refine ⟨[([1 / 4, 1 / 2], 1 / 2)], .inl ⟨h4.1, _, hdom, ?_⟩, rfl⟩
    show _ = cutCellRule oracleI [(2, 4), (0, 1)] 0
    decide +kernel
  · simp only [infoI, specsI, List.getElem?_cons_zero, List.getElem?_cons_succ, Option.some.injEq] at hm hs
    subst hm hs
    refine .inr ⟨h4.2.1, rulesI 1, [[], [], [], []], by simp, .inr ⟨h4.1, _, hdom, h4.2.2.symm⟩, rfl, ?_⟩
    intro f hf
    rw [if_neg (by simp)]
    have : ∀ x ∈ ([[], [], [], []] : List (List (UNode ℚ))), x = [] := by simp
    exact this _ (List.getElem_mem hf)
  · simp [infoI] at hm

/-- The data of the full cell. -/
def fullI : Kernel.Values ℚ :=
  { valuesI with input := fun a k => if a = 0 then (coefOf scalarsI 1 [5] k).getD (valuesI.input 0 k) else valuesI.input a k }

/-- C90 non-vacuity: the integral of `w f` over the domain, plus that of the first component of the normal over the unfitted boundary. The
full cell (with coefficient 5) adds `5 / 2` and `5 / 4`; the cut one (with coefficient 3) adds, at its node `(1/4, 1/2)` with weight `1/2`,
`3 / 8` and `3 / 32`, and 1 in the boundary. -/
example {argsort : List Int → List Nat} (hs : ∀ l, IsArgsort l (argsort l)) (toNat : ℚ → Nat) (hn : ∀ n : Nat, toNat (n : ℚ) = n) :
    ∃ d x i mem st A, build true Example.oracles Example.grid none = .ok d ∧
      cellInput argsort (domainI d) ⟨1, 1⟩ 1 [[7], [5], [3]] [0, 1, 2] specsI {} Cache.init = some (x, i) ∧ pack i = some mem ∧
      assembleScalar (⟨toNat, scalarsI, basixI, infoI, false, [[tableI], []], [firstI, secondI], ⟨1, 1⟩, 1, mem⟩ : Job Nat ℚ ℚ)
        ((List.range 3).map fun e => (i.rowPos e, valuesI))
        { registry := [], keys := [], size := 0, epoch := 0, data := fun _ => 0, base := 0, ptr := fun _ _ => none } 0 = some (st, A) ∧
      A 0 = 5 / 2 + (3 / 8 + 1) ∧ A 1 = 5 / 4 + 3 / 32 := by
  obtain ⟨d, h, -⟩ := exists_ok_of (x := build true Example.oracles Example.grid none) (fun _ => True) (by decide +kernel)
  have hk : UDomain.CellCachesOk argsort (domainI d).u {} := ⟨by rintro r ⟨⟩, by rintro r ⟨⟩, by rintro r ⟨⟩⟩
  have hr : Reached (domainI d) Cache.init := ⟨[], by simp, rfl⟩
  obtain ⟨s', ch', i, mem, h1, h2, -, -⟩ := C90_total hs toNat hn (goodI h) hk hr
  obtain ⟨t0, t1, t2⟩ := statusI h
  have hu {v a b} := hasStatus_unique (v := v) (a := a) (b := b) (domainI_ok h).2.1
  obtain ⟨δ1, e1, e2⟩ := Option.map_eq_some_iff.1 (show (Kernel.run fullI infoI.tdim
    ([firstI, secondI].map (Kernel.skip infoI)) .empty [] 0).map (fun A => (A 0, A 1)) = some (5 / 2, 5 / 4) by decide +kernel)
  obtain ⟨δ2, f1, f2⟩ := Option.map_eq_some_iff.1 (show (cellSum (atNode scalarsI basixI [[tableI], []] (coefOf scalarsI 1 [3]) valuesI) infoI firstI.pre
    rulesI [firstI, secondI]).map (fun A => (A 0, A 1)) = some (3 / 8 + 1, 3 / 32) by decide +kernel)
  obtain ⟨st, g1, -⟩ := C90_scalar_partial hs toNat hn scalarsI (goodI h) hk hr h1 h2 (fun _ => valuesI)
    (fun e => if e = 0 then 0 else if e = 1 then δ1 else δ2)
    (by
      intro e he
      have hm : ∀ c v : Nat, ([2, 0, 1] : List Nat)[c]? = some v → (domainI d).u.mesh.OrigCell c v :=
        fun c v h => (origCell_iff _ _ _).2 ⟨v, h, rfl⟩
      match e, he with
      | 0, _ => exact ⟨0, 2, [7], rfl, hm 0 2 rfl, rfl, fun h => absurd (hu h t2) (by decide), fun _ => rfl, fun _ h => absurd t2 h⟩
      | 1, _ => exact ⟨1, 0, [5], rfl, hm 1 0 rfl, rfl, fun h => absurd (hu h t0) (by decide), fun h => absurd (hu h t0) (by decide),
          fun _ _ => e1⟩
      | 2, _ => exact ⟨2, 1, [3], rfl, hm 2 1 rfl, rfl, fun _ => ⟨rulesI, ruleI h, f1⟩, fun h => absurd (hu h t1) (by decide),
          fun h => absurd t1 h⟩) (.start _ _) 0
  refine ⟨d, _, i, mem, st, _, h, h1, h2, g1, ?_, ?_⟩
  · have a := congrArg Prod.fst e2
    have b := congrArg Prod.fst f2
    simp only at a b
    simp [List.range_succ, a, b]
  · have a := congrArg Prod.snd e2
    have b := congrArg Prod.snd f2
    simp only at a b
    simp [List.range_succ, a, b]

end Qugar.Py.Integral
