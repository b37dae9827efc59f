import Verif.Props.PyIntegralMeasure
/-
C94: the kernels of finite element functions, with any number of functions, compute their integrals.
-/
namespace Qugar.Py.Integral

open Pack Assemble Quad Spec BoxMeasure Integrals
open MeasureTheory hiding integral

/-- Determinant of the Jacobian in a rectangle: the coordinates of the first three vertices are the entries 0, 1, 3, 4, 6 and 7. -/
def detJ : Kernel.Expr ℝ :=
  .op (· * ·) (.op (· - ·) (.input 1 (.lit 3)) (.input 1 (.lit 0))) (.op (· - ·) (.input 1 (.lit 7)) (.input 1 (.lit 1)))

/-- `w0 += w[ic] * FE[0][0][iq][ic]`. -/
def stepFE : Kernel.Expr ℝ := .op (· + ·) (.var 0 (.lit 0)) (.op (· * ·) (.input 0 (.var 0)) (.table4 0 none 0 none (.var 0)))

/-- `A[0] += weights_0[iq] * detJ * w0`. -/
def addFE : Kernel.Expr ℝ := .op (· * ·) (.op (· * ·) (.weight 0) detJ) (.var 0 (.lit 0))

/-- `double w0 = 0; for ic < n: w0 += …; A[0] += …`. -/
def codeFE (n : Nat) : Kernel.Code ℝ := .seq (.decl 0 1 (.lit 0)) (.seq (.loop 0 n (.set 0 (.lit 0) stepFE)) (.accum (.lit 0) addFE))

/-- The kernel of the integral of a finite element function with `n` functions in each rectangle, with `N` static points: what FFCx generates for
`w * dx` (the determinant is computed there with tables of the geometry). -/
def loopFE (n N : Nat) : Kernel.Loop ℝ where
  quad := 0
  pre := [.marker, .declWeights 0, .declTable 0]
  bound := .fixed N
  body := [.code (codeFE n)]

def infoFE : Kernel.Info where
  tables := [0]
  constant _ := false
  permuted _ := false
  quadOf _ := 0
  quads := [0]
  boundary _ := false
  interior := false
  normals := []
  tdim := 2

/-- The function with the coefficients `c` and the values `φ` of the functions. -/
noncomputable def combine (n : Nat) (c φ : Nat → ℝ) : ℝ := ((List.range n).map fun d => c d * φ d).sum

theorem codeFE_exec (ev : Kernel.Env ℝ → (Nat → Option Nat) → Kernel.Expr ℝ → Option ℝ) (n : Nat) (c φ : Nat → ℝ) (j : ℝ)
    (h0 : ∀ env ρ, ev env ρ (.lit 0) = some 0)
    (h1 : ∀ env ρ r k, Kernel.Env.lookup 0 env = some [r] → ρ 0 = some k → k < n → ev env ρ stepFE = some (r + c k * φ k))
    (h2 : ∀ env ρ r, Kernel.Env.lookup 0 env = some [r] → ev env ρ addFE = some (j * r)) (env : Kernel.Env ℝ) (A : Nat → ℝ) :
    (codeFE n).exec ev Kernel.noLoop env A =
      some ((0, [combine n c φ]) :: env, Function.update A 0 (A 0 + j * combine n c φ)) := by
  have key : ∀ m, m ≤ n → Kernel.times (fun k (x : Kernel.Env ℝ × (Nat → ℝ)) => ((Kernel.Code.set 0 (.lit 0) stepFE).exec ev
      (Function.update Kernel.noLoop 0 (some k)) x.1 x.2).map fun y => (x.1.leave y.1, y.2)) m ((0, [0]) :: env, A) =
      some ((0, [combine m c φ]) :: env, A) := by
    intro m
    induction m with
    | zero => intro _; simp [Kernel.times, combine]
    | succ m ih =>
      intro hm
      rw [Kernel.times, ih (by omega), Option.bind_some, Kernel.Code.exec, h1 _ _ (combine m c φ) m (by simp [Kernel.Env.lookup])
        (by simp) (by omega)]
      simp [Kernel.Idx.val, Kernel.Env.assign, Kernel.Env.leave, combine, List.range_succ]
  rw [codeFE, Kernel.Code.exec, Kernel.Code.exec, h0, Option.map_some, Option.bind_some, Kernel.Code.exec, Kernel.Code.exec]
  rw [show List.replicate 1 (0 : ℝ) = [0] from rfl, key n (le_refl n), Option.bind_some, Kernel.Code.exec,
    h2 _ _ (combine n c φ) (by simp [Kernel.Env.lookup])]
  simp [Kernel.Idx.val]

/-- The table of the functions. -/
structure TableFE {P : Type} (B : Tables.Basix P ℝ) (t : Tables.Table P) (n : Nat) (core : P) (v : Nat) : Prop where
  name : t.name = 0
  const : t.const = false
  perms : t.perms = 1
  funcs : t.funcs = n
  dim : t.elemDim = 2
  wf : Tables.WellFormed B t
  comp : (Tables.components B.values t.elem)[t.component]? = some (core, v)

/-- The coordinates of the cell: those of its box. -/
structure CoordsFE (b : List (ℝ × ℝ)) (U : Kernel.Values ℝ) (x0 x1 y0 y1 : ℝ) : Prop where
  box : b = [(x0, x1), (y0, y1)]
  c0 : U.input 1 0 = x0
  c1 : U.input 1 1 = y0
  c3 : U.input 1 3 = x1
  c7 : U.input 1 7 = y1

/-- The scalars are real numbers. -/
noncomputable def realScalars : Scalars ℝ ℝ := ⟨id, fun l => l.headD 0⟩

theorem coef_real (row : List ℝ) (k : Nat) (hk : k < row.length) (r : ℝ) : (coefOf realScalars 1 row k).getD r = row.getD k 0 := by
  unfold coefOf
  rw [if_pos (by omega), Option.getD_some]
  simp only [realScalars, mul_one]
  rw [List.drop_eq_getElem_cons hk, List.take_succ_cons, List.headD_cons, List.getD_eq_getElem?_getD, List.getElem?_eq_getElem hk,
    Option.getD_some]

theorem mapM_map {α β : Type} (f : α → Option β) (g : α → β) : ∀ l : List α, (∀ x ∈ l, f x = some (g x)) → l.mapM f = some (l.map g)
  | [], _ => rfl
  | x :: l, h => by
    rw [List.mapM_cons, h x List.mem_cons_self, mapM_map f g l fun y hy => h y (List.mem_cons_of_mem _ hy)]
    rfl

theorem combine_congr {n : Nat} {c c' φ φ' : Nat → ℝ} (h1 : ∀ d < n, c d = c' d) (h2 : ∀ d < n, φ d = φ' d) :
    combine n c φ = combine n c' φ' := by
  unfold combine
  congr 1
  apply List.map_congr_left
  intro d hd
  rw [h1 d (List.mem_range.1 hd), h2 d (List.mem_range.1 hd)]

theorem CoordsFE.volume {b : List (ℝ × ℝ)} {U : Kernel.Values ℝ} {x0 x1 y0 y1 : ℝ} (h : CoordsFE b U x0 x1 y0 y1) :
    boxVolume b = (x1 - x0) * (y1 - y0) := by
  rw [h.box, boxVolume_eq_prod]
  simp

/-- One node. -/
theorem nodeAdds_FE {P : Type} {B : Tables.Basix P ℝ} {t : Tables.Table P} {n N : Nat} {core : P} {v' : Nat} (hT : TableFE B t n core v')
    {row : List ℝ} (hrow : row.length = n) {b : List (ℝ × ℝ)} {U : Kernel.Values ℝ} {x0 x1 y0 y1 : ℝ} (hc : CoordsFE b U x0 x1 y0 y1)
    (x : UNode ℝ) : nodeAdds (atNode realScalars B [[t]] (coefOf realScalars 1 row) U) infoFE 0 ((loopFE n N).pre ++ (loopFE n N).body) x =
      some (Function.update (0 : Nat → ℝ) 0 (x.2.1 * boxVolume b *
        combine n (fun d => row.getD d 0) fun d => B.eval core x.1 t.derivs d v')) := by
  have h := codeFE_exec (Kernel.idealEval (atNode realScalars B [[t]] (coefOf realScalars 1 row) U x) infoFE 0 0) n (fun d => row.getD d 0)
    (fun d => B.eval core x.1 t.derivs d v') (x.2.1 * boxVolume b) (fun _ _ => rfl)
    (by
      intro env ρ r k h1 h2 h3
      simp only [stepFE, Kernel.idealEval, Kernel.Idx.val, Option.bind_some, h1, h2, Option.map_some, infoFE, atNode, if_true,
        List.getElem?_cons_zero, Bool.false_eq_true, if_false]
      rw [coef_real row k (by omega)]
      simp [hT.name, hT.comp, realScalars])
    (by
      intro env ρ r h1
      simp only [addFE, detJ, Kernel.idealEval, Kernel.Idx.val, Option.bind_some, h1, Option.map_some, atNode, hc.c0, hc.c1, hc.c3, hc.c7,
        List.getElem?_cons_zero, hc.volume, realScalars, id, one_ne_zero, if_false]) [] 0
  rw [nodeAdds]
  show Option.map _ (((codeFE n).exec _ Kernel.noLoop [] 0).bind _) = _
  rw [h, Option.bind_some]
  simp [Kernel.idealExec]

theorem sum_update (l : List ℝ) : ((l.map fun r => Function.update (0 : Nat → ℝ) 0 r).sum : Nat → ℝ) 0 = l.sum := by
  induction l with
  | nil => rfl
  | cons r l ih => simp [ih]

/-- **C94** (rules): with any rule, the kernel of a finite element function adds what the rule gives for the function. -/
theorem rule_FE {P : Type} {B : Tables.Basix P ℝ} {t : Tables.Table P} {n N : Nat} {core : P} {v' : Nat} (hT : TableFE B t n core v')
    {row : List ℝ} (hrow : row.length = n) {b : List (ℝ × ℝ)} {U : Kernel.Values ℝ} {x0 x1 y0 y1 : ℝ} (hc : CoordsFE b U x0 x1 y0 y1)
    (F : List ℝ → ℝ) (hF : ∀ p : List ℝ, p.length = 2 → InUnitCube p → F (List.zipWith (fun iv x => iv.1 + x * (iv.2 - iv.1)) b p) =
      combine n (fun d => row.getD d 0) fun d => B.eval core p t.derivs d v')
    (nodes : List (UNode ℝ)) (hn : ∀ x ∈ nodes, x.1.length = 2 ∧ InUnitCube x.1) :
    ∃ a, cellSum (atNode realScalars B [[t]] (coefOf realScalars 1 row) U) infoFE (loopFE n N).pre (fun _ => nodes) [loopFE n N] = some a ∧
      a 0 = ruleSum b (nodes.map fun x => x.1) (nodes.map fun x => x.2.1) F := by
  unfold cellSum
  rw [List.mapM_cons, List.mapM_nil]
  rw [show (loopFE n N).quad = 0 from rfl]
  simp only []
  rw [mapM_map _ _ nodes fun x _ => nodeAdds_FE (N := N) hT hrow hc x]
  refine ⟨_, rfl, ?_⟩
  have e : nodes.map (fun x => Function.update (0 : Nat → ℝ) 0 (x.2.1 * boxVolume b *
        combine n (fun d => row.getD d 0) fun d => B.eval core x.1 t.derivs d v')) =
      (nodes.map fun x => x.2.1 * boxVolume b * combine n (fun d => row.getD d 0) fun d => B.eval core x.1 t.derivs d v').map
        fun r => Function.update (0 : Nat → ℝ) 0 r := by
    rw [List.map_map]; rfl
  rw [List.sum_singleton, e, sum_update]
  unfold ruleSum Spec.integral
  rw [List.zipWith_map, List.zipWith_self, ← List.sum_map_mul_left]
  congr 1
  apply List.map_congr_left
  intro x hx
  show _ = boxVolume b * (x.2.1 * F (List.zipWith (fun iv x => iv.1 + x * (iv.2 - iv.1)) b x.1))
  rw [hF _ (hn x hx).1 (hn x hx).2]
  ring

/-- The static data: a point. -/
theorem static_step {n : Nat} {D : Kernel.Values ℝ} {b : List (ℝ × ℝ)} {U : Kernel.Values ℝ} {x0 x1 y0 y1 : ℝ} (hc : CoordsFE b U x0 x1 y0 y1)
    (hD : D.input 1 = U.input 1) {sc : Kernel.Scope ℝ} (hw : sc.weights 0 = some .static) (ht : sc.tables 0 = some .static) (iq : Nat) (A : Nat → ℝ) :
    Kernel.exec D 2 (some iq) [.code (codeFE n)] sc [] A =
      some (sc, [(0, [combine n (D.input 0) (D.staticTable 0 none 0 iq)])],
        Function.update A 0 (A 0 + D.staticWeight 0 iq * boxVolume b * combine n (D.input 0) (D.staticTable 0 none 0 iq)), false) := by
  have h := codeFE_exec (Kernel.eval D 2 sc (some iq)) n (D.input 0) (D.staticTable 0 none 0 iq) (D.staticWeight 0 iq * boxVolume b)
    (fun _ _ => rfl)
    (by
      intro env ρ r k h1 h2 h3
      simp only [stepFE, Kernel.eval, Kernel.Idx.val, Option.bind_some, h1, h2, Option.map_some, ht, List.getElem?_cons_zero,
        Option.none_or])
    (by
      intro env ρ r h1
      simp only [addFE, detJ, Kernel.eval, Kernel.Idx.val, Option.bind_some, h1, Option.map_some, hw, hD, hc.c0, hc.c1, hc.c3, hc.c7,
        List.getElem?_cons_zero, hc.volume]) [] A
  rw [Kernel.exec, h, Option.bind_some, Kernel.exec]

/-- **C94** (static data): in the other cells, the kernel adds what its static rule gives. -/
theorem static_FE {n N : Nat} {row : List ℝ} (hrow : row.length = n) {b : List (ℝ × ℝ)} {U : Kernel.Values ℝ} {x0 x1 y0 y1 : ℝ}
    (hc : CoordsFE b U x0 x1 y0 y1) :
    ∃ a, Kernel.run { U with input := fun a k => if a = 0 then (coefOf realScalars 1 row k).getD (U.input 0 k) else U.input a k } infoFE.tdim
        ([loopFE n N].map (Kernel.skip infoFE)) .empty [] 0 = some a ∧
      a 0 = ((List.range N).map fun iq => U.staticWeight 0 iq * boxVolume b *
        combine n (fun d => row.getD d 0) (U.staticTable 0 none 0 iq)).sum := by
  have key : ∀ (D : Kernel.Values ℝ) (sc : Kernel.Scope ℝ), D.input 1 = U.input 1 → sc.weights 0 = some .static → sc.tables 0 = some .static →
      ∀ (m k : Nat) (A : Nat → ℝ), ∃ A', Kernel.iterate D 2 [.code (codeFE n)] sc m k [] A = some ([], A') ∧
        A' 0 = A 0 + ((List.range' k m).map fun iq => D.staticWeight 0 iq * boxVolume b * combine n (D.input 0) (D.staticTable 0 none 0 iq)).sum := by
    intro D sc hD hw ht m
    induction m with
    | zero => intro k A; exact ⟨A, rfl, by simp⟩
    | succ m ih =>
      intro k A
      rw [Kernel.iterate, static_step hc hD hw ht]
      obtain ⟨A', i1, i2⟩ := ih (k + 1) (Function.update A 0 (A 0 + D.staticWeight 0 k * boxVolume b *
        combine n (D.input 0) (D.staticTable 0 none 0 k)))
      refine ⟨A', i1, ?_⟩
      rw [i2, List.range'_succ, List.map_cons, List.sum_cons, Function.update_self]
      ring
  obtain ⟨A', h1, h2⟩ := key { U with input := fun a k => if a = 0 then (coefOf realScalars 1 row k).getD (U.input 0 k) else U.input a k }
    ⟨Function.update (fun _ => none) 0 (some .static), Function.update (fun _ => none) 0 (some .static), fun _ => false, fun _ => false⟩
    (by simp) (by simp) (by simp) N 0 0
  refine ⟨A', ?_, ?_⟩
  · have e : Kernel.skip infoFE (loopFE n N) = loopFE n N := rfl
    rw [List.map_cons, List.map_nil, e, Kernel.run]
    have e2 : Kernel.exec { U with input := fun a k => if a = 0 then (coefOf realScalars 1 row k).getD (U.input 0 k) else U.input a k } infoFE.tdim
        none (loopFE n N).pre .empty [] 0 = some (⟨Function.update (fun _ => none) 0 (some .static),
          Function.update (fun _ => none) 0 (some .static), fun _ => false, fun _ => false⟩, [], 0, false) := rfl
    rw [e2]
    simp only [loopFE]
    erw [h1]
    rfl
  · rw [h2, Pi.zero_apply, zero_add, List.range_eq_range']
    congr 1
    apply List.map_congr_left
    intro iq _
    dsimp only
    congr 1
    refine combine_congr (fun d hd => ?_) fun _ _ => rfl
    rw [if_pos rfl, coef_real row d (by omega)]

/-- **C94** (finite element functions): the kernel computes the integral of the function in the cell, if its static rule does. -/
theorem computes_FE {P : Type} {B : Tables.Basix P ℝ} {t : Tables.Table P} {n N : Nat} {core : P} {v' : Nat} (hT : TableFE B t n core v')
    {g : Grid ℝ} (hg : g.length = 2) {v : Nat} {row : List ℝ} (hrow : row.length = n) {U : Kernel.Values ℝ} {x0 x1 y0 y1 : ℝ}
    (hc : CoordsFE (boxOf g v) U x0 x1 y0 y1)
    (F : List ℝ → ℝ) (hF : ∀ p : List ℝ, p.length = 2 → InUnitCube p → F (List.zipWith (fun iv x => iv.1 + x * (iv.2 - iv.1)) (boxOf g v) p) =
      combine n (fun d => row.getD d 0) fun d => B.eval core p t.derivs d v') {δ : ℝ}
    (hstat : |((List.range N).map fun iq => U.staticWeight 0 iq * boxVolume (boxOf g v) *
        combine n (fun d => row.getD d 0) (U.staticTable 0 none 0 iq)).sum - integralOver (region g.length (boxOf g v)) F| ≤
      δ * boxVolume (boxOf g v)) :
    Computes realScalars B infoFE [[t]] (loopFE n N) [] 1 g F δ row v U := by
  refine ⟨fun nodes hn => rule_FE hT hrow hc F hF nodes (by rw [← hg]; exact hn), ?_⟩
  obtain ⟨a, h1, h2⟩ := static_FE (N := N) hrow hc
  exact ⟨a, h1, by rw [h2]; exact hstat⟩

theorem consistentFE {P : Type} {B : Tables.Basix P ℝ} {t : Tables.Table P} {n : Nat} {core : P} {v' : Nat} (hT : TableFE B t n core v')
    (degree : Nat) : Consistent B infoFE [[t]] 2 [⟨degree, false⟩] where
  names := by decide
  length := rfl
  specs := rfl
  tdim := rfl
  interior := rfl
  known := by
    rintro m q ts hm ht x hx
    rcases m with _ | m
    · simp only [List.getElem?_cons_zero, Option.some.injEq, infoFE] at hm ht
      subst hm ht
      obtain rfl := List.mem_singleton.1 hx
      exact ⟨rfl, hT.const.symm, by rw [hT.perms]; rfl⟩
    · simp at ht
  all := by
    intro k hk
    obtain rfl := List.mem_singleton.1 hk
    exact ⟨t, by simp, hT.name⟩
  distinct := by simp
  wellFormed := by
    intro x hx _
    simp only [List.flatten_cons, List.flatten_nil, List.append_nil, List.mem_singleton] at hx
    subst hx
    exact hT.wf
  dims := by
    intro x hx _
    simp only [List.flatten_cons, List.flatten_nil, List.append_nil, List.mem_singleton] at hx
    subst hx
    exact hT.dim
  one := by
    have key : ∀ (m : Nat) ts, ([[t]] : List (List (Tables.Table P)))[m]? = some ts → m = 0 := by
      intro m ts h
      rcases m with _ | m
      · rfl
      · simp at h
    intro m m' ts ts' h1 h2 _ _
    rw [key m ts h1, key m' ts' h2]

theorem shapeFE (n N : Nat) : Kernel.Shape infoFE (loopFE n N) [] [] [0] [0] [] where
  pre := rfl
  setup := by simp
  more := by simp
  tables := by simp
  between := by simp
  body := by simp [loopFE, codeFE, stepFE, addFE, detJ, Kernel.IsBody, Kernel.FromFFCx, Kernel.Code.All, infoFE]
  quads := by simp [loopFE, infoFE]

theorem kernelFE {P : Type} {B : Tables.Basix P ℝ} {t : Tables.Table P} {n : Nat} {core : P} {v' : Nat} (hT : TableFE B t n core v')
    (N : Nat) : KernelOk infoFE [[t]] (loopFE n N) [] n where
  shape := ⟨_, _, _, _, shapeFE n N⟩
  fixed := by
    intro l hl
    obtain rfl := List.mem_singleton.1 hl
    exact ⟨N, rfl⟩
  own := by
    intro l hl
    obtain rfl := List.mem_singleton.1 hl
    unfold Kernel.Local
    rfl
  allowed := by
    intro l hl c hc
    obtain rfl := List.mem_singleton.1 hl
    simp only [loopFE, List.cons_append, List.nil_append, List.mem_cons, reduceCtorEq, Kernel.Stmt.code.injEq, List.not_mem_nil, or_false,
      false_or] at hc
    subst hc
    have hf : count [[t]] 0 = n := by simp [count, hT.name, hT.funcs]
    refine ⟨trivial, ?_, ⟨⟨rfl, ?_⟩, trivial⟩⟩
    · intro k hk
      refine ⟨trivial, ?_, ?_⟩
      · intro _ m hm
        simp only [Kernel.Idx.val, Function.update_self, Option.some.injEq] at hm
        omega
      · intro _
        refine ⟨rfl, rfl, by simp, ?_⟩
        intro m hm
        simp only [Kernel.Idx.val, Function.update_self, Option.some.injEq] at hm
        rw [hf]
        omega
    · simp [detJ, Access]
  constant := by
    intro l hl c hc
    obtain rfl := List.mem_singleton.1 hl
    simp only [loopFE, List.cons_append, List.nil_append, List.mem_cons, reduceCtorEq, Kernel.Stmt.code.injEq, List.not_mem_nil, or_false,
      false_or] at hc
    subst hc
    simp [Kernel.Code.All, ConstantFixed, codeFE, stepFE, addFE, detJ, infoFE]

/-- **C94** (finite element functions, two directions): the integral of a finite element function, with any number of functions per cell, over an
unfitted domain. -/
theorem C94_finite_element {P : Type} [DecidableEq P] {B : Tables.Basix P ℝ} {t : Tables.Table P} {n N : Nat} {core : P} {v' : Nat}
    (hT : TableFE B t n core v') {q : QDomain ℝ} {nRows : Nat} (hq : q.Ok nRows) (hqu : q.u.Ok nRows) (hpts : PointDims q.oracle q.grid)
    (hg : q.grid.length = 2) {types : Types} (hty : types.Ok) (hratio : types.ratio = 1) {old : List (List ℝ)} {domain : List Nat} {degree : Nat}
    (hdeg : degree + 1 ≤ 2 * q.rules.nMax) (hloc : ∀ c ∈ domain, c < q.u.numLocal) (hrows : old.length = domain.length)
    (hrow : ∀ r ∈ old, r.length = n) {argsort : List Int → List Nat} (hs : ∀ l, IsArgsort l (argsort l))
    (toNat : ℝ → Nat) (hn : ∀ n : Nat, toNat (n : ℝ) = n)
    (debug : Bool) (oo : Oracles ℝ) (hd : build debug oo q.grid none = .ok q.u.dom) (hm : 0 ≤ oo.margin)
    (phi : List ℝ → ℝ) (hsound : SoundSign phi oo.sign) (hO : MeasurableSet (inside q.grid.length phi))
    (F : List ℝ → ℝ) (hF : IntegrableOn (fun x => F (List.ofFn x)) (region q.grid.length q.grid.domain)) (M : ℝ) (hM0 : 0 ≤ M)
    (hM : ∀ x ∈ region q.grid.length q.grid.domain, |F (List.ofFn x)| ≤ M) (κ η δ : ℝ) (hκ : 0 ≤ κ) (hδ : 0 ≤ δ)
    (hA : Accurate oo q.oracle q.grid phi F (UDomain.numGaussPoints degree) κ η)
    (hin : PointsInside oo q.oracle q.grid (UDomain.numGaussPoints degree))
    (vs : List Nat) (hvs : List.Forall₂ q.u.mesh.OrigCell domain vs) (hall : vs.Perm (List.range q.grid.numCells)) (U : Nat → Kernel.Values ℝ)
    (hU : ∀ (e v : Nat), vs[e]? = some v → ∃ x0 x1 y0 y1, CoordsFE (boxOf q.grid v) (U e) x0 x1 y0 y1)
    (hfe : ∀ (e v : Nat) row, vs[e]? = some v → old[e]? = some row → ∀ p : List ℝ, p.length = 2 → InUnitCube p →
      F (List.zipWith (fun iv x => iv.1 + x * (iv.2 - iv.1)) (boxOf q.grid v) p) =
        combine n (fun d => row.getD d 0) fun d => B.eval core p t.derivs d v')
    (hstat : ∀ (e v : Nat) row, vs[e]? = some v → old[e]? = some row →
      |((List.range N).map fun iq => (U e).staticWeight 0 iq * boxVolume (boxOf q.grid v) *
        combine n (fun d => row.getD d 0) ((U e).staticTable 0 none 0 iq)).sum - integralOver (region q.grid.length (boxOf q.grid v)) F| ≤
          δ * boxVolume (boxOf q.grid v))
    {s : UDomain.Caches} (hk : UDomain.CellCachesOk argsort q.u s) {ch : Cache ℝ} (hr : Reached q ch) {st : Tables.State P ℝ}
    (hst : Tables.Reachable B st) (A : Nat → ℝ) :
    ∃ s' ch' i mem st' A', cellInput argsort q types n old domain [⟨degree, false⟩] s ch = some ((s', ch'), i) ∧ pack i = some mem ∧
      assembleScalar (⟨toNat, realScalars, B, infoFE, false, [[t]], [loopFE n N], types, n, mem⟩ : Job P ℝ ℝ)
        ((List.range domain.length).map fun e => (i.rowPos e, U e)) st A = some (st', A') ∧
      |A' 0 - (A 0 + integralOver (inside q.grid.length phi ∩ region q.grid.length q.grid.domain) F)| ≤
        (nearCells oo q.grid).length * max η (M * κ) + δ * boxVolume q.grid.domain := by
  have G : Good B infoFE [[t]] (loopFE n N) [] q nRows types n old domain [⟨degree, false⟩] :=
    ⟨hq, hqu, hpts, by rw [hg]; exact consistentFE hT degree, by
      intro s hs
      obtain rfl := List.mem_singleton.1 hs
      exact hdeg, hty, hloc, hrows, by
      intro r hr
      rw [hrow r hr, hratio, mul_one], kernelFE hT N⟩
  refine C94_whole hs toNat hn realScalars G rfl debug oo hd hm phi hsound hO F hF M hM0 hM κ η δ hκ hδ hA hin vs hvs hall U ?_ hk hr hst A
  intro e v row he hrowe
  obtain ⟨x0, x1, y0, y1, hc⟩ := hU e v he
  rw [hratio]
  exact computes_FE hT hg (hrow row (List.mem_of_getElem? hrowe)) hc F (hfe e v row he hrowe) (hstat e v row he hrowe)

end Qugar.Py.Integral
