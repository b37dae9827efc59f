import Verif.Props.PyIntegralFE
import Verif.Props.PyIntegralSide
/-
C95: the kernels of finite element functions over facets compute their integrals.
-/
namespace Qugar.Py.Integral

open Pack Assemble Quad Spec BoxMeasure Integrals
open MeasureTheory hiding integral

/-- Length of the facets of side `f` of a rectangle: the coordinates of the first three vertices are the entries 0, 1, 3, 4, 6 and 7. (FFCx
computes the norm of the columns of the Jacobian along the facet, with the local facet as index: here the side is fixed.) -/
def sideJ (f : Nat) : Kernel.Expr ℝ :=
  if f / 2 = 0 then .op (· - ·) (.input 1 (.lit 7)) (.input 1 (.lit 1)) else .op (· - ·) (.input 1 (.lit 3)) (.input 1 (.lit 0))

/-- `A[0] += weights_0[iq] * scale * w0`. -/
def addSide (f : Nat) : Kernel.Expr ℝ := .op (· * ·) (.op (· * ·) (.weight 0) (sideJ f)) (.var 0 (.lit 0))

/-- `double w0 = 0; for ic < n: w0 += …; A[0] += …`. -/
def codeSide (f n : Nat) : Kernel.Code ℝ :=
  .seq (.decl 0 1 (.lit 0)) (.seq (.loop 0 n (.set 0 (.lit 0) stepFE)) (.accum (.lit 0) (addSide f)))

/-- The kernel of the integral of a finite element function with `n` functions in each rectangle over facets of side `f`, with `N` static
points: what FFCx generates for `w * ds`. -/
def loopSide (f n N : Nat) : Kernel.Loop ℝ where
  quad := 0
  pre := [.marker, .declWeights 0, .declTable 0]
  bound := .fixed N
  body := [.code (codeSide f n)]

theorem codeSide_exec (ev : Kernel.Env ℝ → (Nat → Option Nat) → Kernel.Expr ℝ → Option ℝ) (f n : Nat) (c φ : Nat → ℝ) (j : ℝ)
    (h0 : ∀ env ρ, ev env ρ (.lit 0) = some 0)
    (h1 : ∀ env ρ r k, Kernel.Env.lookup 0 env = some [r] → ρ 0 = some k → k < n → ev env ρ stepFE = some (r + c k * φ k))
    (h2 : ∀ env ρ r, Kernel.Env.lookup 0 env = some [r] → ev env ρ (addSide f) = some (j * r)) (env : Kernel.Env ℝ) (A : Nat → ℝ) :
    (codeSide f n).exec ev Kernel.noLoop env A =
      some ((0, [combine n c φ]) :: env, Function.update A 0 (A 0 + j * combine n c φ)) := by
  have key : ∀ m, m ≤ n → Kernel.times (fun k (x : Kernel.Env ℝ × (Nat → ℝ)) => ((Kernel.Code.set 0 (.lit 0) stepFE).exec ev
      (Function.update Kernel.noLoop 0 (some k)) x.1 x.2).map fun y => (x.1.leave y.1, y.2)) m ((0, [0]) :: env, A) =
      some ((0, [combine m c φ]) :: env, A) := by
    intro m
    induction m with
    | zero => intro _; simp [Kernel.times, combine]
    | succ m ih =>
      intro hm
      rw [Kernel.times, ih (by omega), Option.bind_some, Kernel.Code.exec, h1 _ _ (combine m c φ) m (by simp [Kernel.Env.lookup])
        (by simp) (by omega)]
      simp [Kernel.Idx.val, Kernel.Env.assign, Kernel.Env.leave, combine, List.range_succ]
  rw [codeSide, Kernel.Code.exec, Kernel.Code.exec, h0, Option.map_some, Option.bind_some, Kernel.Code.exec, Kernel.Code.exec]
  rw [show List.replicate 1 (0 : ℝ) = [0] from rfl, key n (le_refl n), Option.bind_some, Kernel.Code.exec,
    h2 _ _ (combine n c φ) (by simp [Kernel.Env.lookup])]
  simp [Kernel.Idx.val]


theorem CoordsFE.sideVolume {b : List (ℝ × ℝ)} {U : Kernel.Values ℝ} {x0 x1 y0 y1 : ℝ} (h : CoordsFE b U x0 x1 y0 y1) {f : Nat} (hf : f < 4) :
    boxVolume (facetBox b f) = if f / 2 = 0 then y1 - y0 else x1 - x0 := by
  rw [h.box, facetBox]
  interval_cases f <;> simp [boxVolume_eq_prod]

/-- One node. -/
theorem nodeAdds_side {P : Type} {B : Tables.Basix P ℝ} {t : Tables.Table P} {f n N : Nat} (hf : f < 4) {core : P} {v' : Nat}
    (hT : TableFE B t n core v') {row : List ℝ} (hrow : row.length = n) {b : List (ℝ × ℝ)} {U : Kernel.Values ℝ} {x0 x1 y0 y1 : ℝ}
    (hc : CoordsFE b U x0 x1 y0 y1) (x : UNode ℝ) :
    nodeAdds (atNode realScalars B [[t]] (coefOf realScalars 1 row) U) infoFE 0 ((loopSide f n N).pre ++ (loopSide f n N).body) x =
      some (Function.update (0 : Nat → ℝ) 0 (x.2.1 * boxVolume (facetBox b f) *
        combine n (fun d => row.getD d 0) fun d => B.eval core x.1 t.derivs d v')) := by
  have h := codeSide_exec (Kernel.idealEval (atNode realScalars B [[t]] (coefOf realScalars 1 row) U x) infoFE 0 0) f n (fun d => row.getD d 0)
    (fun d => B.eval core x.1 t.derivs d v') (x.2.1 * boxVolume (facetBox b f)) (fun _ _ => rfl)
    (by
      intro env ρ r k h1 h2 h3
      simp only [stepFE, Kernel.idealEval, Kernel.Idx.val, Option.bind_some, h1, h2, Option.map_some, infoFE, atNode, if_true,
        List.getElem?_cons_zero, Bool.false_eq_true, if_false]
      rw [coef_real row k (by omega)]
      simp [hT.name, hT.comp, realScalars])
    (by
      intro env ρ r h1
      rw [hc.sideVolume hf]
      by_cases hd : f / 2 = 0 <;>
        simp only [addSide, sideJ, hd, if_true, if_false, Kernel.idealEval, Kernel.Idx.val, Option.bind_some, h1, Option.map_some, atNode, hc.c0,
          hc.c1, hc.c3, hc.c7, List.getElem?_cons_zero, realScalars, id, one_ne_zero]) [] 0
  rw [nodeAdds]
  show Option.map _ (((codeSide f n).exec _ Kernel.noLoop [] 0).bind _) = _
  rw [h, Option.bind_some]
  simp [Kernel.idealExec]

/-- **C95** (rules): with any rule of a facet, the kernel of a finite element function adds what the rule gives for the function. -/
theorem rule_side {P : Type} {B : Tables.Basix P ℝ} {t : Tables.Table P} {f n N : Nat} (hf : f < 4) {core : P} {v' : Nat}
    (hT : TableFE B t n core v') {row : List ℝ} (hrow : row.length = n) {b : List (ℝ × ℝ)} {U : Kernel.Values ℝ} {x0 x1 y0 y1 : ℝ}
    (hc : CoordsFE b U x0 x1 y0 y1)
    (F : List ℝ → ℝ) (hF : ∀ p : List ℝ, p.length = 1 → InUnitCube p →
      F (onFacet b f (List.zipWith (fun iv x => iv.1 + x * (iv.2 - iv.1)) (facetBox b f) p)) =
        combine n (fun d => row.getD d 0) fun d => B.eval core (p.insertIdx (f / 2) (if f % 2 = 0 then 0 else 1)) t.derivs d v')
    (nodes : List (Node ℝ)) (hn : ∀ x ∈ nodes, x.1.length + 1 = 2 ∧ InUnitCube x.1) :
    ∃ a, cellSum (atNode realScalars B [[t]] (coefOf realScalars 1 row) U) infoFE (loopSide f n N).pre
        (fun _ => nodes.map fun x => (x.1.insertIdx (f / 2) (if f % 2 = 0 then 0 else 1), x.2, [])) [loopSide f n N] = some a ∧
      a 0 = ruleSum (facetBox b f) (nodes.map fun x => x.1) (nodes.map fun x => x.2) fun y => F (onFacet b f y) := by
  unfold cellSum
  rw [List.mapM_cons, List.mapM_nil]
  rw [show (loopSide f n N).quad = 0 from rfl]
  simp only []
  rw [mapM_map _ _ (nodes.map fun x => ((x.1.insertIdx (f / 2) (if f % 2 = 0 then 0 else 1), x.2, []) : UNode ℝ))
    fun x _ => nodeAdds_side (N := N) hf hT hrow hc x]
  refine ⟨_, rfl, ?_⟩
  have e : (nodes.map fun x => ((x.1.insertIdx (f / 2) (if f % 2 = 0 then 0 else 1), x.2, []) : UNode ℝ)).map
        (fun x => Function.update (0 : Nat → ℝ) 0 (x.2.1 * boxVolume (facetBox b f) *
          combine n (fun d => row.getD d 0) fun d => B.eval core x.1 t.derivs d v')) =
      (nodes.map fun x => x.2 * boxVolume (facetBox b f) *
        combine n (fun d => row.getD d 0) fun d => B.eval core (x.1.insertIdx (f / 2) (if f % 2 = 0 then 0 else 1)) t.derivs d v').map
        fun r => Function.update (0 : Nat → ℝ) 0 r := by
    rw [List.map_map, List.map_map]; rfl
  rw [List.sum_singleton, e, sum_update]
  unfold ruleSum Spec.integral
  rw [List.zipWith_map, List.zipWith_self, ← List.sum_map_mul_left]
  congr 1
  apply List.map_congr_left
  intro x hx
  show _ = boxVolume (facetBox b f) * (x.2 * F (onFacet b f (List.zipWith (fun iv x => iv.1 + x * (iv.2 - iv.1)) (facetBox b f) x.1)))
  rw [hF _ (by have := (hn x hx).1; omega) (hn x hx).2]
  ring

/-- The static data: a point. -/
theorem static_step_side {f n : Nat} (hf : f < 4) {D : Kernel.Values ℝ} {b : List (ℝ × ℝ)} {U : Kernel.Values ℝ} {x0 x1 y0 y1 : ℝ}
    (hc : CoordsFE b U x0 x1 y0 y1)
    (hD : D.input 1 = U.input 1) {sc : Kernel.Scope ℝ} (hw : sc.weights 0 = some .static) (ht : sc.tables 0 = some .static) (iq : Nat) (A : Nat → ℝ) :
    Kernel.exec D 2 (some iq) [.code (codeSide f n)] sc [] A =
      some (sc, [(0, [combine n (D.input 0) (D.staticTable 0 none 0 iq)])],
        Function.update A 0 (A 0 + D.staticWeight 0 iq * boxVolume (facetBox b f) * combine n (D.input 0) (D.staticTable 0 none 0 iq)), false) := by
  have h := codeSide_exec (Kernel.eval D 2 sc (some iq)) f n (D.input 0) (D.staticTable 0 none 0 iq)
    (D.staticWeight 0 iq * boxVolume (facetBox b f)) (fun _ _ => rfl)
    (by
      intro env ρ r k h1 h2 h3
      simp only [stepFE, Kernel.eval, Kernel.Idx.val, Option.bind_some, h1, h2, Option.map_some, ht, List.getElem?_cons_zero,
        Option.none_or])
    (by
      intro env ρ r h1
      rw [hc.sideVolume hf]
      by_cases hd : f / 2 = 0 <;>
        simp only [addSide, sideJ, hd, if_true, if_false, Kernel.eval, Kernel.Idx.val, Option.bind_some, h1, Option.map_some, hw, hD, hc.c0, hc.c1,
          hc.c3, hc.c7, List.getElem?_cons_zero]) [] A
  rw [Kernel.exec, h, Option.bind_some, Kernel.exec]

/-- **C95** (static data): in the full facets, the kernel adds what its static rule gives. -/
theorem static_side {f n N : Nat} (hf : f < 4) {row : List ℝ} (hrow : row.length = n) {b : List (ℝ × ℝ)} {U : Kernel.Values ℝ} {x0 x1 y0 y1 : ℝ}
    (hc : CoordsFE b U x0 x1 y0 y1) :
    ∃ a, Kernel.run { U with input := fun a k => if a = 0 then (coefOf realScalars 1 row k).getD (U.input 0 k) else U.input a k } infoFE.tdim
        ([loopSide f n N].map (Kernel.skip infoFE)) .empty [] 0 = some a ∧
      a 0 = ((List.range N).map fun iq => U.staticWeight 0 iq * boxVolume (facetBox b f) *
        combine n (fun d => row.getD d 0) (U.staticTable 0 none 0 iq)).sum := by
  have key : ∀ (D : Kernel.Values ℝ) (sc : Kernel.Scope ℝ), D.input 1 = U.input 1 → sc.weights 0 = some .static → sc.tables 0 = some .static →
      ∀ (m k : Nat) (A : Nat → ℝ), ∃ A', Kernel.iterate D 2 [.code (codeSide f n)] sc m k [] A = some ([], A') ∧
        A' 0 = A 0 + ((List.range' k m).map fun iq => D.staticWeight 0 iq * boxVolume (facetBox b f) *
          combine n (D.input 0) (D.staticTable 0 none 0 iq)).sum := by
    intro D sc hD hw ht m
    induction m with
    | zero => intro k A; exact ⟨A, rfl, by simp⟩
    | succ m ih =>
      intro k A
      rw [Kernel.iterate, static_step_side hf hc hD hw ht]
      obtain ⟨A', i1, i2⟩ := ih (k + 1) (Function.update A 0 (A 0 + D.staticWeight 0 k * boxVolume (facetBox b f) *
        combine n (D.input 0) (D.staticTable 0 none 0 k)))
      refine ⟨A', i1, ?_⟩
      rw [i2, List.range'_succ, List.map_cons, List.sum_cons, Function.update_self]
      ring
  obtain ⟨A', h1, h2⟩ := key { U with input := fun a k => if a = 0 then (coefOf realScalars 1 row k).getD (U.input 0 k) else U.input a k }
    ⟨Function.update (fun _ => none) 0 (some .static), Function.update (fun _ => none) 0 (some .static), fun _ => false, fun _ => false⟩
    (by simp) (by simp) (by simp) N 0 0
  refine ⟨A', ?_, ?_⟩
  · have e : Kernel.skip infoFE (loopSide f n N) = loopSide f n N := rfl
    rw [List.map_cons, List.map_nil, e, Kernel.run]
    have e2 : Kernel.exec { U with input := fun a k => if a = 0 then (coefOf realScalars 1 row k).getD (U.input 0 k) else U.input a k } infoFE.tdim
        none (loopSide f n N).pre .empty [] 0 = some (⟨Function.update (fun _ => none) 0 (some .static),
          Function.update (fun _ => none) 0 (some .static), fun _ => false, fun _ => false⟩, [], 0, false) := rfl
    rw [e2]
    simp only [loopSide]
    erw [h1]
    rfl
  · rw [h2, Pi.zero_apply, zero_add, List.range_eq_range']
    congr 1
    apply List.map_congr_left
    intro iq _
    dsimp only
    congr 1
    refine combine_congr (fun d hd => ?_) fun _ _ => rfl
    rw [if_pos rfl, coef_real row d (by omega)]

theorem shapeSide (f n N : Nat) : Kernel.Shape infoFE (loopSide f n N) [] [] [0] [0] [] where
  pre := rfl
  setup := by simp
  more := by simp
  tables := by simp
  between := by simp
  body := by
    by_cases hd : f / 2 = 0 <;>
      simp [loopSide, codeSide, stepFE, addSide, sideJ, hd, Kernel.IsBody, Kernel.FromFFCx, Kernel.Code.All, infoFE]
  quads := by simp [loopSide, infoFE]

theorem kernelSide {P : Type} {B : Tables.Basix P ℝ} {t : Tables.Table P} {n : Nat} {core : P} {v' : Nat} (hT : TableFE B t n core v')
    (f N : Nat) : KernelOk infoFE [[t]] (loopSide f n N) [] n where
  shape := ⟨_, _, _, _, shapeSide f n N⟩
  fixed := by
    intro l hl
    obtain rfl := List.mem_singleton.1 hl
    exact ⟨N, rfl⟩
  own := by
    intro l hl
    obtain rfl := List.mem_singleton.1 hl
    by_cases hd : f / 2 = 0 <;> (unfold Kernel.Local; simp only [loopSide, codeSide, addSide, sideJ, hd, if_true, if_false]; rfl)
  allowed := by
    intro l hl c hc
    obtain rfl := List.mem_singleton.1 hl
    simp only [loopSide, List.cons_append, List.nil_append, List.mem_cons, reduceCtorEq, Kernel.Stmt.code.injEq, List.not_mem_nil, or_false,
      false_or] at hc
    subst hc
    have hf : count [[t]] 0 = n := by simp [count, hT.name, hT.funcs]
    refine ⟨trivial, ?_, ⟨⟨rfl, ?_⟩, trivial⟩⟩
    · intro k hk
      refine ⟨trivial, ?_, ?_⟩
      · intro _ m hm
        simp only [Kernel.Idx.val, Function.update_self, Option.some.injEq] at hm
        omega
      · intro _
        refine ⟨rfl, rfl, by simp, ?_⟩
        intro m hm
        simp only [Kernel.Idx.val, Function.update_self, Option.some.injEq] at hm
        rw [hf]
        omega
    · unfold sideJ
      split <;> simp [Access]
  constant := by
    intro l hl c hc
    obtain rfl := List.mem_singleton.1 hl
    simp only [loopSide, List.cons_append, List.nil_append, List.mem_cons, reduceCtorEq, Kernel.Stmt.code.injEq, List.not_mem_nil, or_false,
      false_or] at hc
    subst hc
    by_cases hd : f / 2 = 0 <;> simp [Kernel.Code.All, ConstantFixed, codeSide, stepFE, addSide, sideJ, hd, infoFE]

/-- **C95** (finite element functions, two directions): the integral of a finite element function, with any number of functions per cell, over the
part of a side of the grid in the domain. -/
theorem C95_finite_element {P : Type} [DecidableEq P] {B : Tables.Basix P ℝ} {t : Tables.Table P} {n N : Nat} {core : P} {v' : Nat}
    (hT : TableFE B t n core v') {q : QDomain ℝ} {nRows : Nat} (hq : q.Ok nRows) (hqu : q.u.Ok nRows) (hpts : Plot.FacetDims q.oracle q.grid)
    (hg : q.grid.length = 2) {types : Types} (hty : types.Ok) (hratio : types.ratio = 1) {old : List (List ℝ)} {domain : Facets} {degree : Nat}
    (hdeg : degree + 1 ≤ 2 * q.rules.nMax) (hloc : ∀ p ∈ domain, q.u.Known p.1 ∧ ∃ x, q.u.topo.FacetOf p.1 p.2 x)
    (hrows : old.length = domain.length)
    (hrow : ∀ r ∈ old, r.length = n) {argsort : List Int → List Nat} (hs : ∀ l, IsArgsort l (argsort l))
    (toNat : ℝ → Nat) (hn : ∀ n : Nat, toNat (n : ℝ) = n)
    (debug : Bool) (oo : Oracles ℝ) (hd : build debug oo q.grid none = .ok q.u.dom) (hm : 0 ≤ oo.margin)
    (phi : List ℝ → ℝ) (hsound : SoundSign phi oo.sign) (D : List ℝ → Prop) (hD1 : ∀ x, phi x < 0 → D x) (hD2 : ∀ x, D x → phi x ≤ 0)
    (F : List ℝ → ℝ) (M : ℝ) (hM0 : 0 ≤ M) (κ η δ : ℝ) (hκ : 0 ≤ κ) (hδ : 0 ≤ δ) (f : Nat) (hf : f < 2 * q.grid.length)
    (hO : OnSide q.grid D F M f) (hA : FacetAccurate oo q.oracle q.grid D F (UDomain.numGaussPoints degree) κ η (sideFacets q.grid f))
    (fs : List (Nat × Nat)) (hfs : List.Forall₂ (fun p o => q.u.mesh.OrigCell p.1 o.1 ∧ SideFacet q.grid.length p.2 o.2) domain fs)
    (hall : fs.Perm (sideFacets q.grid f)) (hext : ∀ p ∈ domain, ∀ x, q.u.topo.FacetOf p.1 p.2 x → q.u.Ext x)
    (U : Nat → Kernel.Values ℝ) (hU : ∀ (e : Nat) (o : Nat × Nat), fs[e]? = some o → ∃ x0 x1 y0 y1, CoordsFE (boxOf q.grid o.1) (U e) x0 x1 y0 y1)
    (hfe : ∀ (e : Nat) (o : Nat × Nat) row, fs[e]? = some o → old[e]? = some row → ∀ p : List ℝ, p.length = 1 → InUnitCube p →
      F (onFacet (boxOf q.grid o.1) f (List.zipWith (fun iv x => iv.1 + x * (iv.2 - iv.1)) (facetBox (boxOf q.grid o.1) f) p)) =
        combine n (fun d => row.getD d 0) fun d => B.eval core (p.insertIdx (f / 2) (if f % 2 = 0 then 0 else 1)) t.derivs d v')
    (hstat : ∀ (e : Nat) (o : Nat × Nat) row, fs[e]? = some o → old[e]? = some row →
      |((List.range N).map fun iq => (U e).staticWeight 0 iq * boxVolume (facetBox (boxOf q.grid o.1) f) *
        combine n (fun d => row.getD d 0) ((U e).staticTable 0 none 0 iq)).sum -
          integralOver (region (q.grid.length - 1) (facetBox (boxOf q.grid o.1) f)) (fun y => F (onFacet (boxOf q.grid o.1) f y))| ≤
        δ * boxVolume (facetBox (boxOf q.grid o.1) f))
    {s : UDomain.Caches} (hk : Asked argsort q.u s) {ch : Cache ℝ} (hr : Reached q ch) {st : Tables.State P ℝ}
    (hst : Tables.Reachable B st) (A : Nat → ℝ) :
    ∃ s' ch' i mem st' A', facetInput argsort q types n old domain [⟨degree, false⟩] s ch = some ((s', ch'), i) ∧ pack i = some mem ∧
      assembleScalar (⟨toNat, realScalars, B, infoFE, false, [[t]], [loopSide f n N], types, n, mem⟩ : Job P ℝ ℝ)
        ((List.range domain.length).map fun e => (i.rowPos e, U e)) st A = some (st', A') ∧
      |A' 0 - (A 0 + sideIntegral q.grid D F f)| ≤
        ((sideFacets q.grid f).filter fun o => decide (o.1 ∈ nearCells oo q.grid)).length * max η (M * κ) +
          δ * boxVolume (facetBox q.grid.domain f) := by
  have G : FacetGood B infoFE [[t]] (loopSide f n N) [] q nRows types n old domain [⟨degree, false⟩] :=
    ⟨hq, hqu, hpts, by rw [hg]; exact consistentFE hT degree, by
      intro s hs
      obtain rfl := List.mem_singleton.1 hs
      exact ⟨rfl, hdeg⟩, hty, hloc, hrows, by
      intro r hr
      rw [hrow r hr, hratio, mul_one], kernelSide hT f N⟩
  refine C95_side hs toNat hn realScalars G debug oo hd hm phi hsound D hD1 hD2 F M hM0 κ η δ hκ hδ f hf hO hA fs hfs hall hext U ?_ hk hr hst A
  intro e o row he hrowe
  obtain ⟨x0, x1, y0, y1, hc⟩ := hU e o he
  obtain ⟨h1, -, -⟩ := mem_sideFacets hq.valid hf (hall.mem_iff.1 (List.mem_of_getElem? he))
  rw [hratio, h1]
  have hl := hrow row (List.mem_of_getElem? hrowe)
  refine ⟨fun nodes hn => ?_, ?_⟩
  · obtain ⟨a, a1, a2⟩ := rule_side (N := N) (by omega) hT hl hc F (hfe e o row he hrowe) nodes (by rw [← hg]; exact hn)
    exact ⟨a, a1, fun _ => a2⟩
  · obtain ⟨a, a1, a2⟩ := static_side (N := N) (f := f) (by omega) hl hc
    exact ⟨a, a1, fun _ => by rw [a2]; exact hstat e o row he hrowe⟩

end Qugar.Py.Integral
