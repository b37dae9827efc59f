import Verif.Props.PyIntegralFE
/-
C94: the kernels of load vectors, with any number of functions.
-/
namespace Qugar.Py.Integral

open Pack Assemble Quad Spec BoxMeasure Integrals
open MeasureTheory hiding integral

/-- `A[i] += weights_0[iq] * detJ * w0 * FE[0][0][iq][i]`. -/
def addLoad : Kernel.Expr ℝ := .op (· * ·) (.op (· * ·) (.op (· * ·) (.weight 0) detJ) (.var 0 (.lit 0))) (.table4 0 none 0 none (.var 1))

/-- `double w0 = 0; for ic < n: w0 += …; for i < n: A[i] += …`. -/
def codeLoad (n : Nat) : Kernel.Code ℝ :=
  .seq (.decl 0 1 (.lit 0)) (.seq (.loop 0 n (.set 0 (.lit 0) stepFE)) (.loop 1 n (.accum (.var 1) addLoad)))

/-- The kernel of `w * v * dx`, where `w` is a finite element function and `v` the test function, both of the same element. -/
def loopLoad (n N : Nat) : Kernel.Loop ℝ where
  quad := 0
  pre := [.marker, .declWeights 0, .declTable 0]
  bound := .fixed N
  body := [.code (codeLoad n)]

/-- The first `n` entries with `r` times the functions added. -/
noncomputable def addAll (n : Nat) (r : ℝ) (φ A : Nat → ℝ) (k : Nat) : ℝ := if k < n then A k + r * φ k else A k

theorem codeLoad_exec (ev : Kernel.Env ℝ → (Nat → Option Nat) → Kernel.Expr ℝ → Option ℝ) (n : Nat) (c φ : Nat → ℝ) (j : ℝ)
    (h0 : ∀ env ρ, ev env ρ (.lit 0) = some 0)
    (h1 : ∀ env ρ r k, Kernel.Env.lookup 0 env = some [r] → ρ 0 = some k → k < n → ev env ρ stepFE = some (r + c k * φ k))
    (h2 : ∀ env ρ r k, Kernel.Env.lookup 0 env = some [r] → ρ 1 = some k → k < n → ev env ρ addLoad = some (j * r * φ k))
    (env : Kernel.Env ℝ) (A : Nat → ℝ) :
    (codeLoad n).exec ev Kernel.noLoop env A = some ((0, [combine n c φ]) :: env, addAll n (j * combine n c φ) φ A) := by
  have key : ∀ m, m ≤ n → Kernel.times (fun k (x : Kernel.Env ℝ × (Nat → ℝ)) => ((Kernel.Code.set 0 (.lit 0) stepFE).exec ev
      (Function.update Kernel.noLoop 0 (some k)) x.1 x.2).map fun y => (x.1.leave y.1, y.2)) m ((0, [0]) :: env, A) =
      some ((0, [combine m c φ]) :: env, A) := by
    intro m
    induction m with
    | zero => intro _; simp [Kernel.times, combine]
    | succ m ih =>
      intro hm
      rw [Kernel.times, ih (by omega), Option.bind_some, Kernel.Code.exec, h1 _ _ (combine m c φ) m (by simp [Kernel.Env.lookup])
        (by simp) (by omega)]
      simp [Kernel.Idx.val, Kernel.Env.assign, Kernel.Env.leave, combine, List.range_succ]
  have key2 : ∀ m, m ≤ n → Kernel.times (fun k (x : Kernel.Env ℝ × (Nat → ℝ)) => ((Kernel.Code.accum (.var 1) addLoad).exec ev
      (Function.update Kernel.noLoop 1 (some k)) x.1 x.2).map fun y => (x.1.leave y.1, y.2)) m ((0, [combine n c φ]) :: env, A) =
      some ((0, [combine n c φ]) :: env, addAll m (j * combine n c φ) φ A) := by
    intro m
    induction m with
    | zero => intro _; simp [Kernel.times]; funext k; simp [addAll]
    | succ m ih =>
      intro hm
      rw [Kernel.times, ih (by omega), Option.bind_some, Kernel.Code.exec, h2 _ _ (combine n c φ) m (by simp [Kernel.Env.lookup])
        (by simp) (by omega)]
      simp only [Option.bind_some, Kernel.Idx.val, Function.update_self, Option.map_some, Kernel.Env.leave, Nat.sub_self, List.drop_zero]
      congr 2
      funext k
      by_cases hk : k = m
      · subst hk; simp [addAll]
      · rw [Function.update_of_ne hk]
        have : k < m + 1 ↔ k < m := by omega
        simp [addAll, this]
  rw [codeLoad, Kernel.Code.exec, Kernel.Code.exec, h0, Option.map_some, Option.bind_some, Kernel.Code.exec, Kernel.Code.exec]
  rw [show List.replicate 1 (0 : ℝ) = [0] from rfl, key n (le_refl n), Option.bind_some, Kernel.Code.exec, key2 n (le_refl n)]

/-- One node. -/
theorem nodeAdds_load {P : Type} {B : Tables.Basix P ℝ} {t : Tables.Table P} {n N : Nat} {core : P} {v' : Nat} (hT : TableFE B t n core v')
    {row : List ℝ} (hrow : row.length = n) {b : List (ℝ × ℝ)} {U : Kernel.Values ℝ} {x0 x1 y0 y1 : ℝ} (hc : CoordsFE b U x0 x1 y0 y1)
    (x : UNode ℝ) : nodeAdds (atNode realScalars B [[t]] (coefOf realScalars 1 row) U) infoFE 0 ((loopLoad n N).pre ++ (loopLoad n N).body) x =
      some (addAll n (x.2.1 * boxVolume b * combine n (fun d => row.getD d 0) fun d => B.eval core x.1 t.derivs d v')
        (fun d => B.eval core x.1 t.derivs d v') 0) := by
  have h := codeLoad_exec (Kernel.idealEval (atNode realScalars B [[t]] (coefOf realScalars 1 row) U x) infoFE 0 0) n (fun d => row.getD d 0)
    (fun d => B.eval core x.1 t.derivs d v') (x.2.1 * boxVolume b) (fun _ _ => rfl)
    (by
      intro env ρ r k h1 h2 h3
      simp only [stepFE, Kernel.idealEval, Kernel.Idx.val, Option.bind_some, h1, h2, Option.map_some, infoFE, atNode, if_true,
        List.getElem?_cons_zero, Bool.false_eq_true, if_false]
      rw [coef_real row k (by omega)]
      simp [hT.name, hT.comp, realScalars])
    (by
      intro env ρ r k h1 h2 h3
      simp only [addLoad, detJ, Kernel.idealEval, Kernel.Idx.val, Option.bind_some, h1, h2, Option.map_some, atNode, hc.c0, hc.c1, hc.c3, hc.c7,
        List.getElem?_cons_zero, hc.volume, realScalars, id, one_ne_zero, if_false, infoFE, Bool.false_eq_true]
      simp [hT.name, hT.comp]) [] 0
  rw [nodeAdds]
  show Option.map _ (((codeLoad n).exec _ Kernel.noLoop [] 0).bind _) = _
  rw [h, Option.bind_some]
  simp [Kernel.idealExec]

theorem entry_zero (dofs : List Nat) (d : Nat) : entry dofs 0 d = 0 := by simp [entry]

theorem entry_add (dofs : List Nat) (a b : Nat → ℝ) (d : Nat) : entry dofs (a + b) d = entry dofs a d + entry dofs b d := by
  unfold entry
  simp only [Pi.add_apply, List.sum_map_add]

theorem entry_sum (dofs : List Nat) (d : Nat) : ∀ l : List (Nat → ℝ), entry dofs l.sum d = (l.map fun a => entry dofs a d).sum
  | [] => entry_zero dofs d
  | a :: l => by rw [List.sum_cons, entry_add, entry_sum dofs d l, List.map_cons, List.sum_cons]

theorem entry_smul (dofs : List Nat) (n : Nat) (hn : dofs.length = n) (r : ℝ) (φ : Nat → ℝ) (d : Nat) :
    entry dofs (addAll n r φ 0) d = r * entry dofs φ d := by
  unfold entry
  rw [← List.sum_map_mul_left]
  congr 1
  apply List.map_congr_left
  intro p hp
  have : p.2 < n := by
    have := List.snd_lt_of_mem_zipIdx (List.mem_filter.1 hp).1
    omega
  simp [addAll, this]

/-- The static data: a point. -/
theorem static_step_load {n : Nat} {D : Kernel.Values ℝ} {b : List (ℝ × ℝ)} {U : Kernel.Values ℝ} {x0 x1 y0 y1 : ℝ} (hc : CoordsFE b U x0 x1 y0 y1)
    (hD : D.input 1 = U.input 1) {sc : Kernel.Scope ℝ} (hw : sc.weights 0 = some .static) (ht : sc.tables 0 = some .static) (iq : Nat) (A : Nat → ℝ) :
    Kernel.exec D 2 (some iq) [.code (codeLoad n)] sc [] A =
      some (sc, [(0, [combine n (D.input 0) (D.staticTable 0 none 0 iq)])],
        addAll n (D.staticWeight 0 iq * boxVolume b * combine n (D.input 0) (D.staticTable 0 none 0 iq)) (D.staticTable 0 none 0 iq) A, false) := by
  have h := codeLoad_exec (Kernel.eval D 2 sc (some iq)) n (D.input 0) (D.staticTable 0 none 0 iq) (D.staticWeight 0 iq * boxVolume b)
    (fun _ _ => rfl)
    (by
      intro env ρ r k h1 h2 h3
      simp only [stepFE, Kernel.eval, Kernel.Idx.val, Option.bind_some, h1, h2, Option.map_some, ht, List.getElem?_cons_zero,
        Option.none_or])
    (by
      intro env ρ r k h1 h2 h3
      simp only [addLoad, detJ, Kernel.eval, Kernel.Idx.val, Option.bind_some, h1, h2, Option.map_some, hw, ht, hD, hc.c0, hc.c1, hc.c3, hc.c7,
        List.getElem?_cons_zero, hc.volume, Option.none_or]) [] A
  rw [Kernel.exec, h, Option.bind_some, Kernel.exec]

theorem addAll_eq (n : Nat) (r : ℝ) (φ A : Nat → ℝ) : addAll n r φ A = A + addAll n r φ 0 := by
  funext k
  by_cases h : k < n <;> simp [addAll, h]

/-- **C94** (load vectors): the kernel of `w v dx` computes the integrals of the finite element function `w` times the functions `Φ d` of the
global basis: in the cell, `Φ d` is the sum of the functions numbered `d`. -/
theorem computes_load {P : Type} {B : Tables.Basix P ℝ} {t : Tables.Table P} {n N : Nat} {core : P} {v' : Nat} (hT : TableFE B t n core v')
    {g : Grid ℝ} (hg : g.length = 2) {v : Nat} {row : List ℝ} (hrow : row.length = n) {U : Kernel.Values ℝ} {x0 x1 y0 y1 : ℝ}
    (hc : CoordsFE (boxOf g v) U x0 x1 y0 y1) {dofs : List Nat} (hdofs : dofs.length = n)
    (w : List ℝ → ℝ) (Φ : Nat → List ℝ → ℝ)
    (hw : ∀ p : List ℝ, p.length = 2 → InUnitCube p → w (List.zipWith (fun iv x => iv.1 + x * (iv.2 - iv.1)) (boxOf g v) p) =
      combine n (fun d => row.getD d 0) fun d => B.eval core p t.derivs d v')
    (hΦ : ∀ p : List ℝ, p.length = 2 → InUnitCube p → ∀ d, Φ d (List.zipWith (fun iv x => iv.1 + x * (iv.2 - iv.1)) (boxOf g v) p) =
      entry dofs (fun k => B.eval core p t.derivs k v') d) {δ : ℝ}
    (hstat : ∀ d, |((List.range N).map fun iq => U.staticWeight 0 iq * boxVolume (boxOf g v) *
        combine n (fun d => row.getD d 0) (U.staticTable 0 none 0 iq) * entry dofs (U.staticTable 0 none 0 iq) d).sum -
          integralOver (region g.length (boxOf g v)) (fun x => w x * Φ d x)| ≤ δ * boxVolume (boxOf g v)) :
    ComputesTensor realScalars B infoFE [[t]] (loopLoad n N) [] 1 g (fun d x => w x * Φ d x) δ row v U dofs := by
  constructor
  · intro nodes hn
    unfold cellSum
    rw [List.mapM_cons, List.mapM_nil]
    rw [show (loopLoad n N).quad = 0 from rfl]
    simp only []
    rw [mapM_map _ _ nodes fun x _ => nodeAdds_load (N := N) hT hrow hc x]
    refine ⟨_, rfl, fun d => ?_⟩
    rw [List.sum_singleton, entry_sum, List.map_map]
    unfold ruleSum Spec.integral
    rw [List.zipWith_map, List.zipWith_self, ← List.sum_map_mul_left]
    congr 1
    apply List.map_congr_left
    intro x hx
    have hx2 : x.1.length = 2 := by rw [← hg]; exact (hn x hx).1
    show entry dofs (addAll n _ _ 0) d = boxVolume (boxOf g v) * (x.2.1 * (w (List.zipWith (fun iv x => iv.1 + x * (iv.2 - iv.1)) (boxOf g v) x.1) *
      Φ d (List.zipWith (fun iv x => iv.1 + x * (iv.2 - iv.1)) (boxOf g v) x.1)))
    rw [entry_smul dofs n hdofs, hw x.1 hx2 (hn x hx).2, hΦ x.1 hx2 (hn x hx).2]
    ring
  · have key : ∀ (D : Kernel.Values ℝ) (sc : Kernel.Scope ℝ), D.input 1 = U.input 1 → sc.weights 0 = some .static → sc.tables 0 = some .static →
        ∀ (m k : Nat) (A : Nat → ℝ), Kernel.iterate D 2 [.code (codeLoad n)] sc m k [] A = some ([], A + ((List.range' k m).map fun iq =>
          addAll n (D.staticWeight 0 iq * boxVolume (boxOf g v) * combine n (D.input 0) (D.staticTable 0 none 0 iq))
            (D.staticTable 0 none 0 iq) 0).sum) := by
      intro D sc hD hw ht m
      induction m with
      | zero => intro k A; simp [Kernel.iterate]
      | succ m ih =>
        intro k A
        rw [Kernel.iterate, static_step_load hc hD hw ht]
        simp only [Kernel.Env.leave, List.length_nil, Nat.sub_zero, List.drop_length]
        rw [ih, List.range'_succ, List.map_cons, List.sum_cons, addAll_eq n _ _ A, add_assoc]
    have e : Kernel.skip infoFE (loopLoad n N) = loopLoad n N := rfl
    have e2 : Kernel.exec { U with input := fun a k => if a = 0 then (coefOf realScalars 1 row k).getD (U.input 0 k) else U.input a k } infoFE.tdim
        none (loopLoad n N).pre .empty [] 0 = some (⟨Function.update (fun _ => none) 0 (some .static),
          Function.update (fun _ => none) 0 (some .static), fun _ => false, fun _ => false⟩, [], 0, false) := rfl
    refine ⟨0 + ((List.range' 0 N).map fun iq =>
          addAll n (U.staticWeight 0 iq * boxVolume (boxOf g v) * combine n (fun d => row.getD d 0) (U.staticTable 0 none 0 iq))
            (U.staticTable 0 none 0 iq) 0).sum, ?_, fun d => ?_⟩
    · rw [List.map_cons, List.map_nil, e, Kernel.run, e2]
      simp only [loopLoad]
      erw [key _ _ (by simp) (by simp) (by simp) N 0 0]
      have hcomb : ∀ iq, combine n (fun k => (coefOf realScalars 1 row k).getD (U.input 0 k)) (U.staticTable 0 none 0 iq) =
          combine n (fun d => row.getD d 0) (U.staticTable 0 none 0 iq) := fun iq =>
        combine_congr (fun d hd => coef_real row d (by omega) _) fun _ _ => rfl
      simp only [if_true, hcomb]
      rfl
    · rw [zero_add, entry_sum, List.map_map, ← List.range_eq_range']
      have : ((fun a => entry dofs a d) ∘ fun iq =>
          addAll n (U.staticWeight 0 iq * boxVolume (boxOf g v) * combine n (fun d => row.getD d 0) (U.staticTable 0 none 0 iq))
            (U.staticTable 0 none 0 iq) 0) = fun iq => U.staticWeight 0 iq * boxVolume (boxOf g v) *
        combine n (fun d => row.getD d 0) (U.staticTable 0 none 0 iq) * entry dofs (U.staticTable 0 none 0 iq) d := by
        funext iq
        exact entry_smul dofs n hdofs _ _ d
      rw [this]
      exact hstat d

theorem shapeLoad (n N : Nat) : Kernel.Shape infoFE (loopLoad n N) [] [] [0] [0] [] where
  pre := rfl
  setup := by simp
  more := by simp
  tables := by simp
  between := by simp
  body := by simp [loopLoad, codeLoad, stepFE, addLoad, detJ, Kernel.IsBody, Kernel.FromFFCx, Kernel.Code.All, infoFE]
  quads := by simp [loopLoad, infoFE]

theorem kernelLoad {P : Type} {B : Tables.Basix P ℝ} {t : Tables.Table P} {n : Nat} {core : P} {v' : Nat} (hT : TableFE B t n core v')
    (N : Nat) : KernelOk infoFE [[t]] (loopLoad n N) [] n where
  shape := ⟨_, _, _, _, shapeLoad n N⟩
  fixed := by
    intro l hl
    obtain rfl := List.mem_singleton.1 hl
    exact ⟨N, rfl⟩
  own := by
    intro l hl
    obtain rfl := List.mem_singleton.1 hl
    unfold Kernel.Local
    rfl
  allowed := by
    intro l hl c hc
    obtain rfl := List.mem_singleton.1 hl
    simp only [loopLoad, List.cons_append, List.nil_append, List.mem_cons, reduceCtorEq, Kernel.Stmt.code.injEq, List.not_mem_nil, or_false,
      false_or] at hc
    subst hc
    have hf : count [[t]] 0 = n := by simp [count, hT.name, hT.funcs]
    refine ⟨trivial, ?_, ?_⟩
    · intro k hk
      refine ⟨trivial, ?_, ?_⟩
      · intro _ m hm
        simp only [Kernel.Idx.val, Function.update_self, Option.some.injEq] at hm
        omega
      · intro _
        refine ⟨rfl, rfl, by simp, ?_⟩
        intro m hm
        simp only [Kernel.Idx.val, Function.update_self, Option.some.injEq] at hm
        rw [hf]
        omega
    · intro k hk
      refine ⟨⟨⟨rfl, ?_⟩, trivial⟩, ?_⟩
      · simp [detJ, Access]
      · intro _
        refine ⟨rfl, rfl, by simp, ?_⟩
        intro m hm
        simp only [Kernel.Idx.val, Function.update_self, Option.some.injEq] at hm
        rw [hf]
        omega
  constant := by
    intro l hl c hc
    obtain rfl := List.mem_singleton.1 hl
    simp only [loopLoad, List.cons_append, List.nil_append, List.mem_cons, reduceCtorEq, Kernel.Stmt.code.injEq, List.not_mem_nil, or_false,
      false_or] at hc
    subst hc
    simp [Kernel.Code.All, ConstantFixed, codeLoad, stepFE, addLoad, detJ, infoFE]

/-- **C94** (load vectors, two directions): the vector of the integrals of `w * Φ d` over the part of an unfitted domain in some cells, where `w`
is a finite element function and `Φ` the global basis of its space. -/
theorem C94_load_vector {P : Type} [DecidableEq P] {B : Tables.Basix P ℝ} {t : Tables.Table P} {n N : Nat} {core : P} {v' : Nat}
    (hT : TableFE B t n core v') {q : QDomain ℝ} {nRows : Nat} (hq : q.Ok nRows) (hqu : q.u.Ok nRows) (hpts : PointDims q.oracle q.grid)
    (hg : q.grid.length = 2) {types : Types} (hty : types.Ok) (hratio : types.ratio = 1) {old : List (List ℝ)} {domain : List Nat} {degree : Nat}
    (hdeg : degree + 1 ≤ 2 * q.rules.nMax) (hloc : ∀ c ∈ domain, c < q.u.numLocal) (hrows : old.length = domain.length)
    (hrow : ∀ r ∈ old, r.length = n) {argsort : List Int → List Nat} (hs : ∀ l, IsArgsort l (argsort l))
    (toNat : ℝ → Nat) (hn : ∀ n : Nat, toNat (n : ℝ) = n)
    (debug : Bool) (oo : Oracles ℝ) (hd : build debug oo q.grid none = .ok q.u.dom) (hm : 0 ≤ oo.margin)
    (phi : List ℝ → ℝ) (hsound : SoundSign phi oo.sign) (hO : MeasurableSet (inside q.grid.length phi))
    (w : List ℝ → ℝ) (Φ : Nat → List ℝ → ℝ)
    (hF : ∀ d, IntegrableOn (fun x => w (List.ofFn x) * Φ d (List.ofFn x)) (region q.grid.length q.grid.domain)) (M : ℝ) (hM0 : 0 ≤ M)
    (hM : ∀ d, ∀ x ∈ region q.grid.length q.grid.domain, |w (List.ofFn x) * Φ d (List.ofFn x)| ≤ M) (κ η δ : ℝ) (hκ : 0 ≤ κ) (hδ : 0 ≤ δ)
    (hA : ∀ d, Accurate oo q.oracle q.grid phi (fun x => w x * Φ d x) (UDomain.numGaussPoints degree) κ η)
    (hin : PointsInside oo q.oracle q.grid (UDomain.numGaussPoints degree))
    (vs : List Nat) (hvs : List.Forall₂ q.u.mesh.OrigCell domain vs) (hnd : vs.Nodup) (U : Nat → Kernel.Values ℝ)
    (hU : ∀ (e v : Nat), vs[e]? = some v → ∃ x0 x1 y0 y1, CoordsFE (boxOf q.grid v) (U e) x0 x1 y0 y1)
    (dofs : Nat → List Nat) (hdofs : ∀ e < domain.length, (dofs e).length = n)
    (hfe : ∀ (e v : Nat) row, vs[e]? = some v → old[e]? = some row → ∀ p : List ℝ, p.length = 2 → InUnitCube p →
      w (List.zipWith (fun iv x => iv.1 + x * (iv.2 - iv.1)) (boxOf q.grid v) p) =
        combine n (fun d => row.getD d 0) fun d => B.eval core p t.derivs d v')
    (hbasis : ∀ (e v : Nat), vs[e]? = some v → ∀ p : List ℝ, p.length = 2 → InUnitCube p → ∀ d,
      Φ d (List.zipWith (fun iv x => iv.1 + x * (iv.2 - iv.1)) (boxOf q.grid v) p) =
        entry (dofs e) (fun k => B.eval core p t.derivs k v') d)
    (hstat : ∀ (e v : Nat) row, vs[e]? = some v → old[e]? = some row → ∀ d,
      |((List.range N).map fun iq => (U e).staticWeight 0 iq * boxVolume (boxOf q.grid v) *
        combine n (fun d => row.getD d 0) ((U e).staticTable 0 none 0 iq) * entry (dofs e) ((U e).staticTable 0 none 0 iq) d).sum -
          integralOver (region q.grid.length (boxOf q.grid v)) (fun x => w x * Φ d x)| ≤ δ * boxVolume (boxOf q.grid v))
    {s : UDomain.Caches} (hk : UDomain.CellCachesOk argsort q.u s) {ch : Cache ℝ} (hr : Reached q ch) {st : Tables.State P ℝ}
    (hst : Tables.Reachable B st) (b : Nat → ℝ) :
    ∃ s' ch' i mem st' b', cellInput argsort q types n old domain [⟨degree, false⟩] s ch = some ((s', ch'), i) ∧ pack i = some mem ∧
      assembleVector (⟨toNat, realScalars, B, infoFE, false, [[t]], [loopLoad n N], types, n, mem⟩ : Job P ℝ ℝ)
        ((List.range domain.length).map fun e => (i.rowPos e, U e, dofs e)) st b = some (st', b') ∧
      ∀ d, |b' d - (b d + integralOver (inside q.grid.length phi ∩ cellsRegion q.grid vs) fun x => w x * Φ d x)| ≤
        (vs.filter fun v => decide (v ∈ nearCells oo q.grid)).length * max η (M * κ) +
          δ * (vs.map fun v => boxVolume (boxOf q.grid v)).sum := by
  have G : Good B infoFE [[t]] (loopLoad n N) [] q nRows types n old domain [⟨degree, false⟩] :=
    ⟨hq, hqu, hpts, by rw [hg]; exact consistentFE hT degree, by
      intro s hs
      obtain rfl := List.mem_singleton.1 hs
      exact hdeg, hty, hloc, hrows, by
      intro r hr
      rw [hrow r hr, hratio, mul_one], kernelLoad hT N⟩
  refine C94_tensor hs toNat hn realScalars G rfl debug oo hd hm phi hsound hO (fun d x => w x * Φ d x) hF M hM0 hM κ η δ hκ hδ hA hin vs hvs hnd
    U dofs ?_ hk hr hst b
  intro e v row he hrowe
  obtain ⟨x0, x1, y0, y1, hc⟩ := hU e v he
  have hlt : e < domain.length := by
    rw [hvs.length_eq]
    exact (List.getElem?_eq_some_iff.1 he).1
  rw [hratio]
  exact computes_load hT hg (hrow row (List.mem_of_getElem? hrowe)) hc (hdofs e hlt) w Φ (hfe e v row he hrowe) (hbasis e v he)
    (hstat e v row he hrowe)

end Qugar.Py.Integral
