import Verif.Props.PyIntegralSurfaceFE
import Verif.Props.PyIntegralLoad
/-
C96: the kernels of load vectors on the unfitted boundary.
-/
namespace Qugar.Py.Integral

open Pack Assemble Quad Spec BoxMeasure Integrals
open MeasureTheory hiding integral

/-- `A[i] += weights_0[iq] * detJ * |n| * factor * w0 * FE[0][0][iq][i]`. -/
noncomputable def addSL (i : Option (Fin 2)) : Kernel.Expr ℝ :=
  .op (· * ·) (.op (· * ·) (coefSF i) (.var 0 (.lit 0))) (.table4 0 none 0 none (.var 1))

noncomputable def codeSL (n : Nat) (i : Option (Fin 2)) : Kernel.Code ℝ :=
  .seq (.decl 0 1 (.lit 0)) (.seq (.loop 0 n (.set 0 (.lit 0) stepFE)) (.loop 1 n (.accum (.var 1) (addSL i))))

/-- The kernel of `w * v * ds_bdry_unf`, or of `w * n[i] * v * ds_bdry_unf`, where `v` is the test function. -/
noncomputable def loopSL (n : Nat) (i : Option (Fin 2)) : Kernel.Loop ℝ where
  quad := 0
  pre := [.marker, .declWeights 0, .declTable 0]
  bound := .fixed 2
  body := [.code (codeSL n i)]

theorem codeSL_exec (ev : Kernel.Env ℝ → (Nat → Option Nat) → Kernel.Expr ℝ → Option ℝ) (n : Nat) (i : Option (Fin 2)) (c φ : Nat → ℝ) (j : ℝ)
    (h0 : ∀ env ρ, ev env ρ (.lit 0) = some 0)
    (h1 : ∀ env ρ r k, Kernel.Env.lookup 0 env = some [r] → ρ 0 = some k → k < n → ev env ρ stepFE = some (r + c k * φ k))
    (h2 : ∀ env ρ r k, Kernel.Env.lookup 0 env = some [r] → ρ 1 = some k → k < n → ev env ρ (addSL i) = some (j * r * φ k))
    (env : Kernel.Env ℝ) (A : Nat → ℝ) :
    (codeSL n i).exec ev Kernel.noLoop env A = some ((0, [combine n c φ]) :: env, addAll n (j * combine n c φ) φ A) := by
  have key : ∀ m, m ≤ n → Kernel.times (fun k (x : Kernel.Env ℝ × (Nat → ℝ)) => ((Kernel.Code.set 0 (.lit 0) stepFE).exec ev
      (Function.update Kernel.noLoop 0 (some k)) x.1 x.2).map fun y => (x.1.leave y.1, y.2)) m ((0, [0]) :: env, A) =
      some ((0, [combine m c φ]) :: env, A) := by
    intro m
    induction m with
    | zero => intro _; simp [Kernel.times, combine]
    | succ m ih =>
      intro hm
      rw [Kernel.times, ih (by omega), Option.bind_some, Kernel.Code.exec, h1 _ _ (combine m c φ) m (by simp [Kernel.Env.lookup])
        (by simp) (by omega)]
      simp [Kernel.Idx.val, Kernel.Env.assign, Kernel.Env.leave, combine, List.range_succ]
  have key2 : ∀ m, m ≤ n → Kernel.times (fun k (x : Kernel.Env ℝ × (Nat → ℝ)) => ((Kernel.Code.accum (.var 1) (addSL i)).exec ev
      (Function.update Kernel.noLoop 1 (some k)) x.1 x.2).map fun y => (x.1.leave y.1, y.2)) m ((0, [combine n c φ]) :: env, A) =
      some ((0, [combine n c φ]) :: env, addAll m (j * combine n c φ) φ A) := by
    intro m
    induction m with
    | zero => intro _; simp [Kernel.times]; funext k; simp [addAll]
    | succ m ih =>
      intro hm
      rw [Kernel.times, ih (by omega), Option.bind_some, Kernel.Code.exec, h2 _ _ (combine n c φ) m (by simp [Kernel.Env.lookup])
        (by simp) (by omega)]
      simp only [Option.bind_some, Kernel.Idx.val, Function.update_self, Option.map_some, Kernel.Env.leave, Nat.sub_self, List.drop_zero]
      congr 2
      funext k
      by_cases hk : k = m
      · subst hk; simp [addAll]
      · rw [Function.update_of_ne hk]
        have : k < m + 1 ↔ k < m := by omega
        simp [addAll, this]
  rw [codeSL, Kernel.Code.exec, Kernel.Code.exec, h0, Option.map_some, Option.bind_some, Kernel.Code.exec, Kernel.Code.exec]
  rw [show List.replicate 1 (0 : ℝ) = [0] from rfl, key n (le_refl n), Option.bind_some, Kernel.Code.exec, key2 n (le_refl n)]

/-- One node. -/
theorem nodeAdds_SL {P : Type} {B : Tables.Basix P ℝ} {t : Tables.Table P} {n : Nat} {core : P} {v' : Nat} (hT : TableFE B t n core v')
    (i : Option (Fin 2)) {row : List ℝ} (hrow : row.length = n) {b : List (ℝ × ℝ)} {U : Kernel.Values ℝ} {x0 x1 y0 y1 : ℝ}
    (hc : CoordsFE b U x0 x1 y0 y1) (x : UNode ℝ) (hx : x.2.2.length = 2) :
    nodeAdds (atNode realScalars B [[t]] (coefOf realScalars 1 row) U) infoSF 0 ((loopSL n i).pre ++ (loopSL n i).body) x =
      some (addAll n (x.2.1 * stretch b x.2.2 * factor i (unitNormal b x.2.2) * combine n (fun d => row.getD d 0) fun d =>
        B.eval core x.1 t.derivs d v') (fun d => B.eval core x.1 t.derivs d v') 0) := by
  have h := codeSL_exec (Kernel.idealEval (atNode realScalars B [[t]] (coefOf realScalars 1 row) U x) infoSF 0 0) n i (fun d => row.getD d 0)
    (fun d => B.eval core x.1 t.derivs d v') (x.2.1 * stretch b x.2.2 * factor i (unitNormal b x.2.2)) (fun _ _ => rfl)
    (fun env ρ r k => stepFE_eval hT hrow x env ρ r k)
    (by
      intro env ρ r k h1 h2 h3
      have hop : ∀ (f : ℝ → ℝ → ℝ) a c (u w : ℝ),
          Kernel.idealEval (atNode realScalars B [[t]] (coefOf realScalars 1 row) U x) infoSF 0 0 env ρ a = some u →
          Kernel.idealEval (atNode realScalars B [[t]] (coefOf realScalars 1 row) U x) infoSF 0 0 env ρ c = some w →
          Kernel.idealEval (atNode realScalars B [[t]] (coefOf realScalars 1 row) U x) infoSF 0 0 env ρ (.op f a c) = some (f u w) := by
        intro f a c u w ha hb
        rw [Kernel.idealEval, ha, hb]
      have e2 : Kernel.idealEval (atNode realScalars B [[t]] (coefOf realScalars 1 row) U x) infoSF 0 0 env ρ (.var 0 (.lit 0)) = some r := by
        simp [Kernel.idealEval, Kernel.Idx.val, h1]
      have e3 : Kernel.idealEval (atNode realScalars B [[t]] (coefOf realScalars 1 row) U x) infoSF 0 0 env ρ (.table4 0 none 0 none (.var 1)) =
          some (B.eval core x.1 t.derivs k v') := by
        simp [Kernel.idealEval, Kernel.Idx.val, h2, infoSF, atNode, hT.name, hT.comp, realScalars]
      rw [addSL, hop _ _ _ _ _ (hop _ _ _ _ _ (coefSF_eval i hc x hx env ρ) e2) e3]) [] 0
  rw [nodeAdds]
  show Option.map _ (((codeSL n i).exec _ Kernel.noLoop [] 0).bind _) = _
  rw [h, Option.bind_some]
  simp [Kernel.idealExec]

/-- **C96** (load vectors): the kernel of `w v ds_bdry_unf` computes the integrals over the surface of `w`, or of its flux, times the functions
`Φ d` of the global basis: in the cell, `Φ d` is the sum of the functions numbered `d`. -/
theorem computes_SL {P : Type} {B : Tables.Basix P ℝ} {t : Tables.Table P} {n : Nat} {core : P} {v' : Nat} (hT : TableFE B t n core v')
    (i : Option (Fin 2)) {g : Grid ℝ} (hg : g.length = 2) {v : Nat} {row : List ℝ} (hrow : row.length = n) {U : Kernel.Values ℝ} {x0 x1 y0 y1 : ℝ}
    (hc : CoordsFE (boxOf g v) U x0 x1 y0 y1) {dofs : List Nat} (hdofs : dofs.length = n)
    (w : List ℝ → ℝ) (Φ : Nat → List ℝ → ℝ)
    (hw : ∀ p : List ℝ, p.length = 2 → InUnitCube p → w (List.zipWith (fun iv x => iv.1 + x * (iv.2 - iv.1)) (boxOf g v) p) =
      combine n (fun d => row.getD d 0) fun d => B.eval core p t.derivs d v')
    (hΦ : ∀ p : List ℝ, p.length = 2 → InUnitCube p → ∀ d, Φ d (List.zipWith (fun iv x => iv.1 + x * (iv.2 - iv.1)) (boxOf g v) p) =
      entry dofs (fun k => B.eval core p t.derivs k v') d) :
    ComputesSurface realScalars B infoSF [[t]] (loopSL n i) [] 1 g (fun d => withNormal (fun x => w x * Φ d x) i) row v U
      fun d a => entry dofs a d := by
  constructor
  · intro nodes hn
    unfold cellSum
    rw [List.mapM_cons, List.mapM_nil]
    rw [show (loopSL n i).quad = 0 from rfl]
    simp only []
    rw [mapM_map _ _ nodes fun x h => nodeAdds_SL hT i hrow hc x (by rw [← hg]; exact (hn x h).2.1)]
    refine ⟨_, rfl, fun d => ?_⟩
    rw [List.sum_singleton, entry_sum, List.map_map]
    unfold surfaceSum
    congr 1
    apply List.map_congr_left
    intro x hx
    have hx2 : x.1.length = 2 := by rw [← hg]; exact (hn x hx).1
    show entry dofs (addAll n _ _ 0) d = _
    rw [entry_smul dofs n hdofs, withNormal_eq, hw x.1 hx2 (hn x hx).2.2, hΦ x.1 hx2 (hn x hx).2.2]
    ring
  · refine ⟨0, ?_, fun d => entry_zero dofs d⟩
    have e : Kernel.skip infoSF (loopSL n i) = { loopSL n i with bound := .fixed 0 } := rfl
    rw [List.map_cons, List.map_nil, e, Kernel.run]
    rfl

theorem shapeSL (n : Nat) (i : Option (Fin 2)) : Kernel.Shape infoSF (loopSL n i) [] [] [0] [0] [] where
  pre := rfl
  setup := by simp
  more := by simp
  tables := by simp
  between := by simp
  body := by
    rcases i with _ | i
    · simp [loopSL, codeSL, stepFE, addSL, coefSF, nansonSF, factorSF, normalSF, detJ, Kernel.IsBody, Kernel.FromFFCx, Kernel.Code.All, infoSF]
    · fin_cases i <;>
        simp [loopSL, codeSL, stepFE, addSL, coefSF, nansonSF, factorSF, normalSF, detJ, Kernel.IsBody, Kernel.FromFFCx, Kernel.Code.All, infoSF]
  quads := by simp [loopSL, infoSF]

theorem kernelSL {P : Type} {B : Tables.Basix P ℝ} {t : Tables.Table P} {n : Nat} {core : P} {v' : Nat} (hT : TableFE B t n core v')
    (i : Option (Fin 2)) : KernelOk infoSF [[t]] (loopSL n i) [] n where
  shape := ⟨_, _, _, _, shapeSL n i⟩
  fixed := by
    intro l hl
    obtain rfl := List.mem_singleton.1 hl
    exact ⟨2, rfl⟩
  own := by
    intro l hl
    obtain rfl := List.mem_singleton.1 hl
    unfold Kernel.Local
    rfl
  allowed := by
    intro l hl c hc
    obtain rfl := List.mem_singleton.1 hl
    simp only [loopSL, List.cons_append, List.nil_append, List.mem_cons, reduceCtorEq, Kernel.Stmt.code.injEq, List.not_mem_nil, or_false,
      false_or] at hc
    subst hc
    have hf : count [[t]] 0 = n := by simp [count, hT.name, hT.funcs]
    refine ⟨trivial, ?_, ?_⟩
    · intro k hk
      refine ⟨trivial, ?_, ?_⟩
      · intro _ m hm
        simp only [Kernel.Idx.val, Function.update_self, Option.some.injEq] at hm
        omega
      · intro _
        refine ⟨rfl, rfl, by simp, ?_⟩
        intro m hm
        simp only [Kernel.Idx.val, Function.update_self, Option.some.injEq] at hm
        rw [hf]
        omega
    · intro k hk
      refine ⟨⟨?_, trivial⟩, ?_⟩
      · rcases i with _ | i
        · simp [coefSF, nansonSF, factorSF, normalSF, detJ, Access, loopSL]
        · fin_cases i <;> simp [coefSF, nansonSF, factorSF, normalSF, detJ, Access, loopSL]
      · intro _
        refine ⟨rfl, rfl, by simp, ?_⟩
        intro m hm
        simp only [Kernel.Idx.val, Function.update_self, Option.some.injEq] at hm
        rw [hf]
        omega
  constant := by
    intro l hl c hc
    obtain rfl := List.mem_singleton.1 hl
    simp only [loopSL, List.cons_append, List.nil_append, List.mem_cons, reduceCtorEq, Kernel.Stmt.code.injEq, List.not_mem_nil, or_false,
      false_or] at hc
    subst hc
    rcases i with _ | i
    · simp [Kernel.Code.All, ConstantFixed, codeSL, stepFE, addSL, coefSF, nansonSF, factorSF, normalSF, detJ, infoSF]
    · fin_cases i <;> simp [Kernel.Code.All, ConstantFixed, codeSL, stepFE, addSL, coefSF, nansonSF, factorSF, normalSF, detJ, infoSF]

/-- **C96** (load vectors, two directions): the vector of the integrals over the surface of `w * Φ d`, or of its flux in a direction, where `w` is
a finite element function and `Φ` the global basis of its space; `h d` is the integrand as a function of the point of the surface. -/
theorem C96_load_vector {P : Type} [DecidableEq P] {B : Tables.Basix P ℝ} {t : Tables.Table P} {n : Nat} {core : P} {v' : Nat}
    (hT : TableFE B t n core v') (i : Option (Fin 2)) {q : QDomain ℝ} {nRows : Nat} (hq : q.Ok nRows) (hqu : q.u.Ok nRows)
    (hpts : PointDims q.oracle q.grid) (hg : q.grid.length = 2) {types : Types} (hty : types.Ok) (hratio : types.ratio = 1)
    {old : List (List ℝ)} {domain : List Nat} {degree : Nat}
    (hdeg : degree + 1 ≤ 2 * q.rules.nMax) (hloc : ∀ c ∈ domain, c < q.u.numLocal) (hrows : old.length = domain.length)
    (hrow : ∀ r ∈ old, r.length = n) {argsort : List Int → List Nat} (hs : ∀ l, IsArgsort l (argsort l))
    (toNat : ℝ → Nat) (hn : ∀ n : Nat, toNat (n : ℝ) = n)
    (debug : Bool) (oo : Oracles ℝ) (hd : build debug oo q.grid none = .ok q.u.dom) (hm : 0 ≤ oo.margin)
    (phi : List ℝ → ℝ) (hsound : SoundSign phi oo.sign) (μ : Measure (Fin q.grid.length → ℝ)) (w : List ℝ → ℝ) (Φ h : Nat → List ℝ → ℝ)
    (M : ℝ) (hM0 : 0 ≤ M) (κ η : ℝ) (hκ : 0 ≤ κ) (hO : ∀ d, OnSurface q.grid phi μ (h d) M)
    (hA : ∀ d, SurfaceAccurate oo q.oracle q.grid μ (withNormal (fun x => w x * Φ d x) i) (h d) (UDomain.numGaussPoints degree) κ η)
    (vs : List Nat) (hvs : List.Forall₂ q.u.mesh.OrigCell domain vs) (hnd : vs.Nodup) (U : Nat → Kernel.Values ℝ)
    (hU : ∀ (e v : Nat), vs[e]? = some v → ∃ x0 x1 y0 y1, CoordsFE (boxOf q.grid v) (U e) x0 x1 y0 y1)
    (dofs : Nat → List Nat) (hdofs : ∀ e < domain.length, (dofs e).length = n)
    (hfe : ∀ (e v : Nat) row, vs[e]? = some v → old[e]? = some row → ∀ p : List ℝ, p.length = 2 → InUnitCube p →
      w (List.zipWith (fun iv x => iv.1 + x * (iv.2 - iv.1)) (boxOf q.grid v) p) =
        combine n (fun d => row.getD d 0) fun d => B.eval core p t.derivs d v')
    (hbasis : ∀ (e v : Nat), vs[e]? = some v → ∀ p : List ℝ, p.length = 2 → InUnitCube p → ∀ d,
      Φ d (List.zipWith (fun iv x => iv.1 + x * (iv.2 - iv.1)) (boxOf q.grid v) p) =
        entry (dofs e) (fun k => B.eval core p t.derivs k v') d)
    {s : UDomain.Caches} (hk : UDomain.CellCachesOk argsort q.u s) {ch : Cache ℝ} (hr : Reached q ch) {st : Tables.State P ℝ}
    (hst : Tables.Reachable B st) (b : Nat → ℝ) :
    ∃ s' ch' i' mem st' b', cellInput argsort q types n old domain [⟨degree, true⟩] s ch = some ((s', ch'), i') ∧ pack i' = some mem ∧
      assembleVector (⟨toNat, realScalars, B, infoSF, false, [[t]], [loopSL n i], types, n, mem⟩ : Job P ℝ ℝ)
        ((List.range domain.length).map fun e => (i'.rowPos e, U e, dofs e)) st b = some (st', b') ∧
      ∀ d, |b' d - (b d + surfaceIntegral μ (cellsRegion q.grid vs) (h d))| ≤
        (vs.filter fun v => decide (v ∈ nearCells oo q.grid)).length * max η (M * κ) := by
  have G : Good B infoSF [[t]] (loopSL n i) [] q nRows types n old domain [⟨degree, true⟩] :=
    ⟨hq, hqu, hpts, by rw [hg]; exact consistentSF hT degree, by
      intro s hs
      obtain rfl := List.mem_singleton.1 hs
      exact hdeg, hty, hloc, hrows, by
      intro r hr
      rw [hrow r hr, hratio, mul_one], kernelSL hT i⟩
  refine C96_tensor hs toNat hn realScalars G rfl debug oo hd hm phi hsound μ (fun d => withNormal (fun x => w x * Φ d x) i) h M hM0 κ η hκ hO hA
    vs hvs hnd U dofs ?_ hk hr hst b
  intro e v row he hrowe
  obtain ⟨x0, x1, y0, y1, hc⟩ := hU e v he
  have hlt : e < domain.length := by
    rw [hvs.length_eq]
    exact (List.getElem?_eq_some_iff.1 he).1
  rw [hratio]
  exact computes_SL hT i hg (hrow row (List.mem_of_getElem? hrowe)) hc (hdofs e hlt) w Φ (hfe e v row he hrowe) (hbasis e v he)

end Qugar.Py.Integral
