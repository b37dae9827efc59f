import Verif.Props.PyIntegralSurface
import Verif.Props.PyIntegralFE
/-
C96: the kernels of finite element functions, and of their fluxes, on the unfitted boundary compute their integrals over the surface.
-/
namespace Qugar.Py.Integral

open Pack Assemble Quad Spec BoxMeasure Integrals
open MeasureTheory hiding integral

/-- A component of the normal mapped to the rectangle, not normalized: the constants of the normal stand at 0. -/
noncomputable def normalSF (i : Fin 2) : Kernel.Expr ℝ :=
  if i = 0 then .op (· / ·) (.const 0) (.op (· - ·) (.input 1 (.lit 3)) (.input 1 (.lit 0)))
  else .op (· / ·) (.const 1) (.op (· - ·) (.input 1 (.lit 7)) (.input 1 (.lit 1)))

/-- The factor of Nanson's formula that the measure of the unfitted boundary introduces. -/
noncomputable def nansonSF : Kernel.Expr ℝ := .op (fun x y => √(x ^ 2 + y ^ 2)) (normalSF 0) (normalSF 1)

/-- The integrand is `w`, or `w` times a component of the mapped normal. -/
noncomputable def factorSF : Option (Fin 2) → Kernel.Expr ℝ
  | none => .lit 1
  | some i => .op (· / ·) (normalSF i) nansonSF

/-- `weights_0[iq] * detJ * |n| * factor`. -/
noncomputable def coefSF (i : Option (Fin 2)) : Kernel.Expr ℝ :=
  .op (· * ·) (.op (· * ·) (.op (· * ·) (.weight 0) detJ) nansonSF) (factorSF i)

/-- `A[0] += weights_0[iq] * detJ * |n| * factor * w0`. -/
noncomputable def addSF (i : Option (Fin 2)) : Kernel.Expr ℝ := .op (· * ·) (coefSF i) (.var 0 (.lit 0))

noncomputable def codeSF (n : Nat) (i : Option (Fin 2)) : Kernel.Code ℝ :=
  .seq (.decl 0 1 (.lit 0)) (.seq (.loop 0 n (.set 0 (.lit 0) stepFE)) (.accum (.lit 0) (addSF i)))

/-- The kernel of `w * ds_bdry_unf`, or of `w * n[i] * ds_bdry_unf`: the quadrature of FFCx has two fake points. -/
noncomputable def loopSF (n : Nat) (i : Option (Fin 2)) : Kernel.Loop ℝ where
  quad := 0
  pre := [.marker, .declWeights 0, .declTable 0]
  bound := .fixed 2
  body := [.code (codeSF n i)]

def infoSF : Kernel.Info where
  tables := [0]
  constant _ := false
  permuted _ := false
  quadOf _ := 0
  quads := [0]
  boundary _ := true
  interior := false
  normals := [0]
  tdim := 2

/-- The function, or its flux in a direction. -/
noncomputable def withNormal (f : List ℝ → ℝ) : Option (Fin 2) → List ℝ → List ℝ → ℝ
  | none, p, _ => f p
  | some i, p, m => f p * m.getD i.val 0

theorem codeSF_exec (ev : Kernel.Env ℝ → (Nat → Option Nat) → Kernel.Expr ℝ → Option ℝ) (n : Nat) (i : Option (Fin 2)) (c φ : Nat → ℝ) (j : ℝ)
    (h0 : ∀ env ρ, ev env ρ (.lit 0) = some 0)
    (h1 : ∀ env ρ r k, Kernel.Env.lookup 0 env = some [r] → ρ 0 = some k → k < n → ev env ρ stepFE = some (r + c k * φ k))
    (h2 : ∀ env ρ r, Kernel.Env.lookup 0 env = some [r] → ev env ρ (addSF i) = some (j * r)) (env : Kernel.Env ℝ) (A : Nat → ℝ) :
    (codeSF n i).exec ev Kernel.noLoop env A =
      some ((0, [combine n c φ]) :: env, Function.update A 0 (A 0 + j * combine n c φ)) := by
  have key : ∀ m, m ≤ n → Kernel.times (fun k (x : Kernel.Env ℝ × (Nat → ℝ)) => ((Kernel.Code.set 0 (.lit 0) stepFE).exec ev
      (Function.update Kernel.noLoop 0 (some k)) x.1 x.2).map fun y => (x.1.leave y.1, y.2)) m ((0, [0]) :: env, A) =
      some ((0, [combine m c φ]) :: env, A) := by
    intro m
    induction m with
    | zero => intro _; simp [Kernel.times, combine]
    | succ m ih =>
      intro hm
      rw [Kernel.times, ih (by omega), Option.bind_some, Kernel.Code.exec, h1 _ _ (combine m c φ) m (by simp [Kernel.Env.lookup])
        (by simp) (by omega)]
      simp [Kernel.Idx.val, Kernel.Env.assign, Kernel.Env.leave, combine, List.range_succ]
  rw [codeSF, Kernel.Code.exec, Kernel.Code.exec, h0, Option.map_some, Option.bind_some, Kernel.Code.exec, Kernel.Code.exec]
  rw [show List.replicate 1 (0 : ℝ) = [0] from rfl, key n (le_refl n), Option.bind_some, Kernel.Code.exec,
    h2 _ _ (combine n c φ) (by simp [Kernel.Env.lookup])]
  simp [Kernel.Idx.val]

/-- The value of the factor. -/
noncomputable def factor (i : Option (Fin 2)) (m : List ℝ) : ℝ := match i with
  | none => 1
  | some i => m.getD i.val 0

theorem withNormal_eq (f : List ℝ → ℝ) (i : Option (Fin 2)) (p m : List ℝ) : withNormal f i p m = f p * factor i m := by
  cases i <;> simp [withNormal, factor]

/-- The weight with the factors. -/
theorem coefSF_eval {P : Type} {B : Tables.Basix P ℝ} {t : Tables.Table P} (i : Option (Fin 2)) {row : List ℝ} {b : List (ℝ × ℝ)}
    {U : Kernel.Values ℝ} {x0 x1 y0 y1 : ℝ} (hc : CoordsFE b U x0 x1 y0 y1) (x : UNode ℝ) (hx : x.2.2.length = 2) (env : Kernel.Env ℝ)
    (ρ : Nat → Option Nat) : Kernel.idealEval (atNode realScalars B [[t]] (coefOf realScalars 1 row) U x) infoSF 0 0 env ρ (coefSF i) =
      some (x.2.1 * stretch b x.2.2 * factor i (unitNormal b x.2.2)) := by
  obtain ⟨n0, n1, hm⟩ : ∃ n0 n1, x.2.2 = [n0, n1] := by
    match h : x.2.2, hx with
    | [a, b], _ => exact ⟨a, b, rfl⟩
  have e0 : stretch b x.2.2 = (x1 - x0) * (y1 - y0) * √((n0 / (x1 - x0)) ^ 2 + (n1 / (y1 - y0)) ^ 2) := by
    simp only [stretch, euclid, boxNormal, hm, hc.volume]
    rw [hc.box]
    simp
  have e1 : ∀ i : Fin 2, factor (some i) (unitNormal b x.2.2) =
      (if i = 0 then n0 / (x1 - x0) else n1 / (y1 - y0)) / √((n0 / (x1 - x0)) ^ 2 + (n1 / (y1 - y0)) ^ 2) := by
    intro i
    simp only [unitNormal, euclid, boxNormal, hm, factor]
    rw [hc.box]
    fin_cases i <;> simp
  have en : ∀ j : Fin 2, Kernel.idealEval (atNode realScalars B [[t]] (coefOf realScalars 1 row) U x) infoSF 0 0 env ρ (normalSF j) =
      some (if j = 0 then n0 / (x1 - x0) else n1 / (y1 - y0)) := by
    intro j
    fin_cases j <;>
      simp [normalSF, Kernel.idealEval, Kernel.Idx.val, infoSF, atNode, hc.c0, hc.c1, hc.c3, hc.c7, hm, realScalars]
  have ea : Kernel.idealEval (atNode realScalars B [[t]] (coefOf realScalars 1 row) U x) infoSF 0 0 env ρ nansonSF =
      some √((n0 / (x1 - x0)) ^ 2 + (n1 / (y1 - y0)) ^ 2) := by
    simp only [nansonSF, Kernel.idealEval, en]
    simp
  have ef : Kernel.idealEval (atNode realScalars B [[t]] (coefOf realScalars 1 row) U x) infoSF 0 0 env ρ (factorSF i) =
      some (factor i (unitNormal b x.2.2)) := by
    cases i with
    | none => rfl
    | some i => simp only [factorSF, Kernel.idealEval, en, ea, e1]
  have ed : Kernel.idealEval (atNode realScalars B [[t]] (coefOf realScalars 1 row) U x) infoSF 0 0 env ρ (.op (· * ·) (.weight 0) detJ) =
      some (x.2.1 * ((x1 - x0) * (y1 - y0))) := by
    simp [detJ, Kernel.idealEval, Kernel.Idx.val, atNode, hc.c0, hc.c1, hc.c3, hc.c7, realScalars]
  have hop : ∀ (f : ℝ → ℝ → ℝ) a b u w, Kernel.idealEval (atNode realScalars B [[t]] (coefOf realScalars 1 row) U x) infoSF 0 0 env ρ a = some u →
      Kernel.idealEval (atNode realScalars B [[t]] (coefOf realScalars 1 row) U x) infoSF 0 0 env ρ b = some w →
      Kernel.idealEval (atNode realScalars B [[t]] (coefOf realScalars 1 row) U x) infoSF 0 0 env ρ (.op f a b) = some (f u w) := by
    intro f a b u w ha hb
    rw [Kernel.idealEval, ha, hb]
  rw [coefSF, hop _ _ _ _ _ (hop _ _ _ _ _ ed ea) ef, e0]
  congr 1
  ring

/-- The functions at the point. -/
theorem stepFE_eval {P : Type} {B : Tables.Basix P ℝ} {t : Tables.Table P} {n : Nat} {core : P} {v' : Nat} (hT : TableFE B t n core v')
    {row : List ℝ} (hrow : row.length = n) {U : Kernel.Values ℝ} (x : UNode ℝ) (env : Kernel.Env ℝ) (ρ : Nat → Option Nat) (r : ℝ) (k : Nat)
    (h1 : Kernel.Env.lookup 0 env = some [r]) (h2 : ρ 0 = some k) (h3 : k < n) :
    Kernel.idealEval (atNode realScalars B [[t]] (coefOf realScalars 1 row) U x) infoSF 0 0 env ρ stepFE =
      some (r + row.getD k 0 * B.eval core x.1 t.derivs k v') := by
  simp only [stepFE, Kernel.idealEval, Kernel.Idx.val, Option.bind_some, h1, h2, Option.map_some, infoSF, atNode, if_true,
    List.getElem?_cons_zero, Bool.false_eq_true, if_false]
  rw [coef_real row k (by omega)]
  simp [hT.name, hT.comp, realScalars]

/-- One node. -/
theorem nodeAdds_SF {P : Type} {B : Tables.Basix P ℝ} {t : Tables.Table P} {n : Nat} {core : P} {v' : Nat} (hT : TableFE B t n core v')
    (i : Option (Fin 2)) {row : List ℝ} (hrow : row.length = n) {b : List (ℝ × ℝ)} {U : Kernel.Values ℝ} {x0 x1 y0 y1 : ℝ}
    (hc : CoordsFE b U x0 x1 y0 y1) (x : UNode ℝ) (hx : x.2.2.length = 2) :
    nodeAdds (atNode realScalars B [[t]] (coefOf realScalars 1 row) U) infoSF 0 ((loopSF n i).pre ++ (loopSF n i).body) x =
      some (Function.update (0 : Nat → ℝ) 0 (x.2.1 * stretch b x.2.2 * factor i (unitNormal b x.2.2) *
        combine n (fun d => row.getD d 0) fun d => B.eval core x.1 t.derivs d v')) := by
  have h := codeSF_exec (Kernel.idealEval (atNode realScalars B [[t]] (coefOf realScalars 1 row) U x) infoSF 0 0) n i (fun d => row.getD d 0)
    (fun d => B.eval core x.1 t.derivs d v') (x.2.1 * stretch b x.2.2 * factor i (unitNormal b x.2.2)) (fun _ _ => rfl)
    (fun env ρ r k => stepFE_eval hT hrow x env ρ r k)
    (by
      intro env ρ r h1
      rw [addSF, Kernel.idealEval, coefSF_eval i hc x hx]
      simp only [Kernel.idealEval, Kernel.Idx.val, Option.bind_some, h1, List.getElem?_cons_zero]) [] 0
  rw [nodeAdds]
  show Option.map _ (((codeSF n i).exec _ Kernel.noLoop [] 0).bind _) = _
  rw [h, Option.bind_some]
  simp [Kernel.idealExec]

/-- **C96** (rules): with any points and normals, the kernel of a finite element function adds what they give for the function. -/
theorem rule_SF {P : Type} {B : Tables.Basix P ℝ} {t : Tables.Table P} {n : Nat} {core : P} {v' : Nat} (hT : TableFE B t n core v')
    (i : Option (Fin 2)) {row : List ℝ} (hrow : row.length = n) {b : List (ℝ × ℝ)} {U : Kernel.Values ℝ} {x0 x1 y0 y1 : ℝ}
    (hc : CoordsFE b U x0 x1 y0 y1)
    (f : List ℝ → ℝ) (hF : ∀ p : List ℝ, p.length = 2 → InUnitCube p → f (List.zipWith (fun iv x => iv.1 + x * (iv.2 - iv.1)) b p) =
      combine n (fun d => row.getD d 0) fun d => B.eval core p t.derivs d v')
    (nodes : List (UNode ℝ)) (hn : ∀ x ∈ nodes, x.1.length = 2 ∧ x.2.2.length = 2 ∧ InUnitCube x.1) :
    ∃ a, cellSum (atNode realScalars B [[t]] (coefOf realScalars 1 row) U) infoSF (loopSF n i).pre (fun _ => nodes) [loopSF n i] = some a ∧
      a 0 = surfaceSum b nodes (withNormal f i) := by
  unfold cellSum
  rw [List.mapM_cons, List.mapM_nil]
  rw [show (loopSF n i).quad = 0 from rfl]
  simp only []
  rw [mapM_map _ _ nodes fun x h => nodeAdds_SF hT i hrow hc x (hn x h).2.1]
  refine ⟨_, rfl, ?_⟩
  have e : nodes.map (fun x => Function.update (0 : Nat → ℝ) 0 (x.2.1 * stretch b x.2.2 * factor i (unitNormal b x.2.2) *
        combine n (fun d => row.getD d 0) fun d => B.eval core x.1 t.derivs d v')) =
      (nodes.map fun x => x.2.1 * stretch b x.2.2 * factor i (unitNormal b x.2.2) *
        combine n (fun d => row.getD d 0) fun d => B.eval core x.1 t.derivs d v').map fun r => Function.update (0 : Nat → ℝ) 0 r := by
    rw [List.map_map]; rfl
  rw [List.sum_singleton, e, sum_update]
  unfold surfaceSum
  congr 1
  apply List.map_congr_left
  intro x hx
  rw [withNormal_eq, hF _ (hn x hx).1 (hn x hx).2.2]
  ring

/-- **C96** (static data): in the cells that are not cut, the kernel adds nothing. -/
theorem static_SF {n : Nat} {i : Option (Fin 2)} (D : Kernel.Values ℝ) :
    ∃ a, Kernel.run D infoSF.tdim ([loopSF n i].map (Kernel.skip infoSF)) .empty [] 0 = some a ∧ a 0 = 0 := by
  refine ⟨0, ?_, rfl⟩
  have e : Kernel.skip infoSF (loopSF n i) = { loopSF n i with bound := .fixed 0 } := rfl
  rw [List.map_cons, List.map_nil, e, Kernel.run]
  rfl

/-- **C96** (finite element functions): the kernel computes the integral of the function, or of its flux, over the surface. -/
theorem computes_SF {P : Type} {B : Tables.Basix P ℝ} {t : Tables.Table P} {n : Nat} {core : P} {v' : Nat} (hT : TableFE B t n core v')
    (i : Option (Fin 2)) {g : Grid ℝ} (hg : g.length = 2) {v : Nat} {row : List ℝ} (hrow : row.length = n) {U : Kernel.Values ℝ} {x0 x1 y0 y1 : ℝ}
    (hc : CoordsFE (boxOf g v) U x0 x1 y0 y1)
    (f : List ℝ → ℝ) (hF : ∀ p : List ℝ, p.length = 2 → InUnitCube p → f (List.zipWith (fun iv x => iv.1 + x * (iv.2 - iv.1)) (boxOf g v) p) =
      combine n (fun d => row.getD d 0) fun d => B.eval core p t.derivs d v') :
    ComputesSurface realScalars B infoSF [[t]] (loopSF n i) [] 1 g (fun _ => withNormal f i) row v U fun _ a => a 0 := by
  refine ⟨fun nodes hn => ?_, ?_⟩
  · obtain ⟨a, h1, h2⟩ := rule_SF hT i hrow hc f hF nodes (by rw [← hg]; exact hn)
    exact ⟨a, h1, fun _ => h2⟩
  · obtain ⟨a, h1, h2⟩ := static_SF (n := n) (i := i)
      { U with input := fun a k => if a = 0 then (coefOf realScalars 1 row k).getD (U.input 0 k) else U.input a k }
    exact ⟨a, h1, fun _ => h2⟩

theorem consistentSF {P : Type} {B : Tables.Basix P ℝ} {t : Tables.Table P} {n : Nat} {core : P} {v' : Nat} (hT : TableFE B t n core v')
    (degree : Nat) : Consistent B infoSF [[t]] 2 [⟨degree, true⟩] where
  names := by decide
  length := rfl
  specs := rfl
  tdim := rfl
  interior := rfl
  known := by
    rintro m q ts hm ht x hx
    rcases m with _ | m
    · simp only [List.getElem?_cons_zero, Option.some.injEq, infoSF] at hm ht
      subst hm ht
      obtain rfl := List.mem_singleton.1 hx
      exact ⟨rfl, hT.const.symm, by rw [hT.perms]; rfl⟩
    · simp at ht
  all := by
    intro k hk
    obtain rfl := List.mem_singleton.1 hk
    exact ⟨t, by simp, hT.name⟩
  distinct := by simp
  wellFormed := by
    intro x hx _
    simp only [List.flatten_cons, List.flatten_nil, List.append_nil, List.mem_singleton] at hx
    subst hx
    exact hT.wf
  dims := by
    intro x hx _
    simp only [List.flatten_cons, List.flatten_nil, List.append_nil, List.mem_singleton] at hx
    subst hx
    exact hT.dim
  one := by
    have key : ∀ (m : Nat) ts, ([[t]] : List (List (Tables.Table P)))[m]? = some ts → m = 0 := by
      intro m ts h
      rcases m with _ | m
      · rfl
      · simp at h
    intro m m' ts ts' h1 h2 _ _
    rw [key m ts h1, key m' ts' h2]

theorem shapeSF (n : Nat) (i : Option (Fin 2)) : Kernel.Shape infoSF (loopSF n i) [] [] [0] [0] [] where
  pre := rfl
  setup := by simp
  more := by simp
  tables := by simp
  between := by simp
  body := by
    rcases i with _ | i
    · simp [loopSF, codeSF, stepFE, addSF, coefSF, nansonSF, factorSF, normalSF, detJ, Kernel.IsBody, Kernel.FromFFCx, Kernel.Code.All, infoSF]
    · fin_cases i <;>
        simp [loopSF, codeSF, stepFE, addSF, coefSF, nansonSF, factorSF, normalSF, detJ, Kernel.IsBody, Kernel.FromFFCx, Kernel.Code.All, infoSF]
  quads := by simp [loopSF, infoSF]

theorem kernelSF {P : Type} {B : Tables.Basix P ℝ} {t : Tables.Table P} {n : Nat} {core : P} {v' : Nat} (hT : TableFE B t n core v')
    (i : Option (Fin 2)) : KernelOk infoSF [[t]] (loopSF n i) [] n where
  shape := ⟨_, _, _, _, shapeSF n i⟩
  fixed := by
    intro l hl
    obtain rfl := List.mem_singleton.1 hl
    exact ⟨2, rfl⟩
  own := by
    intro l hl
    obtain rfl := List.mem_singleton.1 hl
    unfold Kernel.Local
    rfl
  allowed := by
    intro l hl c hc
    obtain rfl := List.mem_singleton.1 hl
    simp only [loopSF, List.cons_append, List.nil_append, List.mem_cons, reduceCtorEq, Kernel.Stmt.code.injEq, List.not_mem_nil, or_false,
      false_or] at hc
    subst hc
    have hf : count [[t]] 0 = n := by simp [count, hT.name, hT.funcs]
    refine ⟨trivial, ?_, ?_⟩
    · intro k hk
      refine ⟨trivial, ?_, ?_⟩
      · intro _ m hm
        simp only [Kernel.Idx.val, Function.update_self, Option.some.injEq] at hm
        omega
      · intro _
        refine ⟨rfl, rfl, by simp, ?_⟩
        intro m hm
        simp only [Kernel.Idx.val, Function.update_self, Option.some.injEq] at hm
        rw [hf]
        omega
    · rcases i with _ | i
      · simp [Each, addSF, coefSF, nansonSF, factorSF, normalSF, detJ, Access, loopSF]
      · fin_cases i <;> simp [Each, addSF, coefSF, nansonSF, factorSF, normalSF, detJ, Access, loopSF]
  constant := by
    intro l hl c hc
    obtain rfl := List.mem_singleton.1 hl
    simp only [loopSF, List.cons_append, List.nil_append, List.mem_cons, reduceCtorEq, Kernel.Stmt.code.injEq, List.not_mem_nil, or_false,
      false_or] at hc
    subst hc
    rcases i with _ | i
    · simp [Kernel.Code.All, ConstantFixed, codeSF, stepFE, addSF, coefSF, nansonSF, factorSF, normalSF, detJ, infoSF]
    · fin_cases i <;> simp [Kernel.Code.All, ConstantFixed, codeSF, stepFE, addSF, coefSF, nansonSF, factorSF, normalSF, detJ, infoSF]

/-- **C96** (finite element functions, two directions): the integral of a finite element function, or of its flux in a direction, over the
surface; `h` is the integrand as a function of the point of the surface. -/
theorem C96_finite_element {P : Type} [DecidableEq P] {B : Tables.Basix P ℝ} {t : Tables.Table P} {n : Nat} {core : P} {v' : Nat}
    (hT : TableFE B t n core v') (i : Option (Fin 2)) {q : QDomain ℝ} {nRows : Nat} (hq : q.Ok nRows) (hqu : q.u.Ok nRows)
    (hpts : PointDims q.oracle q.grid) (hg : q.grid.length = 2) {types : Types} (hty : types.Ok) (hratio : types.ratio = 1)
    {old : List (List ℝ)} {domain : List Nat} {degree : Nat}
    (hdeg : degree + 1 ≤ 2 * q.rules.nMax) (hloc : ∀ c ∈ domain, c < q.u.numLocal) (hrows : old.length = domain.length)
    (hrow : ∀ r ∈ old, r.length = n) {argsort : List Int → List Nat} (hs : ∀ l, IsArgsort l (argsort l))
    (toNat : ℝ → Nat) (hn : ∀ n : Nat, toNat (n : ℝ) = n)
    (debug : Bool) (oo : Oracles ℝ) (hd : build debug oo q.grid none = .ok q.u.dom) (hm : 0 ≤ oo.margin)
    (phi : List ℝ → ℝ) (hsound : SoundSign phi oo.sign) (μ : Measure (Fin q.grid.length → ℝ)) (f h : List ℝ → ℝ)
    (M : ℝ) (hM0 : 0 ≤ M) (κ η : ℝ) (hκ : 0 ≤ κ) (hO : OnSurface q.grid phi μ h M)
    (hA : SurfaceAccurate oo q.oracle q.grid μ (withNormal f i) h (UDomain.numGaussPoints degree) κ η)
    (vs : List Nat) (hvs : List.Forall₂ q.u.mesh.OrigCell domain vs) (hall : vs.Perm (List.range q.grid.numCells)) (U : Nat → Kernel.Values ℝ)
    (hU : ∀ (e v : Nat), vs[e]? = some v → ∃ x0 x1 y0 y1, CoordsFE (boxOf q.grid v) (U e) x0 x1 y0 y1)
    (hfe : ∀ (e v : Nat) row, vs[e]? = some v → old[e]? = some row → ∀ p : List ℝ, p.length = 2 → InUnitCube p →
      f (List.zipWith (fun iv x => iv.1 + x * (iv.2 - iv.1)) (boxOf q.grid v) p) =
        combine n (fun d => row.getD d 0) fun d => B.eval core p t.derivs d v')
    {s : UDomain.Caches} (hk : UDomain.CellCachesOk argsort q.u s) {ch : Cache ℝ} (hr : Reached q ch) {st : Tables.State P ℝ}
    (hst : Tables.Reachable B st) (A : Nat → ℝ) :
    ∃ s' ch' i' mem st' A', cellInput argsort q types n old domain [⟨degree, true⟩] s ch = some ((s', ch'), i') ∧ pack i' = some mem ∧
      assembleScalar (⟨toNat, realScalars, B, infoSF, false, [[t]], [loopSF n i], types, n, mem⟩ : Job P ℝ ℝ)
        ((List.range domain.length).map fun e => (i'.rowPos e, U e)) st A = some (st', A') ∧
      |A' 0 - (A 0 + surfaceIntegral μ (region q.grid.length q.grid.domain) h)| ≤ (nearCells oo q.grid).length * max η (M * κ) := by
  have G : Good B infoSF [[t]] (loopSF n i) [] q nRows types n old domain [⟨degree, true⟩] :=
    ⟨hq, hqu, hpts, by rw [hg]; exact consistentSF hT degree, by
      intro s hs
      obtain rfl := List.mem_singleton.1 hs
      exact hdeg, hty, hloc, hrows, by
      intro r hr
      rw [hrow r hr, hratio, mul_one], kernelSF hT i⟩
  refine C96_whole hs toNat hn realScalars G rfl debug oo hd hm phi hsound μ (withNormal f i) h M hM0 κ η hκ hO hA vs hvs hall U ?_ hk hr hst A
  intro e v row he hrowe
  obtain ⟨x0, x1, y0, y1, hc⟩ := hU e v he
  rw [hratio]
  exact computes_SF hT i hg (hrow row (List.mem_of_getElem? hrowe)) hc f (hfe e v row he hrowe)

end Qugar.Py.Integral
