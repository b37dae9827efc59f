import Verif.Model.PyIntegral
import Verif.Props.PyQuad
import Verif.Props.PyAssemble
import Mathlib.Algebra.BigOperators.Pi
/-
C90: an integral over cells assembled with the generated functions is the sum over the nodes of the cut cells and the standard kernel in
the full ones.
-/
namespace Qugar.Py.Integral

open Pack Assemble Quad Spec

/-! ### Specification -/

section
variable {P K R : Type}

/-- The data at a node of a rule: weight, normal, functions at the point. `coef`: the coefficients of the cell; `U`: its coordinates, and
the constants. -/
def atNode [AddCommMonoid R] (S : Scalars K R) (B : Tables.Basix P K) (tables : List (List (Tables.Table P))) (coef : Nat → Option R)
    (U : Kernel.Values R) (x : UNode K) : Kernel.Values R where
  const := U.const
  input a k := if a = 0 then (coef k).getD (U.input 0 k) else U.input a k
  staticWeight := U.staticWeight
  staticTable := U.staticTable
  weight _ _ := S.real x.2.1
  normals _ k := ((x.2.2[k]?).map S.real).getD 0
  points _ := 1
  table t _ _ d :=
    match tables.flatten.find? (fun y => y.name == t) with
    | none => 0
    | some y =>
      match (Tables.components B.values y.elem)[y.component]? with
      | none => 0
      | some (core, v) => S.real (B.eval core x.1 y.derivs d v)

/-- What the statements of a loop add to an element tensor of zeros, at a node. -/
def nodeAdds [AddCommMonoid R] (D : UNode K → Kernel.Values R) (I : Kernel.Info) (q : Nat) (stmts : List (Kernel.Stmt R)) (x : UNode K) :
    Option (Nat → R) :=
  (Kernel.idealExec (D x) I q 0 stmts [] 0).map Prod.snd

/-- The sum over the loops and over the nodes of their quadratures. -/
def cellSum [AddCommMonoid R] (D : UNode K → Kernel.Values R) (I : Kernel.Info) (pre : List (Kernel.Stmt R)) (rules : Nat → List (UNode K))
    (ls : List (Kernel.Loop R)) : Option (Nat → R) :=
  (ls.mapM fun l => ((rules l.quad).mapM (nodeAdds D I l.quad (pre ++ l.body))).map List.sum).map List.sum

/-- The coefficients of an entity given by DOLFINx: each has `ratio` numbers. -/
def coefOf (S : Scalars K R) (ratio : Nat) (row : List K) (k : Nat) : Option R :=
  if (k + 1) * ratio ≤ row.length then some (S.scalar ((row.drop (k * ratio)).take ratio)) else none

/-- The index of the point is used for the tables that depend on it only. -/
def ConstantFixed (I : Kernel.Info) : Kernel.Expr R → Prop
  | .table4 t _ _ pt _ => I.constant t = true → pt.isSome = true
  | .op _ a b => ConstantFixed I a ∧ ConstantFixed I b
  | _ => True

end

section
variable {K : Type} [Field K] [LinearOrder K]

/-- `nodes` is the rule of the original cell `v` for the quadrature: of the part of the cell inside of the domain, or of the unfitted
boundary in the cell. -/
def IsRule (q : QDomain K) (s : QuadSpec) (v : Nat) (nodes : List (UNode K)) : Prop :=
  if s.boundary then IsUnfRule q.rules q.oracle q.grid q.u.dom (UDomain.numGaussPoints s.degree) false false v nodes
  else ∃ b, IsCellRule q.rules q.oracle q.grid q.u.dom (UDomain.numGaussPoints s.degree) v b ∧ nodes = b.map fun x => (x.1, x.2, [])

/-- The points and gradients that come from outside have as many coordinates as the grid has directions. -/
structure PointDims (o : QOracle K) (g : Grid K) : Prop where
  volGen : ∀ c dom n, g.cellDomain c = some dom → ∀ x ∈ o.volGen dom n, x.1.length = g.length
  volBzr : ∀ c dom n, g.cellDomain c = some dom → ∀ x ∈ o.volBzr dom n, x.1.length = g.length
  surfGen : ∀ c dom n, g.cellDomain c = some dom → ∀ x ∈ o.surfGen dom n, x.1.length = g.length
  surfBzr : ∀ c dom n, g.cellDomain c = some dom → ∀ x ∈ o.surfBzr dom n, x.1.length = g.length
  grad : ∀ x, x.length = g.length → (o.grad x).length = g.length
  bzrGrad : ∀ c dom x, g.cellDomain c = some dom → x.length = g.length → (o.bzrGrad dom x).length = g.length

/-- The C++ library is in a state that calls of it lead to. -/
def Reached (q : QDomain K) (ch : Cache K) : Prop :=
  ∃ history : List (QuadCall K), (∀ c ∈ history, c.dim = 2 ∨ c.dim = 3) ∧ QuadCall.execAll q.debug q.rules history Cache.init = some ch

end

/-- What belongs together in an integral over cells: as `Linked`, with the quadratures of the integral. -/
structure Consistent {P K : Type} (B : Tables.Basix P K) (I : Kernel.Info) (tables : List (List (Tables.Table P))) (dim : Nat)
    (specs : List QuadSpec) : Prop where
  names : I.quads.Nodup
  length : tables.length = I.quads.length
  specs : specs.map (fun s => s.boundary) = I.quads.map I.boundary
  tdim : I.tdim = dim
  interior : I.interior = false
  known : ∀ (m q : Nat) (ts : List (Tables.Table P)), I.quads[m]? = some q → tables[m]? = some ts → ∀ x ∈ ts,
    I.quadOf x.name = q ∧ I.constant x.name = x.const ∧ I.permuted x.name = decide (1 < x.perms)
  all : ∀ t ∈ I.tables, ∃ x ∈ tables.flatten, x.name = t
  distinct : (tables.flatten.map fun x => x.name).Nodup
  wellFormed : ∀ x ∈ tables.flatten, x.const = false → Tables.WellFormed B x
  dims : ∀ x ∈ tables.flatten, x.const = false → x.elemDim = I.tdim
  one : ∀ (m m' : Nat) ts ts', tables[m]? = some ts → tables[m']? = some ts' → (∃ x ∈ ts, x.const = false) →
    (∃ x ∈ ts', x.const = false) → m = m'

/-- What the cell with original number `v` and coefficients `row` has to add to the element tensor: a cut cell, the sum over the nodes of
its rules; an empty cell, nothing; others, the kernel of FFCx with its static data. -/
def Adds {P K R : Type} [Field K] [LinearOrder K] [AddCommMonoid R] (S : Scalars K R) (B : Tables.Basix P K) (I : Kernel.Info)
    (tables : List (List (Tables.Table P))) (first : Kernel.Loop R) (rest : List (Kernel.Loop R)) (q : QDomain K) (specs : List QuadSpec)
    (ratio : Nat) (row : List K) (v : Nat) (U : Kernel.Values R) (δ : Nat → R) : Prop :=
  (HasStatus q.u.dom.n q.u.dom.tree v .cut → ∃ rules : Nat → List (UNode K),
    (∀ (m n : Nat) s, I.quads[m]? = some n → specs[m]? = some s → IsRule q s v (rules n)) ∧
    cellSum (atNode S B tables (coefOf S ratio row) U) I first.pre rules (first :: rest) = some δ) ∧
  (HasStatus q.u.dom.n q.u.dom.tree v .empty → δ = 0) ∧
  (¬ HasStatus q.u.dom.n q.u.dom.tree v .cut → ¬ HasStatus q.u.dom.n q.u.dom.tree v .empty →
    Kernel.run { U with input := fun a k => if a = 0 then (coefOf S ratio row k).getD (U.input 0 k) else U.input a k } I.tdim
      ((first :: rest).map (Kernel.skip I)) .empty [] 0 = some δ)

/-! ### Proofs: element tensors are accumulated -/

section
variable {R : Type} [AddCommMonoid R]

/-- An element tensor with `C` added. -/
def shift (C : Nat → R) (x : Kernel.Env R × (Nat → R)) : Kernel.Env R × (Nat → R) := (x.1, C + x.2)

theorem times_map {α : Type} {f : Nat → α → Option α} {φ : α → α} (h : ∀ k x, f k (φ x) = (f k x).map φ) :
    ∀ (n : Nat) (x : α), Kernel.times f n (φ x) = (Kernel.times f n x).map φ
  | 0, _ => rfl
  | n + 1, x => by
    rw [Kernel.times, Kernel.times, times_map h n x]
    cases Kernel.times f n x with
    | none => rfl
    | some y => exact h n y

theorem code_shift (C : Nat → R) (ev : Kernel.Env R → (Nat → Option Nat) → Kernel.Expr R → Option R) :
    ∀ (c : Kernel.Code R) (ρ : Nat → Option Nat) (env : Kernel.Env R) (A : Nat → R),
      c.exec ev ρ env (C + A) = (c.exec ev ρ env A).map (shift C)
  | .skip, _, _, _ => rfl
  | .seq a b, ρ, env, A => by
    rw [Kernel.Code.exec, Kernel.Code.exec, code_shift C ev a]
    cases a.exec ev ρ env A with
    | none => rfl
    | some x => exact code_shift C ev b ρ x.1 x.2
  | .decl x n e, ρ, env, A => by
    rw [Kernel.Code.exec, Kernel.Code.exec]
    cases ev env ρ e <;> rfl
  | .set x k e, ρ, env, A => by
    rw [Kernel.Code.exec, Kernel.Code.exec]
    cases ev env ρ e with
    | none => rfl
    | some r =>
      simp only [Option.bind_some]
      cases k.val ρ with
      | none => rfl
      | some j =>
        simp only [Option.bind_some]
        cases env.assign x j r <;> rfl
  | .accum i e, ρ, env, A => by
    rw [Kernel.Code.exec, Kernel.Code.exec]
    cases ev env ρ e with
    | none => rfl
    | some r =>
      simp only [Option.bind_some]
      cases i.val ρ with
      | none => rfl
      | some j =>
        simp only [Option.map_some, shift]
        congr 2
        funext m
        by_cases hm : m = j
        · subst hm
          simp [add_assoc]
        · simp [hm]
  | .block c, ρ, env, A => by
    rw [Kernel.Code.exec, Kernel.Code.exec, code_shift C ev c]
    cases c.exec ev ρ env A <;> rfl
  | .loop v n c, ρ, env, A => by
    rw [Kernel.Code.exec, Kernel.Code.exec]
    refine times_map (φ := shift C) (fun k x => ?_) n (env, A)
    show Option.map _ (c.exec ev _ x.1 (C + x.2)) = _
    rw [code_shift C ev c]
    cases c.exec ev (Function.update ρ v (some k)) x.1 x.2 <;> rfl

theorem idealExec_shift (C : Nat → R) (D : Kernel.Values R) (I : Kernel.Info) (q iq : Nat) :
    ∀ (ss : List (Kernel.Stmt R)) (env : Kernel.Env R) (A : Nat → R),
      Kernel.idealExec D I q iq ss env (C + A) = (Kernel.idealExec D I q iq ss env A).map (shift C)
  | [], _, _ => rfl
  | s :: ss, env, A => by
    cases s with
    | code c =>
      rw [Kernel.idealExec, Kernel.idealExec, code_shift C]
      cases c.exec (Kernel.idealEval D I q iq) Kernel.noLoop env A with
      | none => rfl
      | some x => exact idealExec_shift C D I q iq ss x.1 x.2
    | _ => exact idealExec_shift C D I q iq ss env A

/-- The same for names, variables and whether there was a `break`. -/
def shift4 (C : Nat → R) (x : Kernel.Scope R × Kernel.Env R × (Nat → R) × Bool) : Kernel.Scope R × Kernel.Env R × (Nat → R) × Bool :=
  (x.1, x.2.1, C + x.2.2.1, x.2.2.2)

theorem exec_shift (C : Nat → R) (D : Kernel.Values R) (tdim : Nat) (iq : Option Nat) :
    ∀ (ss : List (Kernel.Stmt R)) (sc : Kernel.Scope R) (env : Kernel.Env R) (A : Nat → R),
      Kernel.exec D tdim iq ss sc env (C + A) = (Kernel.exec D tdim iq ss sc env A).map (shift4 C)
  | [], _, _, _ => rfl
  | s :: ss, sc, env, A => by
    cases s with
    | code c =>
      rw [Kernel.exec, Kernel.exec, code_shift C]
      cases c.exec (Kernel.eval D tdim sc iq) Kernel.noLoop env A with
      | none => rfl
      | some x => exact exec_shift C D tdim iq ss sc x.1 x.2
    | brk => cases iq <;> rfl
    | _ => exact exec_shift C D tdim iq ss _ env A

theorem iterate_shift (C : Nat → R) (D : Kernel.Values R) (tdim : Nat) (body : List (Kernel.Stmt R)) (sc : Kernel.Scope R) :
    ∀ (n k : Nat) (env : Kernel.Env R) (A : Nat → R),
      Kernel.iterate D tdim body sc n k env (C + A) = (Kernel.iterate D tdim body sc n k env A).map (shift C)
  | 0, _, _, _ => rfl
  | n + 1, k, env, A => by
    rw [Kernel.iterate, Kernel.iterate, exec_shift C]
    rcases Kernel.exec D tdim (some k) body sc env A with _ | ⟨_, env', A', _ | _⟩
    · rfl
    · exact iterate_shift C D tdim body sc n (k + 1) _ A'
    · rfl

theorem run_shift (C : Nat → R) (D : Kernel.Values R) (tdim : Nat) :
    ∀ (ls : List (Kernel.Loop R)) (sc : Kernel.Scope R) (env : Kernel.Env R) (A : Nat → R),
      Kernel.run D tdim ls sc env (C + A) = (Kernel.run D tdim ls sc env A).map (C + ·)
  | [], _, _, _ => rfl
  | l :: ls, sc, env, A => by
    rw [Kernel.run, Kernel.run, exec_shift C]
    rcases Kernel.exec D tdim none l.pre sc env A with _ | ⟨sc', env', A', _ | _⟩
    · rfl
    · simp only [Option.map_some, shift4]
      split
      · rfl
      · rename_i n _
        rw [iterate_shift C]
        rcases Kernel.iterate D tdim l.body sc' n 0 env' A' with _ | ⟨env'', A''⟩
        · rfl
        · exact run_shift C D tdim ls sc' env'' A''
    · rfl

end

/-! ### Proofs: a node -/

section
variable {P K R : Type}

/-- The data at the point `iq` of the quadrature `q` are those at the point 0 of other data. -/
structure SameAt (D D' : Kernel.Values R) (I : Kernel.Info) (fs : Nat → Nat) (cols q iq : Nat) : Prop where
  const : D.const = D'.const
  staticTable : D.staticTable = D'.staticTable
  other : ∀ a k, a ≠ 0 → D.input a k = D'.input a k
  input : ∀ k < cols, D.input 0 k = D'.input 0 k
  weight : D.weight q iq = D'.weight q 0
  normals : I.boundary q = true → ∀ k < I.tdim, D.normals q (I.tdim * iq + k) = D'.normals q k
  table : ∀ t s d, t ∈ I.tables → I.constant t = false → I.quadOf t = q → d < fs t → (s.isSome = true → I.two t = true) →
    D.table t s iq d = D'.table t s 0 d

theorem idealEval_sameAt {D D' : Kernel.Values R} {I : Kernel.Info} {fs : Nat → Nat} {cols q iq : Nat} (h : SameAt D D' I fs cols q iq)
    (env : Kernel.Env R) (ρ : Nat → Option Nat) : ∀ e : Kernel.Expr R, Kernel.FromFFCx I e → ConstantFixed I e → Access I fs cols q ρ e →
      Kernel.idealEval D I q iq env ρ e = Kernel.idealEval D' I q 0 env ρ e
  | .lit _, _, _, _ => rfl
  | .var _ _, _, _, _ => rfl
  | .input a k, _, _, ha => by
    rw [Kernel.idealEval, Kernel.idealEval]
    rcases hk : k.val ρ with _ | n
    · rfl
    · by_cases h0 : a = 0
      · subst h0
        rw [Option.map_some, Option.map_some, h.input n (ha rfl n hk)]
      · rw [Option.map_some, Option.map_some, h.other a n h0]
  | .const k, _, _, _ => by
    rw [Kernel.idealEval, Kernel.idealEval, h.const]
    split
    · next off hoff =>
      split at hoff
      · next hb =>
        have := List.find?_some hoff
        simp only [Bool.and_eq_true, decide_eq_true_eq] at this
        rw [h.normals hb (k - off) (by omega), Nat.mul_zero, Nat.zero_add]
      · simp at hoff
    · rfl
  | .weight q', _, _, ha => by
    rw [Kernel.idealEval, Kernel.idealEval, show q' = q from ha, h.weight]
  | .table4 t p e pt d, hf, hcf, ha => by
    rw [Kernel.idealEval, Kernel.idealEval]
    rcases hd : d.val ρ with _ | n
    · rfl
    · rw [Option.map_some, Option.map_some]
      rcases hc : I.constant t with _ | _
      · obtain ⟨rfl, h2, h3, h4⟩ := ha hc
        simp only [Bool.false_eq_true, if_false, Option.getD_none]
        rw [h.table t _ n hf.1 hc h2 (h4 n hd)]
        intro hs
        split at hs
        · assumption
        · simp at hs
      · obtain ⟨j, rfl⟩ := Option.isSome_iff_exists.1 (hcf hc)
        simp only [if_true, h.staticTable, Option.getD_some]
  | .table1 .., hf, _, _ => hf.elim
  | .normal .., hf, _, _ => hf.elim
  | .op f a b, hf, hcf, ha => by
    rw [Kernel.idealEval, Kernel.idealEval, idealEval_sameAt h env ρ a hf.1 hcf.1 ha.1, idealEval_sameAt h env ρ b hf.2 hcf.2 ha.2]

theorem idealExec_sameAt [Add R] {D D' : Kernel.Values R} {I : Kernel.Info} {fs : Nat → Nat} {cols q iq : Nat}
    (h : SameAt D D' I fs cols q iq) :
    ∀ (ss : List (Kernel.Stmt R)), (∀ c, Kernel.Stmt.code c ∈ ss → c.All (Kernel.FromFFCx I)) →
      (∀ c, Kernel.Stmt.code c ∈ ss → c.All (ConstantFixed I)) → Allowed I fs cols q ss → ∀ env A,
      Kernel.idealExec D I q iq ss env A = Kernel.idealExec D' I q 0 ss env A
  | [], _, _, _, _, _ => rfl
  | s :: ss, hf, hcf, ha, env, A => by
    have ih := idealExec_sameAt h ss (fun c hc => hf c (List.mem_cons_of_mem _ hc)) (fun c hc => hcf c (List.mem_cons_of_mem _ hc))
      (fun c hc => ha c (List.mem_cons_of_mem _ hc))
    cases s with
    | code c =>
      have hm := List.mem_cons_self (a := Kernel.Stmt.code c) (l := ss)
      rw [Kernel.idealExec, Kernel.idealExec, exec_congr c Kernel.noLoop (Each.mono
        (fun ρ e he env => idealEval_sameAt h env ρ e he.1 he.2.1 he.2.2) c _
        (Each.and c _ (All.each c _ (hf c hm)) (Each.and c _ (All.each c _ (hcf c hm)) (ha c hm))))]
      cases c.exec (Kernel.idealEval D' I q 0) Kernel.noLoop env A with
      | none => rfl
      | some x => exact ih x.1 x.2
    | _ => exact ih env A

theorem idealLoop_nodes [AddCommMonoid R] {D : Kernel.Values R} {D' : UNode K → Kernel.Values R} {I : Kernel.Info} {q : Nat}
    {ss : List (Kernel.Stmt R)} :
    ∀ (nodes : List (UNode K)) (k : Nat) (A : Nat → R),
      (∀ (j : Nat) x, nodes[j]? = some x → ∀ A, Kernel.idealExec D I q (k + j) ss [] A = Kernel.idealExec (D' x) I q 0 ss [] A) →
      Kernel.idealLoop D I q ss nodes.length k A = ((nodes.mapM (nodeAdds D' I q ss)).map List.sum).map (A + ·)
  | [], k, A, _ => by simp [Kernel.idealLoop]
  | x :: nodes, k, A, h => by
    have h0 := h 0 x rfl A
    rw [Nat.add_zero] at h0
    have hs := idealExec_shift A (D' x) I q 0 ss [] 0
    rw [add_zero] at hs
    rw [List.length_cons, Kernel.idealLoop, h0, hs]
    rw [List.mapM_cons]
    cases h1 : Kernel.idealExec (D' x) I q 0 ss [] 0 with
    | none => simp [nodeAdds, h1]
    | some y =>
      simp only [Option.map_some, shift]
      rw [idealLoop_nodes nodes (k + 1) _ fun j z hz A => by
        have := h (j + 1) z (by simpa using hz) A
        rw [show k + 1 + j = k + (j + 1) by omega]; exact this]
      have h2 : nodeAdds D' I q ss x = some y.2 := by rw [nodeAdds, h1, Option.map_some]
      rw [h2]
      cases nodes.mapM (nodeAdds D' I q ss) with
      | none => rfl
      | some l => simp [add_assoc]

theorem ideal_nodes [AddCommMonoid R] {D : Kernel.Values R} {D' : UNode K → Kernel.Values R} {I : Kernel.Info}
    {pre : List (Kernel.Stmt R)} {rules : Nat → List (UNode K)} :
    ∀ (ls : List (Kernel.Loop R)) (A : Nat → R), (∀ l ∈ ls, D.points l.quad = (rules l.quad).length) →
      (∀ l ∈ ls, ∀ (j : Nat) x, (rules l.quad)[j]? = some x → ∀ A,
        Kernel.idealExec D I l.quad j (pre ++ l.body) [] A = Kernel.idealExec (D' x) I l.quad 0 (pre ++ l.body) [] A) →
      Kernel.ideal D I pre ls A = (cellSum D' I pre rules ls).map (A + ·)
  | [], A, _, _ => by simp [Kernel.ideal, cellSum]
  | l :: ls, A, hp, h => by
    rw [Kernel.ideal, hp l (List.mem_cons_self ..), idealLoop_nodes (D' := D') (rules l.quad) 0 A
      (fun j x hx A => by rw [Nat.zero_add]; exact h l (List.mem_cons_self ..) j x hx A)]
    unfold cellSum
    rw [List.mapM_cons]
    cases h1 : (rules l.quad).mapM (nodeAdds D' I l.quad (pre ++ l.body)) with
    | none => simp
    | some x =>
      simp only [Option.map_some]
      rw [ideal_nodes (D' := D') (rules := rules) ls _ (fun l hl => hp l (List.mem_cons_of_mem _ hl))
        (fun l hl => h l (List.mem_cons_of_mem _ hl))]
      unfold cellSum
      cases ls.mapM (fun l => ((rules l.quad).mapM (nodeAdds D' I l.quad (pre ++ l.body))).map List.sum) with
      | none => rfl
      | some y => simp [add_assoc]

end

/-! ### Proofs: packed quadratures -/

section
variable {P K R : Type}

theorem flatten_part (d : Nat) : ∀ (ls : List (List K)) (ns : List Nat) (j : Nat) (x : List K),
    List.Forall₂ (fun n l => l.length = n * d) ns ls → ls[j]? = some x →
      (ls.flatten.drop ((ns.take j).sum * d)).take (ns.getD j 0 * d) = x
  | [], _, _, _, _, h => by simp at h
  | l :: ls, [], _, _, h, _ => by cases h
  | l :: ls, n :: ns, 0, x, h, hx => by
    cases h with
    | cons h1 h2 =>
      obtain rfl : l = x := by simpa using hx
      simp only [List.take_zero, List.sum_nil, Nat.zero_mul, List.drop_zero, List.getD_cons_zero, List.flatten_cons]
      rw [← h1, List.take_left]
  | l :: ls, n :: ns, j + 1, x, h, hx => by
    cases h with
    | cons h1 h2 =>
      have ih := flatten_part d ls ns j x h2 (by simpa using hx)
      rw [List.take_succ_cons, List.sum_cons, List.getD_cons_succ, List.flatten_cons, Nat.add_mul, ← h1, ← List.drop_drop,
        List.drop_left]
      exact ih

theorem flatten_row (d : Nat) : ∀ (l : List (List K)), (∀ x ∈ l, x.length = d) → ∀ (j : Nat) x, l[j]? = some x →
    (l.flatten.drop (j * d)).take d = x
  | [], _, _, _, h => by simp at h
  | y :: l, hd, 0, x, hx => by
    obtain rfl : y = x := by simpa using hx
    rw [Nat.zero_mul, List.drop_zero, List.flatten_cons, ← hd y (List.mem_cons_self ..), List.take_left]
  | y :: l, hd, j + 1, x, hx => by
    have ih := flatten_row d l (fun x hx => hd x (List.mem_cons_of_mem _ hx)) j x (by simpa using hx)
    have hy := hd y (List.mem_cons_self ..)
    have h2 : (y ++ l.flatten).drop ((j + 1) * d) = l.flatten.drop (j * d) := by
      rw [Nat.add_mul, Nat.one_mul, Nat.add_comm, ← List.drop_drop, ← hy, List.drop_left]
    rw [List.flatten_cons, h2]
    exact ih

theorem flatten_entry {d : Nat} {l : List (List K)} (hd : ∀ x ∈ l, x.length = d) {j : Nat} {x : List K} (hx : l[j]? = some x) {k : Nat}
    (hk : k < d) : l.flatten[d * j + k]? = x[k]? := by
  have h := flatten_row d l hd j x hx
  rw [← h, List.getElem?_take, if_pos hk, List.getElem?_drop, Nat.mul_comm]

/-- The nodes of the cells, in the arrays of a quadrature. -/
structure Packed (d : Nat) (bnd : Bool) (blocks : List (List (UNode K))) (x : Pack.Quad K) : Prop where
  gdim : x.gdim = d
  nPts : x.nPts = blocks.map List.length
  points : x.points = (blocks.map fun b => (b.map fun y => y.1).flatten).flatten
  weights : x.weights = (blocks.map fun b => b.map fun y => y.2.1).flatten
  side1 : x.side1 = none
  facet : x.facet = none
  normals : x.normals = if bnd then some (blocks.map fun b => (b.map fun y => y.2.2).flatten).flatten else none
  dims : ∀ b ∈ blocks, ∀ y ∈ b, y.1.length = d ∧ (bnd = true → y.2.2.length = d)

theorem flatten_length {d : Nat} : ∀ {l : List (List K)}, (∀ x ∈ l, x.length = d) → l.flatten.length = l.length * d
  | [], _ => by simp
  | y :: l, h => by
    rw [List.flatten_cons, List.length_append, flatten_length fun x hx => h x (List.mem_cons_of_mem _ hx), h y (List.mem_cons_self ..),
      List.length_cons, Nat.add_mul]
    omega

theorem forall₂_blocks {d : Nat} (f : List (UNode K) → List K) : ∀ (blocks : List (List (UNode K))),
    (∀ b ∈ blocks, (f b).length = b.length * d) → List.Forall₂ (fun n l => l.length = n * d) (blocks.map List.length) (blocks.map f)
  | [], _ => .nil
  | b :: blocks, h => .cons (h b (List.mem_cons_self ..)) (forall₂_blocks f blocks fun b hb => h b (List.mem_cons_of_mem _ hb))

theorem sum_blocks {d : Nat} {ns : List Nat} {ls : List (List K)} (h : List.Forall₂ (fun n l => l.length = n * d) ns ls) :
    ls.flatten.length = d * ns.sum := by
  induction h with
  | nil => simp
  | cons h1 _ ih => rw [List.flatten_cons, List.length_append, ih, h1, List.sum_cons, Nat.mul_add, Nat.mul_comm]

theorem Packed.rows {d : Nat} {bnd : Bool} {blocks : List (List (UNode K))} {x : Pack.Quad K} (h : Packed d bnd blocks x) :
    (∀ b ∈ blocks, ((b.map fun y => y.1).flatten).length = b.length * d) ∧
    (∀ b ∈ blocks, (b.map fun y => y.2.1).length = b.length * 1) ∧
    (bnd = true → ∀ b ∈ blocks, ((b.map fun y => y.2.2).flatten).length = b.length * d) := by
  refine ⟨fun b hb => ?_, fun b hb => by simp, fun hbn b hb => ?_⟩
  · rw [flatten_length (d := d), List.length_map]
    intro l hl
    obtain ⟨y, hy, rfl⟩ := List.mem_map.1 hl
    exact (h.dims b hb y hy).1
  · rw [flatten_length (d := d), List.length_map]
    intro l hl
    obtain ⟨y, hy, rfl⟩ := List.mem_map.1 hl
    exact (h.dims b hb y hy).2 hbn

theorem Packed.ok {d : Nat} {bnd : Bool} {blocks : List (List (UNode K))} {x : Pack.Quad K} (h : Packed d bnd blocks x) :
    x.Ok blocks.length where
  entities := by rw [h.nPts, List.length_map]
  points := by rw [h.points, h.gdim, h.nPts]; exact sum_blocks (forall₂_blocks _ blocks h.rows.1)
  side1 := by rw [h.side1]; simp
  facet := by rw [h.facet]; simp
  weights := by
    rw [h.weights, h.nPts]
    have := sum_blocks (forall₂_blocks _ blocks h.rows.2.1)
    rw [this, Nat.one_mul]
  normals := by
    intro l hl
    rw [h.normals] at hl
    split at hl
    · next hb =>
      obtain rfl := Option.some.inj hl
      rw [h.gdim, h.nPts]
      exact sum_blocks (forall₂_blocks _ blocks (h.rows.2.2 hb))
    · simp at hl

theorem Packed.entity {d : Nat} {bnd : Bool} {blocks : List (List (UNode K))} {x : Pack.Quad K} (h : Packed d bnd blocks x) {j : Nat}
    {b : List (UNode K)} (hb : blocks[j]? = some b) :
    x.entity j = ⟨b.length, (b.map fun y => y.1).flatten, none, none, b.map fun y => y.2.1,
      if bnd then some (b.map fun y => y.2.2).flatten else none⟩ := by
  have hpart : ∀ (f : List (UNode K) → List K) (d : Nat), (∀ b ∈ blocks, (f b).length = b.length * d) →
      x.part j d (blocks.map f).flatten = f b := by
    intro f d hf
    unfold Pack.Quad.part
    rw [h.nPts]
    exact flatten_part d _ _ j _ (forall₂_blocks f blocks hf) (by rw [List.getElem?_map, hb]; rfl)
  unfold Pack.Quad.entity
  rw [h.side1, h.facet, h.points, h.weights, h.gdim, hpart _ d h.rows.1, hpart _ 1 h.rows.2.1, h.normals]
  have hn : x.nPts.getD j 0 = b.length := by
    rw [h.nPts, List.getD_eq_getElem?_getD, List.getElem?_map, hb]; rfl
  rw [hn]
  rcases hbn : bnd with _ | _
  · rfl
  · simp only [if_true, Option.map_some, Option.map_none]
    rw [hpart _ d (h.rows.2.2 hbn)]

end

/-! ### Proofs: the data of an entity -/

section
variable {P K R : Type}

theorem coefficient_eq (S : Scalars K R) (i : Pack.Input K) (hint : i.interior = false) {e : Nat} {row : List K} (hr : i.old[e]? = some row)
    (k : Nat) : coefficient S i e k = coefOf S i.types.ratio row k := by
  have : i.row e = e := by simp [Input.row, hint]
  rw [coefficient, this, hr, Option.bind_some, coefOf]

theorem sameAt_exact [AddCommMonoid R] (S : Scalars K R) {B : Tables.Basix P K} {I : Kernel.Info} {tables : List (List (Tables.Table P))}
    {i : Pack.Input K} (L : Linked B I false tables i) (hint : I.interior = false)
    (U : Kernel.Values R) {e j : Nat} {row : List K} (hr : i.old[e]? = some row) (hcols : row.length = i.cols * i.types.ratio)
    {m q : Nat} (hm : I.quads[m]? = some q) {qd : Pack.Quad K} (hqd : i.quads[m]? = some qd) {blocks : List (List (UNode K))}
    (hp : Packed I.tdim (I.boundary q) blocks qd) {b : List (UNode K)} (hb : blocks[j]? = some b) :
    (exact S U B I false tables i e j).points q = b.length ∧
    ∀ (iq : Nat) x, b[iq]? = some x →
      SameAt (exact S U B I false tables i e j) (atNode S B tables (coefOf S i.types.ratio row) U x) I (count tables) i.cols q iq := by
  have hint' : i.interior = false := by rw [L.interior, hint]
  have hlen : i.quads.length = I.quads.length := by
    have := congrArg List.length L.shapes
    simpa using this
  have hname : named I i q = some qd := by
    rw [named, ← ofQuad_idxOf _ _ q hlen]
    exact ofQuad_get I.quads i.quads m q qd L.names hm hqd
  have hent := hp.entity hb
  have hbm : b ∈ blocks := List.mem_of_getElem? hb
  refine ⟨by simp only [exact, hname, Option.map_some, Option.getD_some, hent], fun iq x hx => ⟨rfl, rfl, ?_, ?_, ?_, ?_, ?_⟩⟩
  · intro a k ha
    simp [exact, atNode, ha]
  · intro k hk
    have hk1 := Nat.mul_le_mul_right i.types.ratio (show k + 1 ≤ i.cols from hk)
    have : coefOf S i.types.ratio row k = some (S.scalar ((row.drop (k * i.types.ratio)).take i.types.ratio)) := by
      rw [coefOf, if_pos (by rw [hcols]; exact hk1)]
    simp only [exact, atNode, if_true, coefficient_eq S i hint' hr, this, Option.getD_some]
  · simp only [exact, atNode, hname, Option.bind_some, hent, List.getElem?_map, hx, Option.map_some, Option.getD_some]
  · intro hbn k hk
    have hd : ∀ l ∈ b.map (fun y => y.2.2), l.length = I.tdim := by
      intro l hl
      obtain ⟨y, hy, rfl⟩ := List.mem_map.1 hl
      exact (hp.dims b hbm y hy).2 hbn
    have hx2 : (b.map fun y => y.2.2)[iq]? = some x.2.2 := by rw [List.getElem?_map, hx]; rfl
    have hkl : k < x.2.2.length := by rw [hd _ (List.mem_of_getElem? hx2)]; exact hk
    simp only [exact, atNode, hname, Option.bind_some, hent, hbn, if_true, flatten_entry hd hx2 hk, List.getElem?_eq_getElem hkl,
      Option.map_some, Option.getD_some]
  · intro t s d ht hc hqt hd hs
    obtain ⟨y, hy, rfl⟩ := L.all t ht
    have hs0 : s = none := by
      rcases s with _ | s
      · rfl
      · have := hs rfl
        simp [Kernel.Info.two, hint] at this
    subst hs0
    have hto : (tables.flatten.find? fun z => z.name == y.name) = some y := find_name L.distinct hy
    obtain ⟨ts', hts', hy'⟩ := List.mem_flatten.1 hy
    obtain ⟨m', hm'⟩ := List.mem_iff_getElem?.1 hts'
    have hm'l : m' < I.quads.length := by rw [← L.length]; exact (List.getElem?_eq_some_iff.1 hm').1
    obtain ⟨-, k2, -⟩ := L.known m' _ ts' (List.getElem?_eq_getElem hm'l) hm' y hy'
    have hcy : y.const = false := by rw [← k2]; exact hc
    obtain ⟨core, v, c1, -⟩ := (L.wellFormed y hy hcy).comp
    have hpt : pointOf false I.tdim (qd.entity j) y.elemDim 0 iq = x.1 := by
      simp only [pointOf, Nat.zero_ne_one, if_false, Bool.false_and, Bool.false_eq_true, hent]
      refine flatten_row I.tdim _ ?_ iq x.1 (by rw [List.getElem?_map, hx]; rfl)
      intro l hl
      obtain ⟨z, hz, rfl⟩ := List.mem_map.1 hl
      exact (hp.dims b hbm z hz).1
    simp only [exact, atNode, hto, hqt, hname, c1, Option.getD_none, hpt]

end

/-! ### Proofs: the quadratures of the cells -/

section
variable {K : Type} [Field K] [LinearOrder K] [IsStrictOrderedRing K]

theorem cellDomain_length {g : Grid K} (hv : g.Valid) {c : Nat} {dom : Box K} (h : g.cellDomain c = some dom) : dom.length = g.length := by
  have hc : c < g.numCells := by
    by_contra hc
    unfold Grid.cellDomain unflat at h
    rw [if_neg (by simpa [Grid.numCells] using hc)] at h
    simp at h
  obtain ⟨box, h2, h3, -⟩ := Grid.C07_cell_domain_inside g hv c hc
  rw [h] at h2
  rw [Option.some.inj h2, h3]

theorem rule_dims {q : QDomain K} (hv : q.grid.Valid) (hpd : PointDims q.oracle q.grid) {s : QuadSpec} {v : Nat} {b : List (UNode K)} (h : IsRule q s v b) :
    ∀ y ∈ b, y.1.length = q.grid.length ∧ (s.boundary = true → y.2.2.length = q.grid.length) := by
  unfold IsRule at h
  intro y hy
  split at h
  · next hb =>
    rcases h with ⟨-, rfl⟩ | ⟨-, inner, facets, rfl, hin, hl, hfac⟩
    · simp at hy
    · have hnil : facets.flatten = [] := by
        rw [List.flatten_eq_nil_iff]
        intro l hl'
        obtain ⟨k, hk, rfl⟩ := List.mem_iff_getElem.1 hl'
        have := hfac k hk
        simpa using this
      rw [hnil, List.append_nil] at hy
      rcases hin with ⟨-, rfl⟩ | ⟨-, dom, hd, rfl⟩
      · simp at hy
      · have hy' := (List.mem_filter.1 hy).1
        have hdl := cellDomain_length hv hd
        unfold cutSurfaceRule at hy'
        split at hy'
        · obtain ⟨x, hx, rfl⟩ := List.mem_map.1 hy'
          have h1 := hpd.surfBzr v dom _ hd x hx
          have h2 := hpd.bzrGrad v dom x.1 hd h1
          exact ⟨by simpa using h1, fun _ => by simpa using h2⟩
        · obtain ⟨x, hx, rfl⟩ := List.mem_map.1 hy'
          have h1 := hpd.surfGen v dom _ hd x hx
          have h2 := hpd.grad x.1 h1
          refine ⟨by simp [Box.scaleTo01, h1, hdl], fun _ => by simp [Box.lengths, h2, hdl]⟩
  · next hb =>
    obtain ⟨b, h, rfl⟩ := h
    obtain ⟨x, hx, rfl⟩ := List.mem_map.1 hy
    refine ⟨?_, fun h => absurd h hb⟩
    show x.1.length = _
    rcases h with ⟨-, dom, hd, rfl⟩ | ⟨-, -, rfl⟩ | ⟨-, -, rfl⟩
    · have hdl := cellDomain_length hv hd
      unfold cutCellRule at hx
      split at hx
      · obtain ⟨z, hz, rfl⟩ := List.mem_map.1 (List.mem_filter.1 hx).1
        simpa using hpd.volBzr v dom _ hd z hz
      · obtain ⟨z, hz, rfl⟩ := List.mem_map.1 hx
        simp [Box.scaleTo01, hpd.volGen v dom _ hd z hz, hdl]
    · have := (tensorRule_mem _ x hx).length_eq
      rw [List.length_replicate] at this
      exact this.symm
    · simp at hx

theorem execAll_snoc {debug : Bool} {t : QuadType K} {call : QuadCall K} : ∀ {history : List (QuadCall K)} {ch ch1 ch2 : Cache K} {r : QuadResult K},
    QuadCall.execAll debug t history ch = some ch1 → call.exec debug t ch1 = some (ch2, r) →
      QuadCall.execAll debug t (history ++ [call]) ch = some ch2
  | [], ch, ch1, ch2, r, h1, h2 => by
    obtain rfl := Option.some.inj h1
    simp [QuadCall.execAll, h2]
  | c :: history, ch, ch1, ch2, r, h1, h2 => by
    rw [QuadCall.execAll] at h1
    obtain ⟨x, h3, h4⟩ := Option.bind_eq_some_iff.1 h1
    rw [List.cons_append, QuadCall.execAll, h3, Option.bind_some]
    exact execAll_snoc h4 h2

theorem ints {blocks : List (List (UNode K))} {nPts : List Int} (h : nPts = blocks.map fun b => (b.length : Int)) :
    nPts.map Int.toNat = blocks.map List.length := by
  subst h
  rw [List.map_map]
  rfl

/-- A quadrature is created, with the nodes of the rules of the cells. -/
theorem createQuad_spec (q : QDomain K) {nRows : Nat} (hq : q.Ok nRows) (hpd : PointDims q.oracle q.grid) (cells : List Nat)
    (hc : ∀ l ∈ cells, l < q.u.mesh.cellIndex.length) (s : QuadSpec) (hn : s.degree + 1 ≤ 2 * q.rules.nMax) (ch : Cache K)
    (hr : Reached q ch) :
    ∃ ch' x blocks, createQuad q cells s ch = some (ch', x) ∧ Reached q ch' ∧
      List.Forall₂ (fun l b => ∃ v, q.u.mesh.OrigCell l v ∧ IsRule q s v b) cells blocks ∧ Packed q.grid.length s.boundary blocks x := by
  obtain ⟨history, hd, hh⟩ := hr
  rcases hb : s.boundary with _ | _
  · obtain ⟨⟨ch', r⟩, hx⟩ := C76_cells_total q hq history hd ch hh s.degree hn cells hc
    obtain ⟨-, -, -, -, blocks, h1, h2, h3, h4⟩ := C76_cells q hq.dim history hd ch ch' hh s.degree cells r hx
    have hrule : List.Forall₂ (fun l b => ∃ v, q.u.mesh.OrigCell l v ∧ IsRule q s v b) cells (blocks.map fun b => b.map fun x => (x.1, x.2, [])) := by
      rw [List.forall₂_map_right_iff]
      refine h1.imp fun l b => ?_
      rintro ⟨v, a1, a2⟩
      refine ⟨v, a1, ?_⟩
      rw [IsRule, hb]
      exact ⟨b, a2, rfl⟩
    refine ⟨ch', ofCells q.grid.length r, blocks.map fun b => b.map fun x => (x.1, x.2, []), ?_, ?_, hrule, ?_⟩
    · rw [createQuad, hb, hx]
      rfl
    · have hx' := hx
      unfold createCells cppCells at hx'
      rw [Option.bind_eq_some_iff] at hx'
      obtain ⟨orig, o1, o2⟩ := hx'
      rw [Option.map_eq_some_iff] at o2
      obtain ⟨⟨ch1, y⟩, o3, o4⟩ := o2
      rw [read_new, Option.bind_some] at o3
      cases o4
      refine ⟨history ++ [.cells q.oracle q.grid q.u.dom orig (UDomain.numGaussPoints s.degree)], ?_, execAll_snoc hh (r := .cells y) ?_⟩
      · intro c hc
        rcases List.mem_append.1 hc with hc | hc
        · exact hd c hc
        · obtain rfl := List.mem_singleton.1 hc
          exact hq.dim
      · rw [QuadCall.exec, o3]
        rfl
    · refine ⟨rfl, ints (by rw [h2, List.map_map]; simp [Function.comp_def]), ?_, ?_, rfl, rfl, rfl, ?_⟩
      · show r.points.flatten = _
        rw [h3, List.map_map]
        simp only [Function.comp_def, List.map_map, List.flatten_flatten]
      · show r.weights = _
        rw [h4, List.map_map]
        simp [Function.comp_def]
      · intro b hbm y hy
        obtain ⟨k, hk, rfl⟩ := List.mem_iff_getElem.1 hbm
        obtain ⟨v, -, a2⟩ := hrule.get (by rw [hrule.length_eq]; exact hk) hk
        have := rule_dims hq.valid hpd a2 y hy
        rw [hb] at this
        exact this
  · obtain ⟨⟨ch', r⟩, hx⟩ := C76_unfitted_total q hq history hd ch hh s.degree hn cells hc
    obtain ⟨-, -, -, -, -, blocks, h1, h2, h3, h4, h5⟩ := C76_unfitted q hq.dim history hd ch ch' hh s.degree cells r hx
    have hrule : List.Forall₂ (fun l b => ∃ v, q.u.mesh.OrigCell l v ∧ IsRule q s v b) cells blocks := by
      refine h1.imp fun l b => ?_
      rintro ⟨v, a1, a2⟩
      refine ⟨v, a1, ?_⟩
      rw [IsRule, hb]
      exact a2
    refine ⟨ch', ofUnf q.grid.length r, blocks, ?_, ?_, hrule, ?_⟩
    · rw [createQuad, hb, hx]
      rfl
    · have hx' := hx
      unfold createUnf cppUnf at hx'
      rw [Option.bind_eq_some_iff] at hx'
      obtain ⟨orig, o1, o2⟩ := hx'
      rw [Option.map_eq_some_iff] at o2
      obtain ⟨⟨ch1, y⟩, o3, o4⟩ := o2
      rw [read_new, Option.bind_some] at o3
      cases o4
      refine ⟨history ++ [.unfitted q.oracle q.grid q.u.dom orig (UDomain.numGaussPoints s.degree) false false], ?_,
        execAll_snoc hh (r := .unfitted y) ?_⟩
      · intro c hc
        rcases List.mem_append.1 hc with hc | hc
        · exact hd c hc
        · obtain rfl := List.mem_singleton.1 hc
          exact hq.dim
      · rw [QuadCall.exec, o3]
        rfl
    · refine ⟨rfl, ints h2, ?_, h4, rfl, rfl, ?_, ?_⟩
      · show r.points.flatten = _
        rw [h3, List.flatten_flatten, List.map_map]
        rfl
      · show some r.normals.flatten = _
        rw [h5, List.flatten_flatten, List.map_map]
        rfl
      · intro b hbm y hy
        obtain ⟨k, hk, rfl⟩ := List.mem_iff_getElem.1 hbm
        obtain ⟨v, -, a2⟩ := hrule.get (by rw [hrule.length_eq]; exact hk) hk
        have := rule_dims hq.valid hpd a2 y hy
        rw [hb] at this
        exact this

theorem createQuads_spec (q : QDomain K) {nRows : Nat} (hq : q.Ok nRows) (hpd : PointDims q.oracle q.grid) (cells : List Nat)
    (hc : ∀ l ∈ cells, l < q.u.mesh.cellIndex.length) : ∀ (specs : List QuadSpec), (∀ s ∈ specs, s.degree + 1 ≤ 2 * q.rules.nMax) →
      ∀ ch, Reached q ch → ∃ ch' xs, createQuads q cells specs ch = some (ch', xs) ∧ Reached q ch' ∧
        List.Forall₂ (fun s x => ∃ blocks, List.Forall₂ (fun l b => ∃ v, q.u.mesh.OrigCell l v ∧ IsRule q s v b) cells blocks ∧
          Packed q.grid.length s.boundary blocks x) specs xs
  | [], _, ch, hr => ⟨ch, [], rfl, hr, .nil⟩
  | s :: specs, hn, ch, hr => by
    obtain ⟨ch1, x, blocks, h1, h2, h3, h4⟩ := createQuad_spec q hq hpd cells hc s (hn s (List.mem_cons_self ..)) ch hr
    obtain ⟨ch2, xs, k1, k2, k3⟩ := createQuads_spec q hq hpd cells hc specs (fun s hs => hn s (List.mem_cons_of_mem _ hs)) ch1 h2
    refine ⟨ch2, x :: xs, ?_, k2, .cons ⟨blocks, h3, h4⟩ k3⟩
    rw [createQuads, h1, Option.bind_some, k1]
    rfl

end

/-! ### Proofs: the input of the packer -/

section
variable {P K : Type}

theorem reachable_execAll [DecidableEq P] {B : Tables.Basix P K} (n : Nat) (pts : Tables.Pts → List (List K)) :
    ∀ (ss : List (Tables.Stmt P)) {st st' : Tables.State P K}, Tables.Reachable B st → Tables.execAll B n pts st ss = some st' →
      Tables.Reachable B st'
  | [], st, st', h, he => by obtain rfl := Option.some.inj he; exact h
  | s :: ss, st, st', h, he => by
    rw [Tables.execAll] at he
    obtain ⟨st1, h1, h2⟩ := Option.bind_eq_some_iff.1 he
    exact reachable_execAll n pts ss (.exec n pts s h h1) h2

theorem reachable_prologue [DecidableEq P] {B : Tables.Basix P K} {interior mixed : Bool} {tdim : Nat} :
    ∀ (qs : List (Tables.Quad P K)) {st st' : Tables.State P K}, Tables.Reachable B st →
      Tables.prologue B interior mixed tdim st qs = some st' → Tables.Reachable B st'
  | [], st, st', h, he => by obtain rfl := Option.some.inj he; exact h
  | q :: qs, st, st', h, he => by
    simp only [Tables.prologue, Option.bind_eq_bind] at he
    obtain ⟨code, -, he⟩ := Option.bind_eq_some_iff.1 he
    obtain ⟨st1, h1, h2⟩ := Option.bind_eq_some_iff.1 he
    exact reachable_prologue qs (reachable_execAll _ _ code h h1) h2

theorem local_ofNat (l : List Nat) : local_ (l.map Int.ofNat) = l := by
  unfold local_
  rw [List.filterMap_map]
  induction l with
  | nil => rfl
  | cons a l ih =>
    rw [List.filterMap_cons]
    have h : ¬ ((a : Int) < 0) := by omega
    simp only [Function.comp_apply, Int.ofNat_eq_natCast, h, if_false, Int.toNat_natCast]
    exact congrArg (a :: ·) ih

end

section
variable {K : Type} [Field K] [LinearOrder K] [IsStrictOrderedRing K]

/-- The rule of a cell is unique. -/
theorem isRule_unique {q : QDomain K} {s : QuadSpec} {v : Nat} {a b : List (UNode K)} (ha : IsRule q s v a) (hb : IsRule q s v b) : a = b := by
  unfold IsRule at ha hb
  split at ha
  · next hs =>
    rw [if_pos hs] at hb
    have hnil : ∀ {facets : List (List (UNode K))}, (∀ f (hf : f < facets.length),
        if False then ∃ r, IsFacetRule q.rules q.oracle q.grid q.u.dom (UDomain.numGaussPoints s.degree) v f false true r ∧
          facets[f] = r.map fun x => (x.1.insertIdx (f / 2) (if f % 2 = 0 then 0 else 1), x.2,
            (List.replicate q.grid.length (0 : K)).set (f / 2) (if f % 2 = 0 then -1 else 1))
        else facets[f] = []) → facets.flatten = [] := by
      intro facets hf
      rw [List.flatten_eq_nil_iff]
      intro l hl
      obtain ⟨k, hk, rfl⟩ := List.mem_iff_getElem.1 hl
      simpa using hf k hk
    rcases ha with ⟨h1, rfl⟩ | ⟨h1, inner, facets, rfl, hin, -, hfac⟩
    · rcases hb with ⟨-, rfl⟩ | ⟨h2, -⟩
      · rfl
      · rw [h1] at h2; simp at h2
    · rcases hb with ⟨h2, -⟩ | ⟨-, inner', facets', rfl, hin', -, hfac'⟩
      · rw [h1] at h2; simp at h2
      · rw [hnil (by simpa using hfac), hnil (by simpa using hfac'), List.append_nil, List.append_nil]
        rcases hin with ⟨g1, rfl⟩ | ⟨g1, dom, hd, rfl⟩
        · rcases hin' with ⟨-, rfl⟩ | ⟨g2, -⟩
          · rfl
          · rw [g1] at g2; simp at g2
        · rcases hin' with ⟨g2, -⟩ | ⟨-, dom', hd', rfl⟩
          · rw [g1] at g2; simp at g2
          · rw [hd] at hd'
            obtain rfl := Option.some.inj hd'
            rfl
  · next hs =>
    rw [if_neg hs] at hb
    obtain ⟨a', ha, rfl⟩ := ha
    obtain ⟨b', hb, rfl⟩ := hb
    congr 1
    rcases ha with ⟨h1, dom, hd, rfl⟩ | ⟨h1, h2, rfl⟩ | ⟨h1, h2, rfl⟩ <;>
      rcases hb with ⟨g1, dom', hd', rfl⟩ | ⟨g1, g2, rfl⟩ | ⟨g1, g2, rfl⟩
    · rw [hd] at hd'
      obtain rfl := Option.some.inj hd'
      rfl
    · rw [h1] at g1; simp at g1
    · rw [h1] at g1; simp at g1
    · rw [h1] at g1; simp at g1
    · rfl
    · rw [h2] at g2; simp at g2
    · rw [h1] at g1; simp at g1
    · rw [h2] at g2; simp at g2
    · rfl

/-- The input of the packer: its custom entities are the cut cells of the domain, with their rules. -/
theorem cellInput_spec {argsort : List Int → List Nat} (hs : ∀ l, IsArgsort l (argsort l)) (q : QDomain K) {nRows : Nat} (hq : q.Ok nRows)
    (hu : q.u.Ok nRows) (hpd : PointDims q.oracle q.grid) (types : Types) (cols : Nat) (old : List (List K)) (domain : List Nat)
    (hdom : ∀ c ∈ domain, c < q.u.numLocal) (specs : List QuadSpec) (hn : ∀ s ∈ specs, s.degree + 1 ≤ 2 * q.rules.nMax)
    (s : UDomain.Caches) (hk : UDomain.CellCachesOk argsort q.u s) (ch : Cache K) (hr : Reached q ch) :
    ∃ s' ch' custom empty quads, cellInput argsort q types cols old domain specs s ch =
        some ((s', ch'), ⟨types, domain.length, false, cols, old, custom, empty, quads⟩) ∧ UDomain.CellCachesOk argsort q.u s' ∧ Reached q ch' ∧
      custom.Nodup ∧
      (∀ e, e ∈ custom ↔ ∃ c v, domain[e]? = some c ∧ q.u.mesh.OrigCell c v ∧ HasStatus q.u.dom.n q.u.dom.tree v .cut) ∧
      (∀ e, e ∈ empty ↔ ∃ c v, domain[e]? = some c ∧ q.u.mesh.OrigCell c v ∧ HasStatus q.u.dom.n q.u.dom.tree v .empty) ∧
      List.Forall₂ (fun s x => ∃ blocks, List.Forall₂ (fun l b => ∃ v, q.u.mesh.OrigCell l v ∧ IsRule q s v b)
        (custom.map fun e => domain.getD e 0) blocks ∧ Packed q.grid.length s.boundary blocks x) specs quads := by
  obtain ⟨r1, s1, a1, a2, -, a4⟩ := UDomain.C66_cell_queries hs hu .cut (by decide) s hk
  obtain ⟨r2, s2, b1, b2, -, b4⟩ := UDomain.C66_cell_queries hs hu .empty (by decide) s1 a2
  have hiff : ∀ (r : List Nat) (st : Status), (∀ c, c ∈ r ↔ c < q.u.numLocal ∧ ∃ v, q.u.mesh.OrigCell c v ∧
      HasStatus q.u.dom.n q.u.dom.tree v st) → ∀ e, e ∈ commonCells domain r ↔ ∃ c v, domain[e]? = some c ∧ q.u.mesh.OrigCell c v ∧
      HasStatus q.u.dom.n q.u.dom.tree v st := by
    intro r st h e
    rw [mem_commonCells]
    constructor
    · rintro ⟨c, h1, h2⟩
      obtain ⟨-, v, h3⟩ := (h c).1 h2
      exact ⟨c, v, h1, h3⟩
    · rintro ⟨c, v, h1, h2⟩
      exact ⟨c, h1, (h c).2 ⟨hdom c (List.mem_of_getElem? h1), v, h2⟩⟩
  have hcells : ∀ l ∈ (commonCells domain r1).map (fun e => domain.getD e 0), l < q.u.mesh.cellIndex.length := by
    intro l hl
    obtain ⟨e, he, rfl⟩ := List.mem_map.1 hl
    obtain ⟨c, v, h1, -⟩ := (hiff r1 .cut a4 e).1 he
    rw [List.getD_eq_getElem?_getD, h1, Option.getD_some]
    exact Nat.lt_of_lt_of_le (hdom c (List.mem_of_getElem? h1)) hu.numLocal
  obtain ⟨ch', xs, c1, c2, c3⟩ := createQuads_spec q hq hpd _ hcells specs hn ch hr
  refine ⟨s2, ch', commonCells domain r1, commonCells domain r2, xs, ?_, b2, c2, nodup_commonCells _ _, hiff r1 .cut a4, hiff r2 .empty b4, c3⟩
  unfold cellInput
  rw [a1, Option.bind_some]
  simp only [local_ofNat]
  rw [c1, Option.bind_some, b1, Option.map_some, local_ofNat]

end

/-! ### A call, and all of them -/

section
variable {P K R : Type} [Field K] [AddCommMonoid R] {B : Tables.Basix P K} {I : Kernel.Info} {tables : List (List (Tables.Table P))}
  {first : Kernel.Loop R} {rest : List (Kernel.Loop R)}

/-- The kernel is one of FFCx. -/
structure KernelOk (I : Kernel.Info) (tables : List (List (Tables.Table P))) (first : Kernel.Loop R) (rest : List (Kernel.Loop R)) (cols : Nat) :
    Prop where
  shape : ∃ setup ws ts more, Kernel.Shape I first rest setup ws ts more
  fixed : ∀ l ∈ first :: rest, ∃ n, l.bound = .fixed n
  own : ∀ l ∈ first :: rest, Kernel.Local l.body
  allowed : ∀ l ∈ first :: rest, Allowed I (count tables) cols l.quad (first.pre ++ l.body)
  constant : ∀ l ∈ first :: rest, ∀ c, Kernel.Stmt.code c ∈ first.pre ++ l.body → c.All (ConstantFixed I)

theorem call_adds [DecidableEq P] (toNat : K → Nat) (hn : ∀ n : Nat, toNat (n : K) = n) (S : Scalars K R) {i : Pack.Input K} (hi : i.Ok)
    (L : Linked B I false tables i) (hint : i.interior = false) (G : KernelOk I tables first rest i.cols) {mem : List (Slot K)}
    (h2 : pack i = some mem) {e : Nat} {row : List K} (hel : e < i.n) (hrow : i.old[e]? = some row) {st : Tables.State P K}
    (hst : Tables.Reachable B st) (U : Kernel.Values R) {δ : Nat → R}
    (hcut : ∀ j : Nat, i.custom[j]? = some e → ∃ rules : Nat → List (UNode K),
      (∀ (m n : Nat), I.quads[m]? = some n → ∃ qd blocks, i.quads[m]? = some qd ∧ Packed I.tdim (I.boundary n) blocks qd ∧
        blocks[j]? = some (rules n)) ∧
      cellSum (atNode S B tables (coefOf S i.types.ratio row) U) I first.pre rules (first :: rest) = some δ)
    (hemp : e ∈ i.empty → δ = 0)
    (hstd : e ∉ i.custom → e ∉ i.empty →
      Kernel.run { U with input := fun a k => if a = 0 then (coefOf S i.types.ratio row k).getD (U.input 0 k) else U.input a k } I.tdim
        ((first :: rest).map (Kernel.skip I)) .empty [] 0 = some δ) (A : Nat → R) :
    ∃ st', (⟨toNat, S, B, I, false, tables, first :: rest, i.types, i.cols, mem⟩ : Job P K R).call (i.rowPos e) st U A = some (st', A + δ) ∧
      Tables.Reachable B st' := by
  obtain ⟨setup, ws, ts, more, hshape⟩ := G.shape
  obtain ⟨mem', b1, b2⟩ := C87_entity toNat hn S B I false tables i hi L hint first rest hshape G.allowed
  rw [h2] at b1
  obtain rfl := Option.some.inj b1
  obtain ⟨mem', b1, -, b3⟩ := C67_kernel toNat hn i hi hint
  rw [h2] at b1
  obtain rfl := Option.some.inj b1
  obtain ⟨c1, c2, c3⟩ := b2 e hel st hst U A
  obtain ⟨k1, k2, k3⟩ := b3 e hel
  unfold Job.call after
  simp only
  rw [L.shapes_eq]
  have hI : I.interior = false := by rw [← L.interior]; exact hint
  by_cases hc : e ∈ i.custom
  · obtain ⟨j, hj⟩ := List.mem_iff_getElem?.1 hc
    obtain ⟨rules, r1, r2⟩ := hcut j hj
    have hjl := (List.getElem?_eq_some_iff.1 hj).1
    have hrowl : row.length = i.cols * i.types.ratio := hi.old_cols row (List.mem_of_getElem? hrow)
    -- the quadratures of the loops
    have hq : ∀ l ∈ first :: rest, (exact S U B I false tables i e j).points l.quad = (rules l.quad).length ∧
        ∀ (k : Nat) x, (rules l.quad)[k]? = some x → SameAt (exact S U B I false tables i e j)
          (atNode S B tables (coefOf S i.types.ratio row) U x) I (count tables) i.cols l.quad k := by
      intro l hl
      obtain ⟨m, hm⟩ := List.mem_iff_getElem?.1 (hshape.quads l hl)
      obtain ⟨qd, blocks, d1, d2, d3⟩ := r1 m l.quad hm
      exact sameAt_exact S L hI U hrow hrowl hm d1 d2 d3
    have hres := c1 j hj
    rw [ideal_nodes (D' := atNode S B tables (coefOf S i.types.ratio row) U) (rules := rules) (first :: rest) A (fun l hl => (hq l hl).1)
      (fun l hl k x hx A => idealExec_sameAt ((hq l hl).2 k x hx) _ (fun c hc => ?_) (G.constant l hl) (G.allowed l hl) [] A), r2,
      Option.map_some] at hres
    · obtain ⟨st', p1, -⟩ := tables_ok L hi hjl hst
      refine ⟨st', ?_, reachable_prologue _ hst p1⟩
      rw [hres, Option.bind_some, show kernel toNat i.types i.cols (i.quads.map Pack.Quad.shape) mem (i.rowPos e) = _ from k1 j hj, Option.bind_some]
      simp only [p1, Option.map_some]
    · rcases List.mem_append.1 hc with hc | hc
      · rw [hshape.pre] at hc
        simp only [List.mem_append, List.mem_cons, List.mem_map, reduceCtorEq, and_false, exists_const, or_self, false_or] at hc
        rcases hc with hc | hc
        · exact (hshape.setup _ hc).1
        · exact (hshape.more _ hc).1
      · exact hshape.body l hl _ hc
  · by_cases hem : e ∈ i.empty
    · refine ⟨st, ?_, hst⟩
      rw [c2 hem, Option.bind_some, show kernel toNat i.types i.cols (i.quads.map Pack.Quad.shape) mem (i.rowPos e) = _ from k2 hem,
        Option.bind_some, hemp hem, add_zero]
      rfl
    · have h3 := hstd hc hem
      have hsd : (standard S U i e) = { U with input := fun a k => if a = 0 then (coefOf S i.types.ratio row k).getD (U.input 0 k) else U.input a k } := by
        unfold standard
        congr 1
        funext a k
        rw [coefficient_eq S i hint hrow]
      have h4 := run_shift A { U with input := fun a k => if a = 0 then (coefOf S i.types.ratio row k).getD (U.input 0 k) else U.input a k } I.tdim
        ((first :: rest).map (Kernel.skip I)) .empty [] 0
      rw [add_zero, h3, Option.map_some, ← hsd] at h4
      refine ⟨st, ?_, hst⟩
      rw [c3 hc hem G.fixed G.own _ h4, Option.bind_some,
        show kernel toNat i.types i.cols (i.quads.map Pack.Quad.shape) mem (i.rowPos e) = _ from k3 hc hem, Option.bind_some]
      rfl

omit [Field K] in
theorem scalar_sum [DecidableEq P] {J : Job P K R} {pos : Nat → Nat} {U : Nat → Kernel.Values R} {δ : Nat → Nat → R} {n : Nat}
    (h : ∀ e < n, ∀ (st : Tables.State P K), Tables.Reachable B st → ∀ A, ∃ st', J.call (pos e) st (U e) A = some (st', A + δ e) ∧
      Tables.Reachable B st') {st : Tables.State P K} (hst : Tables.Reachable B st) (A : Nat → R) :
    ∃ st', assembleScalar J ((List.range n).map fun e => (pos e, U e)) st A = some (st', A + ((List.range n).map δ).sum) ∧
      Tables.Reachable B st' := by
  have key : ∀ (es : List Nat), (∀ e ∈ es, e < n) → ∀ (st : Tables.State P K), Tables.Reachable B st → ∀ A : Nat → R,
      ∃ st', assembleScalar J (es.map fun e => (pos e, U e)) st A = some (st', A + (es.map δ).sum) ∧ Tables.Reachable B st' := by
    intro es
    induction es with
    | nil => intro _ st hst A; exact ⟨st, by rw [List.map_nil, List.map_nil, List.sum_nil, add_zero]; rfl, hst⟩
    | cons e es ih =>
      intro hes st hst A
      obtain ⟨st1, b1, b2⟩ := h e (hes e List.mem_cons_self) st hst A
      obtain ⟨st2, c1, c2⟩ := ih (fun e he => hes e (List.mem_cons_of_mem _ he)) st1 b2 (A + δ e)
      refine ⟨st2, ?_, c2⟩
      rw [List.map_cons, List.map_cons, List.sum_cons, assembleScalar, b1, Option.bind_some, c1, add_assoc]
  exact key _ (fun e he => List.mem_range.1 he) st hst A

theorem scatter_eq (A : Nat → R) : ∀ (dofs : List Nat) (k : Nat) (b : Nat → R) (d : Nat),
    scatter dofs k A b d = b d + (((dofs.zipIdx k).filter fun p => p.1 == d).map fun p => A p.2).sum
  | [], k, b, d => by simp [scatter]
  | x :: dofs, k, b, d => by
    rw [scatter, scatter_eq A dofs (k + 1), List.zipIdx_cons, List.filter_cons]
    by_cases h : x = d
    · subst h
      simp [add_assoc]
    · rw [Function.update_of_ne (fun h' => h h'.symm)]
      simp [h]

omit [Field K] in
theorem vector_sum [DecidableEq P] {J : Job P K R} {pos : Nat → Nat} {U : Nat → Kernel.Values R} {dofs : Nat → List Nat} {δ : Nat → Nat → R}
    {n : Nat} (h : ∀ e < n, ∀ (st : Tables.State P K), Tables.Reachable B st → ∀ A, ∃ st', J.call (pos e) st (U e) A = some (st', A + δ e) ∧
      Tables.Reachable B st') {st : Tables.State P K} (hst : Tables.Reachable B st) (b : Nat → R) :
    ∃ st' b', assembleVector J ((List.range n).map fun e => (pos e, U e, dofs e)) st b = some (st', b') ∧ Tables.Reachable B st' ∧
      ∀ d, b' d = b d + ((List.range n).map fun e => (((dofs e).zipIdx.filter fun p => p.1 == d).map fun p => δ e p.2).sum).sum := by
  have key : ∀ (es : List Nat), (∀ e ∈ es, e < n) → ∀ (st : Tables.State P K), Tables.Reachable B st → ∀ b : Nat → R,
      ∃ st' b', assembleVector J (es.map fun e => (pos e, U e, dofs e)) st b = some (st', b') ∧ Tables.Reachable B st' ∧
      ∀ d, b' d = b d + (es.map fun e => (((dofs e).zipIdx.filter fun p => p.1 == d).map fun p => δ e p.2).sum).sum := by
    intro es
    induction es with
    | nil => intro _ st hst b; exact ⟨st, b, rfl, hst, fun d => by simp⟩
    | cons e es ih =>
      intro hes st hst b
      obtain ⟨st1, b1, b2⟩ := h e (hes e List.mem_cons_self) st hst 0
      obtain ⟨st2, b', c1, c2, c3⟩ := ih (fun e he => hes e (List.mem_cons_of_mem _ he)) st1 b2 (scatter (dofs e) 0 (δ e) b)
      refine ⟨st2, b', ?_, c2, ?_⟩
      · rw [zero_add] at b1
        rw [List.map_cons, assembleVector, show (fun _ => (0 : R)) = (0 : Nat → R) from rfl, b1, Option.bind_some, c1]
      · intro d
        rw [c3 d, scatter_eq, List.map_cons, List.sum_cons, add_assoc]
  exact key _ (fun e he => List.mem_range.1 he) st hst b

end

/-! ### The properties -/

section
variable {P K R : Type} [Field K] [LinearOrder K] [IsStrictOrderedRing K] [AddCommMonoid R]

/-- What is assumed of an integral over cells: the domain was built, the cells are of this process, the data of the integral belong
together, the kernel is one of FFCx. -/
structure Good (B : Tables.Basix P K) (I : Kernel.Info) (tables : List (List (Tables.Table P))) (first : Kernel.Loop R)
    (rest : List (Kernel.Loop R)) (q : QDomain K) (nRows : Nat) (types : Types) (cols : Nat) (old : List (List K)) (domain : List Nat)
    (specs : List QuadSpec) : Prop where
  built : q.Ok nRows
  mesh : q.u.Ok nRows
  points : PointDims q.oracle q.grid
  data : Consistent B I tables q.grid.length specs
  degrees : ∀ s ∈ specs, s.degree + 1 ≤ 2 * q.rules.nMax
  typesOk : types.Ok
  cells : ∀ c ∈ domain, c < q.u.numLocal
  rows : old.length = domain.length
  row : ∀ r ∈ old, r.length = cols * types.ratio
  kernel : KernelOk I tables first rest cols

theorem hasStatus_unique {q : QDomain K} {nRows : Nat} (hu : q.u.Ok nRows) {v : Nat} {a b : Status}
    (ha : HasStatus q.u.dom.n q.u.dom.tree v a) (hb : HasStatus q.u.dom.n q.u.dom.tree v b) : a = b :=
  (Tree.WF.of_reachable hu.facts.shape.2 hu.facts.reach).1.hasStatus_unique ha hb

variable {B : Tables.Basix P K} {I : Kernel.Info} {tables : List (List (Tables.Table P))} {first : Kernel.Loop R}
  {rest : List (Kernel.Loop R)} {q : QDomain K} {nRows : Nat} {types : Types} {cols : Nat} {old : List (List K)} {domain : List Nat}
  {specs : List QuadSpec}

theorem shapes_of_packed {dim : Nat} {ρ : QuadSpec → List (List (UNode K)) → Prop} {specs : List QuadSpec} {quads : List (Pack.Quad K)}
    (h : List.Forall₂ (fun s x => ∃ blocks, ρ s blocks ∧ Packed dim s.boundary blocks x) specs quads) :
    quads.map Pack.Quad.shape = specs.map fun s => (⟨dim, false, false, s.boundary⟩ : Pack.Shape) := by
  induction h with
  | nil => rfl
  | cons h _ ih =>
    obtain ⟨blocks, -, c⟩ := h
    rw [List.map_cons, List.map_cons, ih]
    refine congrArg (· :: _) ?_
    rw [Pack.Quad.shape, c.gdim, c.side1, c.facet, c.normals]
    split
    · next hb => rw [hb]; rfl
    · next hb => rw [Bool.eq_false_iff.2 hb]; rfl

theorem Good.input {argsort : List Int → List Nat} (hs : ∀ l, IsArgsort l (argsort l))
    (G : Good B I tables first rest q nRows types cols old domain specs) {s : UDomain.Caches} (hk : UDomain.CellCachesOk argsort q.u s)
    {ch : Cache K} (hr : Reached q ch) :
    ∃ s' ch' i, cellInput argsort q types cols old domain specs s ch = some ((s', ch'), i) ∧ UDomain.CellCachesOk argsort q.u s' ∧
      Reached q ch' ∧ i.types = types ∧ i.n = domain.length ∧ i.interior = false ∧ i.cols = cols ∧ i.old = old ∧ i.Ok ∧
      Linked B I false tables i ∧
      (∀ e, e ∈ i.custom ↔ ∃ c v, domain[e]? = some c ∧ q.u.mesh.OrigCell c v ∧ HasStatus q.u.dom.n q.u.dom.tree v .cut) ∧
      (∀ e, e ∈ i.empty ↔ ∃ c v, domain[e]? = some c ∧ q.u.mesh.OrigCell c v ∧ HasStatus q.u.dom.n q.u.dom.tree v .empty) ∧
      List.Forall₂ (fun s x => ∃ blocks, List.Forall₂ (fun l b => ∃ v, q.u.mesh.OrigCell l v ∧ IsRule q s v b)
        (i.custom.map fun e => domain.getD e 0) blocks ∧ Packed q.grid.length s.boundary blocks x) specs i.quads := by
  obtain ⟨s', ch', custom, empty, quads, h1, h2, h3, h4, h5, h6, h7⟩ := cellInput_spec hs q G.built G.mesh G.points types cols old domain G.cells
    specs G.degrees s hk ch hr
  refine ⟨s', ch', _, h1, h2, h3, rfl, rfl, rfl, rfl, rfl, ?_, ?_, h5, h6, h7⟩
  · have hlt : ∀ {e : Nat} {c : Nat}, domain[e]? = some c → e < domain.length := fun h => (List.getElem?_eq_some_iff.1 h).1
    refine ⟨G.typesOk, G.rows, G.row, h4, ?_, ?_, ?_, ?_⟩
    · intro e he
      obtain ⟨c, v, h, -⟩ := (h5 e).1 he
      exact hlt h
    · intro e he
      obtain ⟨c, v, h, -⟩ := (h6 e).1 he
      exact hlt h
    · intro e he he'
      obtain ⟨c, v, a1, a2, a3⟩ := (h5 e).1 he
      obtain ⟨c', v', b1, b2, b3⟩ := (h6 e).1 he'
      rw [a1] at b1
      obtain rfl := Option.some.inj b1
      rw [UDomain.OrigCell_inj a2 b2] at a3
      exact absurd (hasStatus_unique G.mesh a3 b3) (by decide)
    · intro x hx
      obtain ⟨k, hk, rfl⟩ := List.mem_iff_getElem.1 hx
      obtain ⟨blocks, c1, c2⟩ := h7.get (by rw [h7.length_eq]; exact hk) hk
      have := c2.ok
      rw [← c1.length_eq, List.length_map] at this
      exact this
  · have D := G.data
    refine ⟨D.names, D.length, ?_, D.interior.symm, D.known, D.all, D.distinct, D.wellFormed, fun x hx hc => .inl (D.dims x hx hc), D.one⟩
    have hsh := shapes_of_packed h7
    show quads.map Pack.Quad.shape = _
    rw [hsh, D.tdim, D.interior]
    have := congrArg (List.map fun b => (⟨q.grid.length, false, false, b⟩ : Pack.Shape)) D.specs
    rw [List.map_map, List.map_map] at this
    exact this

/-- **C90** (no failure): the quadratures are created and the coefficients are packed, whatever was asked before. -/
theorem C90_total {argsort : List Int → List Nat} (hs : ∀ l, IsArgsort l (argsort l))
    (toNat : K → Nat) (hn : ∀ n : Nat, toNat (n : K) = n)
    (G : Good B I tables first rest q nRows types cols old domain specs) {s : UDomain.Caches} (hk : UDomain.CellCachesOk argsort q.u s)
    {ch : Cache K} (hr : Reached q ch) :
    ∃ s' ch' i mem, cellInput argsort q types cols old domain specs s ch = some ((s', ch'), i) ∧ pack i = some mem ∧
      UDomain.CellCachesOk argsort q.u s' ∧ Reached q ch' := by
  obtain ⟨s', ch', i, h1, h2, h3, -, -, hint, -, -, hi, -⟩ := G.input hs hk hr
  obtain ⟨mem, h4, -⟩ := C67_kernel toNat hn i hi hint
  exact ⟨s', ch', i, mem, h1, h4, h2, h3⟩

/-- **C90** (a cell): in every thread and whatever was executed before, the call for a cell of the integral adds to the element tensor
what it has to: in a cut cell, the sum over the nodes of its rules; in an empty cell, nothing; in the others, what the kernel of FFCx
adds. -/
theorem C90_cell_partial [DecidableEq P] {argsort : List Int → List Nat} (hs : ∀ l, IsArgsort l (argsort l))
    (toNat : K → Nat) (hn : ∀ n : Nat, toNat (n : K) = n) (S : Scalars K R)
    (G : Good B I tables first rest q nRows types cols old domain specs) {s : UDomain.Caches} (hk : UDomain.CellCachesOk argsort q.u s)
    {ch : Cache K} (hr : Reached q ch) {x : UDomain.Caches × Cache K} {i : Pack.Input K} {mem : List (Slot K)}
    (h1 : cellInput argsort q types cols old domain specs s ch = some (x, i)) (h2 : pack i = some mem)
    {e c v : Nat} {row : List K} (he : domain[e]? = some c) (hv : q.u.mesh.OrigCell c v) (hrow : old[e]? = some row)
    {st : Tables.State P K} (hst : Tables.Reachable B st) (U : Kernel.Values R) {δ : Nat → R}
    (hδ : Adds S B I tables first rest q specs types.ratio row v U δ) (A : Nat → R) :
    ∃ st', (⟨toNat, S, B, I, false, tables, first :: rest, types, cols, mem⟩ : Job P K R).call (i.rowPos e) st U A = some (st', A + δ) ∧
      Tables.Reachable B st' := by
  obtain ⟨s', ch', i', a1, -, -, ht, hin, hint, hcol, hold, hi, L, hcu, hem, hquads⟩ := G.input hs hk hr
  rw [h1] at a1
  obtain rfl : i = i' := congrArg Prod.snd (Option.some.inj a1)
  subst ht hcol hold
  have hel : e < i.n := by rw [hin]; exact (List.getElem?_eq_some_iff.1 he).1
  have hiff : ∀ (l : List Nat) (st : Status), (∀ e, e ∈ l ↔ ∃ c v, domain[e]? = some c ∧ q.u.mesh.OrigCell c v ∧
      HasStatus q.u.dom.n q.u.dom.tree v st) → (e ∈ l ↔ HasStatus q.u.dom.n q.u.dom.tree v st) := by
    intro l st h
    rw [h e]
    constructor
    · rintro ⟨c', v', d1, d2, d3⟩
      rw [he] at d1
      obtain rfl := Option.some.inj d1
      rw [UDomain.OrigCell_inj hv d2]
      exact d3
    · intro h; exact ⟨c, v, he, hv, h⟩
  have hcu' := hiff i.custom .cut hcu
  have hem' := hiff i.empty .empty hem
  refine call_adds toNat hn S hi L hint G.kernel h2 hel hrow hst U ?_ (fun h => hδ.2.1 (hem'.1 h))
    (fun h h' => hδ.2.2 (fun k => h (hcu'.2 k)) fun k => h' (hem'.2 k)) A
  intro j hj
  obtain ⟨rules, r1, r2⟩ := hδ.1 (hcu'.1 (List.mem_of_getElem? hj))
  refine ⟨rules, fun m n hm => ?_, r2⟩
  have hjl := (List.getElem?_eq_some_iff.1 hj).1
  have hsl : specs.length = I.quads.length := by
    have := congrArg List.length G.data.specs
    simpa using this
  have hml : m < specs.length := by rw [hsl]; exact (List.getElem?_eq_some_iff.1 hm).1
  have hml' : m < i.quads.length := by rw [← hquads.length_eq]; exact hml
  obtain ⟨blocks, d1, d2⟩ := hquads.get hml hml'
  simp only [List.get_eq_getElem] at d1 d2
  have hjb : j < blocks.length := by rw [← d1.length_eq, List.length_map]; exact hjl
  obtain ⟨v', f1, f2⟩ := d1.get (by rw [d1.length_eq]; exact hjb) hjb
  simp only [List.get_eq_getElem, List.getElem_map] at f1 f2
  have hbd : specs[m].boundary = I.boundary n := by
    have h3 : (specs.map fun s => s.boundary)[m]? = (I.quads.map I.boundary)[m]? := by rw [G.data.specs]
    rw [List.getElem?_map, List.getElem?_map, hm, List.getElem?_eq_getElem hml] at h3
    exact Option.some.inj h3
  have hvv : v' = v := by
    have : i.custom[j] = e := (List.getElem?_eq_some_iff.1 hj).2
    rw [this, List.getD_eq_getElem?_getD, he, Option.getD_some] at f1
    exact UDomain.OrigCell_inj f1 hv
  subst hvv
  have hb : blocks[j] = rules n := isRule_unique f2 (r1 m n _ hm (List.getElem?_eq_getElem hml))
  refine ⟨_, blocks, List.getElem?_eq_getElem hml', ?_, by rw [List.getElem?_eq_getElem hjb, hb]⟩
  rw [G.data.tdim, ← hbd]
  exact d2

/-- **C90** (scalars): DOLFINx adds to one number the values of all the cells of the integral: what every cell has to add, each once. -/
theorem C90_scalar_partial [DecidableEq P] {argsort : List Int → List Nat} (hs : ∀ l, IsArgsort l (argsort l))
    (toNat : K → Nat) (hn : ∀ n : Nat, toNat (n : K) = n) (S : Scalars K R)
    (G : Good B I tables first rest q nRows types cols old domain specs) {s : UDomain.Caches} (hk : UDomain.CellCachesOk argsort q.u s)
    {ch : Cache K} (hr : Reached q ch) {x : UDomain.Caches × Cache K} {i : Pack.Input K} {mem : List (Slot K)}
    (h1 : cellInput argsort q types cols old domain specs s ch = some (x, i)) (h2 : pack i = some mem)
    (U : Nat → Kernel.Values R) (δ : Nat → Nat → R)
    (hδ : ∀ e, e < domain.length → ∃ c v row, domain[e]? = some c ∧ q.u.mesh.OrigCell c v ∧ old[e]? = some row ∧
      Adds S B I tables first rest q specs types.ratio row v (U e) (δ e))
    {st : Tables.State P K} (hst : Tables.Reachable B st) (A : Nat → R) :
    ∃ st', assembleScalar (⟨toNat, S, B, I, false, tables, first :: rest, types, cols, mem⟩ : Job P K R)
        ((List.range domain.length).map fun e => (i.rowPos e, U e)) st A =
          some (st', A + ((List.range domain.length).map δ).sum) ∧ Tables.Reachable B st' := by
  refine scalar_sum (fun e he st hst A => ?_) hst A
  obtain ⟨c, v, row, a1, a2, a3, a4⟩ := hδ e he
  exact C90_cell_partial hs toNat hn S G hk hr h1 h2 a1 a2 a3 hst (U e) a4 A

/-- **C90** (vectors): entry `d` of the global vector gets what every cell has to add in its entries numbered `d`; the element tensors
of the cells do not mix. -/
theorem C90_vector_partial [DecidableEq P] {argsort : List Int → List Nat} (hs : ∀ l, IsArgsort l (argsort l))
    (toNat : K → Nat) (hn : ∀ n : Nat, toNat (n : K) = n) (S : Scalars K R)
    (G : Good B I tables first rest q nRows types cols old domain specs) {s : UDomain.Caches} (hk : UDomain.CellCachesOk argsort q.u s)
    {ch : Cache K} (hr : Reached q ch) {x : UDomain.Caches × Cache K} {i : Pack.Input K} {mem : List (Slot K)}
    (h1 : cellInput argsort q types cols old domain specs s ch = some (x, i)) (h2 : pack i = some mem)
    (U : Nat → Kernel.Values R) (dofs : Nat → List Nat) (δ : Nat → Nat → R)
    (hδ : ∀ e, e < domain.length → ∃ c v row, domain[e]? = some c ∧ q.u.mesh.OrigCell c v ∧ old[e]? = some row ∧
      Adds S B I tables first rest q specs types.ratio row v (U e) (δ e))
    {st : Tables.State P K} (hst : Tables.Reachable B st) (b : Nat → R) :
    ∃ st' b', assembleVector (⟨toNat, S, B, I, false, tables, first :: rest, types, cols, mem⟩ : Job P K R)
        ((List.range domain.length).map fun e => (i.rowPos e, U e, dofs e)) st b = some (st', b') ∧ Tables.Reachable B st' ∧
      ∀ d, b' d = b d + ((List.range domain.length).map fun e =>
        (((dofs e).zipIdx.filter fun p => p.1 == d).map fun p => δ e p.2).sum).sum := by
  refine vector_sum (fun e he st hst A => ?_) hst b
  obtain ⟨c, v, row, a1, a2, a3, a4⟩ := hδ e he
  exact C90_cell_partial hs toNat hn S G hk hr h1 h2 a1 a2 a3 hst (U e) a4 A

end

end Qugar.Py.Integral
