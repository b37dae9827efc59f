import Verif.Model.PyAssemble
import Verif.Props.PyPacker
import Verif.Props.PyTables
import Verif.Props.PyKernel
/-
C87: what the generated function adds to the element tensor, from the packed coefficients to the sum over the points of the entity.
-/
namespace Qugar.Py.Assemble

open Pack Kernel Tables

variable {P K R : Type}

/-! ### Specification -/

/-- Point number `iq` of a quadrature in an entity, for an element of dimension `dim`, in the given side. -/
def pointOf (mixed : Bool) (tdim : Nat) (l : Loaded K) (dim side iq : Nat) : List K :=
  if side = 1 then ((l.side1.getD []).drop (iq * tdim)).take tdim
  else if mixed && dim != tdim then ((l.facet.getD []).drop (iq * (tdim - 1))).take (tdim - 1)
  else (l.points.drop (iq * tdim)).take tdim

/-- The quadrature with the name `q`: the names and the quadratures are in the same order. -/
def named (I : Kernel.Info) (i : Pack.Input K) (q : Nat) : Option (Pack.Quad K) := i.quads[I.quads.idxOf q]?

/-- The number of functions of the table with the name `t`. -/
def count (tables : List (List (Table P))) (t : Nat) : Nat := ((tables.flatten.find? fun x => x.name == t).map fun x => x.funcs).getD 0

/-- Coefficient `k` of the entity `e`: the `ratio` numbers given to the packer in its place. -/
def coefficient (S : Scalars K R) (i : Pack.Input K) (e k : Nat) : Option R :=
  (i.old[i.row e]?).bind fun r =>
    if (k + 1) * i.types.ratio ≤ r.length then some (S.scalar ((r.drop (k * i.types.ratio)).take i.types.ratio)) else none

/-- The right data for the custom entity `j`, which has the number `e`: the coefficients given to the packer, and the weights, the
normals and the functions at the points of the quadratures of that entity. -/
def exact (S : Scalars K R) (U : Values R) (B : Basix P K) (I : Kernel.Info) (mixed : Bool) (tables : List (List (Table P))) (i : Pack.Input K)
    (e j : Nat) : Values R where
  const := U.const
  input a k := if a = 0 then (coefficient S i e k).getD (U.input 0 k) else U.input a k
  staticWeight := U.staticWeight
  staticTable := U.staticTable
  weight q iq := ((named I i q).bind fun x => ((x.entity j).weights[iq]?).map S.real).getD (U.weight q iq)
  normals q k := ((named I i q).bind fun x => (x.entity j).normals.bind fun ns => (ns[k]?).map S.real).getD (U.normals q k)
  points q := ((named I i q).map fun x => (x.entity j).n).getD (U.points q)
  table t s iq d :=
    match tables.flatten.find? (fun x => x.name == t), named I i (I.quadOf t) with
    | some x, some qd =>
      match (components B.values x.elem)[x.component]? with
      | some (core, v) => S.real (B.eval core (pointOf mixed I.tdim (qd.entity j) x.elemDim (s.getD 0) iq) x.derivs d v)
      | none => U.table t s iq d
    | _, _ => U.table t s iq d

/-- The data of an integral belong together: what the packer, the loaders, the code of the tables and the kernel know. At most one
quadrature has tables that depend on the point (see `C71_two_quadratures_fail`). -/
structure Linked (B : Basix P K) (I : Kernel.Info) (mixed : Bool) (tables : List (List (Table P))) (i : Pack.Input K) : Prop where
  names : I.quads.Nodup
  length : tables.length = I.quads.length
  shapes : i.quads.map Quad.shape = I.quads.map fun q => ⟨I.tdim, I.interior, mixed, I.boundary q⟩
  interior : i.interior = I.interior
  known : ∀ (m q : Nat) (ts : List (Table P)), I.quads[m]? = some q → tables[m]? = some ts → ∀ x ∈ ts,
    I.quadOf x.name = q ∧ I.constant x.name = x.const ∧ I.permuted x.name = decide (1 < x.perms)
  all : ∀ t ∈ I.tables, ∃ x ∈ tables.flatten, x.name = t
  distinct : (tables.flatten.map fun x => x.name).Nodup
  wellFormed : ∀ x ∈ tables.flatten, x.const = false → WellFormed B x
  dims : ∀ x ∈ tables.flatten, x.const = false → x.elemDim = I.tdim ∨ (mixed = true ∧ I.interior = false ∧ x.elemDim = I.tdim - 1)
  one : ∀ (m m' : Nat) ts ts', tables[m]? = some ts → tables[m']? = some ts' → (∃ x ∈ ts, x.const = false) →
    (∃ x ∈ ts', x.const = false) → m = m'

/-- The accesses in the loop over the quadrature `q` that C allows: the weights and the tables of that quadrature at the point of the
loop, with function numbers in range, and coefficients in range. `ρ`: values of the variables of the loops over functions. -/
def Access (I : Kernel.Info) (fs : Nat → Nat) (cols q : Nat) (ρ : Nat → Option Nat) : Expr R → Prop
  | .weight q' => q' = q
  | .input a k => a = 0 → ∀ n, k.val ρ = some n → n < cols
  | .table4 t p _ pt d => I.constant t = false →
      pt = none ∧ I.quadOf t = q ∧ (∀ s, p = some s → s < 2) ∧ ∀ n, d.val ρ = some n → n < fs t
  | .op _ a b => Access I fs cols q ρ a ∧ Access I fs cols q ρ b
  | _ => True

/-- All the executed expressions of a computation. -/
def Each (Q : (Nat → Option Nat) → Expr R → Prop) : Code R → (Nat → Option Nat) → Prop
  | .skip, _ => True
  | .seq a b, ρ => Each Q a ρ ∧ Each Q b ρ
  | .decl _ _ e, ρ => Q ρ e
  | .set _ _ e, ρ => Q ρ e
  | .accum _ e, ρ => Q ρ e
  | .block c, ρ => Each Q c ρ
  | .loop v n c, ρ => ∀ k < n, Each Q c (Function.update ρ v (some k))

/-- The statements that are executed at the points of the quadrature `q` access what they can. -/
def Allowed (I : Kernel.Info) (fs : Nat → Nat) (cols q : Nat) (ss : List (Kernel.Stmt R)) : Prop :=
  ∀ c, Kernel.Stmt.code c ∈ ss → Each (Access I fs cols q) c noLoop

/-! ### Proofs: congruence -/

theorem times_congr {α : Type} {f g : Nat → α → Option α} : ∀ (n : Nat) (x : α), (∀ k < n, ∀ x, f k x = g k x) → Kernel.times f n x = Kernel.times g n x
  | 0, _, _ => rfl
  | n + 1, x, h => by
    rw [Kernel.times, Kernel.times, times_congr n x fun k hk => h k (Nat.lt_succ_of_lt hk)]
    cases Kernel.times g n x with
    | none => rfl
    | some y => exact h n (Nat.lt_succ_self n) y

theorem exec_congr [Add R] {ev ev' : Env R → (Nat → Option Nat) → Expr R → Option R} :
    ∀ (c : Code R) (ρ : Nat → Option Nat), Each (fun ρ e => ∀ env, ev env ρ e = ev' env ρ e) c ρ → ∀ env A,
      c.exec ev ρ env A = c.exec ev' ρ env A
  | .skip, _, _, _, _ => rfl
  | .seq a b, ρ, h, env, A => by
    rw [Code.exec, Code.exec, exec_congr a ρ h.1]
    cases a.exec ev' ρ env A with
    | none => rfl
    | some x => exact exec_congr b ρ h.2 x.1 x.2
  | .decl x n e, ρ, h, env, A => by rw [Code.exec, Code.exec, h env]
  | .set x k e, ρ, h, env, A => by rw [Code.exec, Code.exec, h env]
  | .accum i e, ρ, h, env, A => by rw [Code.exec, Code.exec, h env]
  | .block c, ρ, h, env, A => by rw [Code.exec, Code.exec, exec_congr c ρ h]
  | .loop v n c, ρ, h, env, A => by
    rw [Code.exec, Code.exec]
    exact times_congr n _ fun k hk x => by rw [exec_congr c _ (h k hk)]

theorem Each.mono {Q Q' : (Nat → Option Nat) → Expr R → Prop} (hq : ∀ ρ e, Q ρ e → Q' ρ e) :
    ∀ (c : Code R) (ρ : Nat → Option Nat), Each Q c ρ → Each Q' c ρ
  | .skip, _, _ => trivial
  | .seq a b, ρ, h => ⟨Each.mono hq a ρ h.1, Each.mono hq b ρ h.2⟩
  | .decl _ _ _, ρ, h => hq ρ _ h
  | .set _ _ _, ρ, h => hq ρ _ h
  | .accum _ _, ρ, h => hq ρ _ h
  | .block c, ρ, h => Each.mono hq c ρ h
  | .loop _ _ c, _, h => fun k hk => Each.mono hq c _ (h k hk)

theorem Each.and {Q Q' : (Nat → Option Nat) → Expr R → Prop} :
    ∀ (c : Code R) (ρ : Nat → Option Nat), Each Q c ρ → Each Q' c ρ → Each (fun ρ e => Q ρ e ∧ Q' ρ e) c ρ
  | .skip, _, _, _ => trivial
  | .seq a b, ρ, h, h' => ⟨Each.and a ρ h.1 h'.1, Each.and b ρ h.2 h'.2⟩
  | .decl _ _ _, _, h, h' => ⟨h, h'⟩
  | .set _ _ _, _, h, h' => ⟨h, h'⟩
  | .accum _ _, _, h, h' => ⟨h, h'⟩
  | .block c, ρ, h, h' => Each.and c ρ h h'
  | .loop _ _ c, _, h, h' => fun k hk => Each.and c _ (h k hk) (h' k hk)

theorem All.each {Q : Expr R → Prop} : ∀ (c : Code R) (ρ : Nat → Option Nat), c.All Q → Each (fun _ => Q) c ρ
  | .skip, _, _ => trivial
  | .seq a b, ρ, h => ⟨All.each a ρ h.1, All.each b ρ h.2⟩
  | .decl _ _ _, _, h => h
  | .set _ _ _, _, h => h
  | .accum _ _, _, h => h
  | .block c, ρ, h => All.each c ρ h
  | .loop _ _ c, _, h => fun _ _ => All.each c _ h

/-- The two data agree in all that is accessed at the point `iq` of `q`. -/
structure Same (D D' : Values R) (I : Kernel.Info) (fs : Nat → Nat) (cols q iq : Nat) : Prop where
  const : D.const = D'.const
  staticTable : D.staticTable = D'.staticTable
  other : ∀ a k, a ≠ 0 → D.input a k = D'.input a k
  input : ∀ k < cols, D.input 0 k = D'.input 0 k
  weight : D.weight q iq = D'.weight q iq
  normals : I.boundary q = true → ∀ k < I.tdim, D.normals q (I.tdim * iq + k) = D'.normals q (I.tdim * iq + k)
  table : ∀ t s d, t ∈ I.tables → I.constant t = false → I.quadOf t = q → d < fs t → (∀ x, s = some x → x < 2) →
    (s.isSome = true → I.two t = true) → D.table t s iq d = D'.table t s iq d

theorem idealEval_same {D D' : Values R} {I : Kernel.Info} {fs : Nat → Nat} {cols q iq : Nat} (h : Same D D' I fs cols q iq) (env : Env R)
    (ρ : Nat → Option Nat) : ∀ e : Expr R, FromFFCx I e → Access I fs cols q ρ e → idealEval D I q iq env ρ e = idealEval D' I q iq env ρ e
  | .lit _, _, _ => rfl
  | .var _ _, _, _ => rfl
  | .input a k, _, ha => by
    rw [idealEval, idealEval]
    rcases hk : k.val ρ with _ | n
    · rfl
    · by_cases h0 : a = 0
      · subst h0
        rw [Option.map_some, Option.map_some, h.input n (ha rfl n hk)]
      · rw [Option.map_some, Option.map_some, h.other a n h0]
  | .const k, _, _ => by
    rw [idealEval, idealEval, h.const]
    split
    · next off hoff =>
      split at hoff
      · next hb =>
        have := List.find?_some hoff
        simp only [Bool.and_eq_true, decide_eq_true_eq] at this
        rw [h.normals hb (k - off) (by omega)]
      · simp at hoff
    · rfl
  | .weight q', _, ha => by
    rw [idealEval, idealEval, show q' = q from ha, h.weight]
  | .table4 t p e pt d, hf, ha => by
    rw [idealEval, idealEval]
    rcases hd : d.val ρ with _ | n
    · rfl
    · rw [Option.map_some, Option.map_some]
      rcases hc : I.constant t with _ | _
      · obtain ⟨rfl, h2, h3, h4⟩ := ha hc
        simp only [Bool.false_eq_true, if_false, Option.getD_none]
        rw [h.table t _ n hf.1 hc h2 (h4 n hd)]
        · intro x hx
          split at hx
          · exact h3 x hx
          · simp at hx
        · intro hs
          split at hs
          · assumption
          · simp at hs
      · simp only [if_true, h.staticTable]
  | .table1 .., hf, _ => hf.elim
  | .normal .., hf, _ => hf.elim
  | .op f a b, hf, ha => by
    rw [idealEval, idealEval, idealEval_same h env ρ a hf.1 ha.1, idealEval_same h env ρ b hf.2 ha.2]

theorem idealExec_same [Add R] {D D' : Values R} {I : Kernel.Info} {fs : Nat → Nat} {cols q iq : Nat} (h : Same D D' I fs cols q iq) :
    ∀ (ss : List (Kernel.Stmt R)), (∀ c, Kernel.Stmt.code c ∈ ss → c.All (FromFFCx I)) → Allowed I fs cols q ss → ∀ env A,
      idealExec D I q iq ss env A = idealExec D' I q iq ss env A
  | [], _, _, _, _ => rfl
  | s :: ss, hf, ha, env, A => by
    have ih := idealExec_same h ss (fun c hc => hf c (List.mem_cons_of_mem _ hc)) (fun c hc => ha c (List.mem_cons_of_mem _ hc))
    cases s with
    | code c =>
      rw [idealExec, idealExec, exec_congr c noLoop (Each.mono (fun ρ e he env => idealEval_same h env ρ e he.1 he.2) c _
        (Each.and c _ (All.each c _ (hf c (List.mem_cons_self ..))) (ha c (List.mem_cons_self ..))))]
      cases c.exec (idealEval D' I q iq) noLoop env A with
      | none => rfl
      | some x => exact ih x.1 x.2
    | _ => exact ih env A

theorem idealLoop_same [Add R] {D D' : Values R} {I : Kernel.Info} {fs : Nat → Nat} {cols q : Nat} (ss : List (Kernel.Stmt R))
    (hf : ∀ c, Kernel.Stmt.code c ∈ ss → c.All (FromFFCx I)) (ha : Allowed I fs cols q ss) :
    ∀ (n k : Nat), (∀ iq, iq < k + n → Same D D' I fs cols q iq) → ∀ A, idealLoop D I q ss n k A = idealLoop D' I q ss n k A
  | 0, _, _, _ => rfl
  | n + 1, k, h, A => by
    rw [idealLoop, idealLoop, idealExec_same (h k (by omega)) ss hf ha]
    cases idealExec D' I q k ss [] A with
    | none => rfl
    | some x => exact idealLoop_same ss hf ha n (k + 1) (fun iq hiq => h iq (by omega)) x.2

theorem ideal_same [Add R] {D D' : Values R} {I : Kernel.Info} {fs : Nat → Nat} {cols : Nat} (pre : List (Kernel.Stmt R)) :
    ∀ (ls : List (Loop R)), (∀ l ∈ ls, ∀ c, Kernel.Stmt.code c ∈ pre ++ l.body → c.All (FromFFCx I)) →
      (∀ l ∈ ls, Allowed I fs cols l.quad (pre ++ l.body)) → (∀ l ∈ ls, D.points l.quad = D'.points l.quad) →
      (∀ l ∈ ls, ∀ iq < D'.points l.quad, Same D D' I fs cols l.quad iq) → ∀ A, ideal D I pre ls A = ideal D' I pre ls A
  | [], _, _, _, _, _ => rfl
  | l :: ls, hf, ha, hp, hs, A => by
    rw [ideal, ideal, hp l (List.mem_cons_self ..), idealLoop_same (pre ++ l.body) (hf l (List.mem_cons_self ..))
      (ha l (List.mem_cons_self ..)) _ 0 (fun iq hiq => hs l (List.mem_cons_self ..) iq (by omega))]
    cases idealLoop D' I l.quad (pre ++ l.body) (D'.points l.quad) 0 A with
    | none => rfl
    | some A' =>
      exact ideal_same pre ls (fun l h => hf l (List.mem_cons_of_mem _ h)) (fun l h => ha l (List.mem_cons_of_mem _ h))
        (fun l h => hp l (List.mem_cons_of_mem _ h)) (fun l h => hs l (List.mem_cons_of_mem _ h)) A'

/-! ### Proofs: the data in memory -/

theorem Linked.shapes_eq {B : Basix P K} {I : Kernel.Info} {mixed : Bool} {tables : List (List (Table P))} {i : Pack.Input K}
    (L : Linked B I mixed tables i) : Assemble.shapes I mixed = i.quads.map Quad.shape := L.shapes.symm

theorem ofQuad_map {α β : Type} (f : α → β) : ∀ (quads : List Nat) (l : List α) (q : Nat), ofQuad quads (l.map f) q = (ofQuad quads l q).map f
  | [], _, _ => rfl
  | _ :: _, [], _ => rfl
  | q' :: qs, a :: l, q => by
    have ih := ofQuad_map f qs l q
    simp only [ofQuad, List.map_cons, List.zip_cons_cons, List.find?_cons] at ih ⊢
    by_cases h : q' = q
    · simp [h]
    · simp only [h, decide_false]
      exact ih

theorem ofQuad_get {α : Type} : ∀ (quads : List Nat) (l : List α) (m q : Nat) (a : α), quads.Nodup → quads[m]? = some q → l[m]? = some a →
    ofQuad quads l q = some a
  | [], _, _, _, _, _, h, _ => by simp at h
  | _ :: _, [], _, _, _, _, _, h => by simp at h
  | q' :: qs, b :: l, 0, q, a, _, h1, h2 => by
    simp only [List.getElem?_cons_zero, Option.some.injEq] at h1 h2
    subst h1 h2
    simp [ofQuad]
  | q' :: qs, b :: l, m + 1, q, a, hn, h1, h2 => by
    simp only [List.getElem?_cons_succ] at h1 h2
    have hne : q' ≠ q := by
      rintro rfl
      exact (List.nodup_cons.1 hn).1 (List.mem_iff_getElem?.2 ⟨m, h1⟩)
    have ih := ofQuad_get qs l m q a (List.nodup_cons.1 hn).2 h1 h2
    simp only [ofQuad, List.zip_cons_cons, List.find?_cons, hne, decide_false] at ih ⊢
    exact ih

theorem ofQuad_idxOf {α : Type} : ∀ (quads : List Nat) (l : List α) (q : Nat), l.length = quads.length → ofQuad quads l q = l[quads.idxOf q]?
  | [], [], _, _ => rfl
  | q' :: qs, b :: l, q, h => by
    have ih := ofQuad_idxOf qs l q (by simpa using h)
    by_cases he : q' = q
    · subst he
      simp [ofQuad]
    · rw [List.idxOf_cons_ne _ he, List.getElem?_cons_succ, ← ih]
      simp [ofQuad, he]

theorem find_beq (l : List (Table P)) (t : Nat) : (l.find? fun x => x.name == t) = l.find? fun x => decide (x.name = t) := rfl

theorem find_name {l : List (Table P)} (hn : (l.map fun x => x.name).Nodup) {x : Table P} (hx : x ∈ l) :
    l.find? (fun y => decide (y.name = x.name)) = some x := by
  induction l with
  | nil => simp at hx
  | cons y l ih =>
    rw [List.map_cons, List.nodup_cons] at hn
    rw [List.find?_cons]
    rcases List.mem_cons.1 hx with rfl | hx
    · simp
    · have hne : y.name ≠ x.name := fun h => hn.1 (h ▸ List.mem_map_of_mem hx)
      simp only [hne, decide_false]
      exact ih hn.2 hx

theorem points_get {d n : Nat} {l : List K} {iq : Nat} (h : iq < n) : (points d n l).getD iq [] = (l.drop (iq * d)).take d := by
  simp [points, h]

theorem points_length (d n : Nat) (l : List K) : (points d n l).length = n := by simp [points]

theorem points_dim {d n : Nat} {l : List K} (hl : l.length = n * d) : ∀ x ∈ points d n l, x.length = d := by
  intro x hx
  obtain ⟨iq, h1, rfl⟩ := List.mem_map.1 hx
  have h2 : iq + 1 ≤ n := List.mem_range.1 h1
  have h3 := Nat.mul_le_mul_right d h2
  rw [Nat.add_mul, Nat.one_mul] at h3
  rw [List.length_take, List.length_drop, hl]
  omega

theorem part_length {q : Pack.Quad K} {m j d : Nat} {l : List K} (hm : q.nPts.length = m) (hj : j < m) (hl : l.length = d * q.nPts.sum) :
    (q.part j d l).length = q.nPts.getD j 0 * d := by
  rw [Pack.Quad.part, List.length_take, List.length_drop, hl]
  have h1 : q.nPts.sum = (q.nPts.take j).sum + (q.nPts.getD j 0 + (q.nPts.drop (j + 1)).sum) := by
    conv_lhs => rw [← List.take_append_drop j q.nPts, List.sum_append, List.drop_eq_getElem_cons (by omega), List.sum_cons]
    rw [List.getD_eq_getElem?_getD, List.getElem?_eq_getElem (by omega), Option.getD_some]
  have h2 : d * q.nPts.sum = (q.nPts.take j).sum * d + (q.nPts.getD j 0 * d + (q.nPts.drop (j + 1)).sum * d) := by
    rw [h1, Nat.mul_comm, Nat.add_mul, Nat.add_mul]
  omega

theorem quadrature_ok {B : Basix P K} {I : Kernel.Info} {mixed : Bool} {tables : List (List (Table P))} {i : Pack.Input K}
    (L : Linked B I mixed tables i) (hi : i.Ok) {j : Nat} (hj : j < i.custom.length) {m : Nat} {ts : List (Table P)} {qd : Pack.Quad K}
    (ht : tables[m]? = some ts) (hq : i.quads[m]? = some qd) :
    QuadOK B I.interior mixed I.tdim (quadrature I.tdim ts (qd.entity j)) := by
  have hts : ts ∈ tables := List.mem_iff_getElem?.2 ⟨m, ht⟩
  have hmem : ∀ x ∈ ts, x ∈ tables.flatten := fun x hx => List.mem_flatten.2 ⟨ts, hts, hx⟩
  have hqo := hi.quads qd (List.mem_iff_getElem?.2 ⟨m, hq⟩)
  have hsh : ∃ q, qd.shape = ⟨I.tdim, I.interior, mixed, I.boundary q⟩ := by
    have h1 : (i.quads.map Quad.shape)[m]? = some qd.shape := by rw [List.getElem?_map, hq]; rfl
    rw [L.shapes, List.getElem?_map] at h1
    obtain ⟨q, -, h3⟩ := Option.map_eq_some_iff.1 h1
    exact ⟨q, h3.symm⟩
  obtain ⟨q, hsh⟩ := hsh
  simp only [Pack.Quad.shape, Pack.Shape.mk.injEq] at hsh
  obtain ⟨hg, hs1, hs2, -⟩ := hsh
  refine ⟨fun x hx hc => L.wellFormed x (hmem x hx) hc, ?_, points_length .., fun _ => points_length .., fun _ => points_length .., ?_⟩
  · exact L.distinct.sublist ((List.sublist_flatten_of_mem hts).map _)
  · intro x hx hc side hside y hy
    have hd := L.dims x (hmem x hx) hc
    unfold pointsOf at hy
    split at hy
    · next h1 =>
      have hint : I.interior = true := by
        rcases hside with h | h
        · omega
        · exact h.2.1
      rcases hd with hd | ⟨_, hd, _⟩
      · rw [hint] at hs1
        obtain ⟨l, hl⟩ := Option.isSome_iff_exists.1 hs1
        rw [hd]
        refine points_dim ?_ y hy
        show ((qd.side1.map (qd.part j qd.gdim)).getD []).length = _
        rw [hl, Option.map_some, Option.getD_some, ← hg]
        exact part_length hqo.entities hj (hqo.side1 l hl)
      · rw [hint] at hd; simp at hd
    · split at hy
      · next h2 =>
        simp only [Bool.and_eq_true, bne_iff_ne, ne_eq] at h2
        rcases hd with hd | ⟨_, _, hd⟩
        · exact absurd hd h2.2
        · rw [h2.1] at hs2
          obtain ⟨f, hf⟩ := Option.isSome_iff_exists.1 hs2
          rw [hd]
          refine points_dim ?_ y hy
          show ((qd.facet.map fun f => qd.part j f.1 f.2).getD []).length = _
          rw [hf, Option.map_some, Option.getD_some, ← hg, ← (hqo.facet f hf).1]
          exact part_length hqo.entities hj (hqo.facet f hf).2
      · next h2 =>
        have hd' : x.elemDim = I.tdim := by
          rcases hd with hd | ⟨h3, _, _⟩
          · exact hd
          · rw [h3] at h2
            simpa using h2
        rw [hd']
        refine points_dim ?_ y hy
        show (qd.part j qd.gdim qd.points).length = _
        rw [← hg]
        exact part_length hqo.entities hj hqo.points

theorem getD_some_or {α : Type} {a b : Option α} {x y : α} (h : a = b) (hxy : x = y) : a.getD x = b.getD y := by rw [h, hxy]

/-- The code before the loops, and the tables afterwards. -/
theorem tables_ok [DecidableEq P] {B : Basix P K} {I : Kernel.Info} {mixed : Bool} {tables : List (List (Table P))} {i : Pack.Input K}
    (L : Linked B I mixed tables i) (hi : i.Ok) {j : Nat} (hj : j < i.custom.length) {st : Tables.State P K} (hst : Tables.Reachable B st) :
    ∃ st', prologue B I.interior mixed I.tdim st (List.zipWith (quadrature I.tdim) tables (i.quads.map fun q => q.entity j)) = some st' ∧
      ∀ (m : Nat) ts qd, tables[m]? = some ts → i.quads[m]? = some qd → ∀ x ∈ ts, x.const = false → ∀ core v,
        (components B.values x.elem)[x.component]? = some (core, v) → ∀ side, HasSide I.interior x side → ∀ iq < (qd.entity j).n,
          ∀ d < B.dofs core, read st' x.name side (x.funcs * iq + d) =
            some (B.eval core (pointOf mixed I.tdim (qd.entity j) x.elemDim side iq) x.derivs d v) := by
  let qs := List.zipWith (quadrature I.tdim) tables (i.quads.map fun q => q.entity j)
  have hget : ∀ (m : Nat) y, qs[m]? = some y → ∃ ts qd, tables[m]? = some ts ∧ i.quads[m]? = some qd ∧
      y = quadrature I.tdim ts (qd.entity j) := by
    intro m y hy
    simp only [qs, List.getElem?_zipWith] at hy
    split at hy
    · next ts l h1 h2 =>
      rw [List.getElem?_map] at h2
      obtain ⟨qd, h3, rfl⟩ := Option.map_eq_some_iff.1 h2
      exact ⟨ts, qd, h1, h3, (Option.some.inj hy).symm⟩
    · simp at hy
  have hok : ∀ y ∈ qs, QuadOK B I.interior mixed I.tdim y := by
    intro y hy
    obtain ⟨m, hm⟩ := List.mem_iff_getElem?.1 hy
    obtain ⟨ts, qd, h1, h2, rfl⟩ := hget m y hm
    exact quadrature_ok L hi hj h1 h2
  obtain ⟨st', h1, -⟩ := prologue_ok qs hok hst.regs
  refine ⟨st', h1, ?_⟩
  intro m ts qd ht hq x hx hc core v hcv side hside iq hiq d hd
  have hqm : qs[m]? = some (quadrature I.tdim ts (qd.entity j)) := by
    simp only [qs, List.getElem?_zipWith, ht, List.getElem?_map, hq, Option.map_some]
  have hlen := (List.getElem?_eq_some_iff.1 hqm).1
  have hsplit : qs = qs.take m ++ quadrature I.tdim ts (qd.entity j) :: qs.drop (m + 1) := by
    conv_lhs => rw [← List.take_append_drop m qs, List.drop_eq_getElem_cons hlen, (List.getElem?_eq_some_iff.1 hqm).2]
  have hafter : ∀ y ∈ qs.drop (m + 1), ∀ z ∈ y.tables, z.const = true := by
    intro y hy z hz
    obtain ⟨k, hk⟩ := List.mem_iff_getElem?.1 hy
    rw [List.getElem?_drop] at hk
    obtain ⟨ts', qd', h2, h3, rfl⟩ := hget _ _ hk
    by_contra hcz
    have := L.one m (m + 1 + k) ts ts' ht h2 ⟨x, hx, hc⟩ ⟨z, hz, by simpa using hcz⟩
    omega
  obtain ⟨st'', h4, h5⟩ := C71_tables_partial B I.interior mixed I.tdim hst (qs.take m) (qs.drop (m + 1))
    (quadrature I.tdim ts (qd.entity j)) (fun y hy => hok y (List.mem_of_mem_take hy)) (quadrature_ok L hi hj ht hq) hafter
  rw [← hsplit, h1] at h4
  obtain rfl := Option.some.inj h4
  rw [h5 x hx hc core v hcv side hside iq hiq d hd]
  congr 2
  unfold pointsOf pointOf
  split
  · exact points_get hiq
  · split <;> exact points_get hiq

theorem same_custom [DecidableEq P] (S : Scalars K R) {B : Basix P K} {I : Kernel.Info} {mixed : Bool} {tables : List (List (Table P))} {i : Pack.Input K}
    (L : Linked B I mixed tables i) (hi : i.Ok) {e j : Nat} (U : Values R) (mem : List (Slot K))
    (hin : ∀ k < i.cols, ∃ x, coefficient S i e k = some x ∧
      (readNums mem (i.rowPos e + k * i.types.ratio) i.types.ratio).map S.scalar = some x)
    {st' : Tables.State P K}
    (htab : ∀ (m : Nat) ts qd, tables[m]? = some ts → i.quads[m]? = some qd → ∀ x ∈ ts, x.const = false → ∀ core v,
        (components B.values x.elem)[x.component]? = some (core, v) → ∀ side, HasSide I.interior x side → ∀ iq < (qd.entity j).n,
          ∀ d < B.dofs core, read st' x.name side (x.funcs * iq + d) =
            some (B.eval core (pointOf mixed I.tdim (qd.entity j) x.elemDim side iq) x.derivs d v)) :
    (∀ q, (values S i.types.ratio U I tables mem (i.rowPos e) (i.quads.map fun q => q.entity j) st').points q =
      (exact S U B I mixed tables i e j).points q) ∧
    ∀ q iq, iq < (exact S U B I mixed tables i e j).points q → q ∈ I.quads →
      Same (values S i.types.ratio U I tables mem (i.rowPos e) (i.quads.map fun q => q.entity j) st') (exact S U B I mixed tables i e j) I
        (count tables) i.cols q iq := by
  have hlen : i.quads.length = I.quads.length := by
    have := congrArg List.length L.shapes
    simpa using this
  have hname : ∀ q, named I i q = ofQuad I.quads i.quads q := fun q => (ofQuad_idxOf _ _ q hlen).symm
  constructor
  · intro q
    simp only [values, exact, ofQuad_map, Option.map_map, hname]
    rfl
  · intro q iq hiq hq
    obtain ⟨m, hm⟩ := List.mem_iff_getElem?.1 hq
    have hml := (List.getElem?_eq_some_iff.1 hm).1
    obtain ⟨qd, hqd⟩ : ∃ qd, i.quads[m]? = some qd := ⟨_, List.getElem?_eq_getElem (by omega)⟩
    obtain ⟨ts, hts⟩ : ∃ ts, tables[m]? = some ts := ⟨_, List.getElem?_eq_getElem (by rw [L.length]; exact hml)⟩
    have hof := ofQuad_get I.quads i.quads m q qd L.names hm hqd
    have hn : iq < (qd.entity j).n := by
      simpa [exact, hname, hof] using hiq
    refine ⟨rfl, rfl, ?_, ?_, ?_, ?_, ?_⟩
    · intro a k ha
      simp [values, exact, ha]
    · intro k hk
      obtain ⟨x, h1, h2⟩ := hin k hk
      simp only [values, exact, if_true, h1, h2, Option.getD_some]
    · simp only [values, exact, hname, ofQuad_map, hof, Option.map_some, Option.bind_some]
    · intro _ k _
      simp only [values, exact, hname, ofQuad_map, hof, Option.map_some, Option.bind_some]
    · intro t s d ht hc hqt hd hs1 hs2
      obtain ⟨x, hx, rfl⟩ := L.all t ht
      obtain ⟨ts', hts', hx'⟩ := List.mem_flatten.1 hx
      obtain ⟨m', hm'⟩ := List.mem_iff_getElem?.1 hts'
      have hm'l : m' < I.quads.length := by rw [← L.length]; exact (List.getElem?_eq_some_iff.1 hm').1
      obtain ⟨k1, k2, k3⟩ := L.known m' _ ts' (List.getElem?_eq_getElem hm'l) hm' x hx'
      have hmm : m' = m := by
        rw [hqt] at k1
        exact (List.Nodup.getElem_inj_iff L.names).1 (k1.symm.trans (List.getElem?_eq_some_iff.1 hm).2.symm)
      subst hmm
      obtain rfl := Option.some.inj (hm'.symm.trans hts)
      have hto : tableOf tables x.name = some x := find_name L.distinct hx
      have hcx : x.const = false := by rw [← k2]; exact hc
      obtain ⟨core, v, c1, c2, c3, c4, c5⟩ := (L.wellFormed x hx hcx).comp
      have hfx : funcs tables x.name = x.funcs := by rw [funcs, hto]; rfl
      have hside : HasSide I.interior x (s.getD 0) := by
        rcases s with _ | s
        · exact .inl rfl
        · have h2 : s < 2 := hs1 s rfl
          have h3 : I.two x.name = true := hs2 rfl
          simp only [Kernel.Info.two, k3, Bool.and_eq_true, decide_eq_true_eq] at h3
          show s = 0 ∨ _
          rcases Nat.lt_or_ge s 1 with h4 | h4
          · exact .inl (by omega)
          · exact .inr ⟨show s = 1 by omega, h3.1, h3.2⟩
      have hfc : count tables x.name = x.funcs := hfx
      rw [hfc, c3] at hd
      have hr := htab m' ts' qd hm' hqd x hx' hcx core v c1 (s.getD 0) hside iq hn d hd
      have hto' : (tables.flatten.find? fun y => y.name == x.name) = some x := hto
      simp only [values, exact, hname, hto', hqt, hof, c1, hfx, hr, Option.map_some, Option.getD_some]

/-! ### Proofs: entities that are not cut -/

/-- The coefficients that are accessed. -/
def Coefficients (cols : Nat) (ρ : Nat → Option Nat) : Expr R → Prop
  | .input a k => a = 0 → ∀ n, k.val ρ = some n → n < cols
  | .op _ a b => Coefficients cols ρ a ∧ Coefficients cols ρ b
  | _ => True

theorem Access.coefficients {I : Kernel.Info} {fs : Nat → Nat} {cols q : Nat} (ρ : Nat → Option Nat) :
    ∀ e : Expr R, Access I fs cols q ρ e → Coefficients cols ρ e
  | .lit _, _ => trivial
  | .var _ _, _ => trivial
  | .input _ _, h => h
  | .const _, _ => trivial
  | .weight _, _ => trivial
  | .table4 .., _ => trivial
  | .table1 .., _ => trivial
  | .normal .., _ => trivial
  | .op _ a b, h => ⟨Access.coefficients ρ a h.1, Access.coefficients ρ b h.2⟩

/-- The same data, with other coefficients out of range. -/
structure SameInput (U : Values R) (f g : Nat → Nat → R) (cols : Nat) : Prop where
  other : ∀ a k, a ≠ 0 → f a k = g a k
  input : ∀ k < cols, f 0 k = g 0 k

theorem eval_input {U : Values R} {f g : Nat → Nat → R} {cols : Nat} (h : SameInput U f g cols) (tdim : Nat) (sc : Scope R) (iq : Option Nat)
    (env : Env R) (ρ : Nat → Option Nat) : ∀ e : Expr R, Coefficients cols ρ e →
      eval { U with input := f } tdim sc iq env ρ e = eval { U with input := g } tdim sc iq env ρ e
  | .lit _, _ => rfl
  | .var _ _, _ => rfl
  | .input a k, hc => by
    rw [eval, eval]
    rcases hk : k.val ρ with _ | n
    · rfl
    · rw [Option.map_some, Option.map_some]
      by_cases h0 : a = 0
      · subst h0
        exact congrArg some (h.input n (hc rfl n hk))
      · exact congrArg some (h.other a n h0)
  | .const _, _ => rfl
  | .weight _, _ => rfl
  | .table4 .., _ => rfl
  | .table1 .., _ => rfl
  | .normal .., _ => rfl
  | .op _ a b, hc => by
    rw [eval, eval, eval_input h tdim sc iq env ρ a hc.1, eval_input h tdim sc iq env ρ b hc.2]

theorem exec_input [Add R] {U : Values R} {f g : Nat → Nat → R} {cols : Nat} (h : SameInput U f g cols) (tdim : Nat) (iq : Option Nat) :
    ∀ (ss : List (Kernel.Stmt R)), (∀ c, Kernel.Stmt.code c ∈ ss → Each (Coefficients cols) c noLoop) → ∀ sc env A,
      Kernel.exec { U with input := f } tdim iq ss sc env A = Kernel.exec { U with input := g } tdim iq ss sc env A
  | [], _, _, _, _ => rfl
  | s :: ss, hc, sc, env, A => by
    have ih := exec_input h tdim iq ss fun c hm => hc c (List.mem_cons_of_mem _ hm)
    cases s with
    | code c =>
      rw [Kernel.exec, Kernel.exec, exec_congr c noLoop (Each.mono (fun ρ e he env => eval_input h tdim sc iq env ρ e he) c _
        (hc c (List.mem_cons_self ..)))]
      congr 1
      funext x
      exact ih sc x.1 x.2
    | brk => rfl
    | _ => exact ih _ env A

theorem iterate_input [Add R] {U : Values R} {f g : Nat → Nat → R} {cols : Nat} (h : SameInput U f g cols) (tdim : Nat)
    (ss : List (Kernel.Stmt R)) (hc : ∀ c, Kernel.Stmt.code c ∈ ss → Each (Coefficients cols) c noLoop) (sc : Scope R) :
    ∀ (n k : Nat) env A, iterate { U with input := f } tdim ss sc n k env A = iterate { U with input := g } tdim ss sc n k env A
  | 0, _, _, _ => rfl
  | n + 1, k, env, A => by
    rw [iterate, iterate, exec_input h tdim (some k) ss hc]
    split
    · rfl
    · rfl
    · exact iterate_input h tdim ss hc sc n (k + 1) _ _

theorem run_input [Add R] {U : Values R} {f g : Nat → Nat → R} {cols : Nat} (h : SameInput U f g cols) (tdim : Nat) :
    ∀ (ls : List (Loop R)), (∀ l ∈ ls, ∀ c, Kernel.Stmt.code c ∈ l.pre ++ l.body → Each (Coefficients cols) c noLoop) → ∀ sc env A,
      run { U with input := f } tdim ls sc env A = run { U with input := g } tdim ls sc env A
  | [], _, _, _, _ => rfl
  | l :: ls, hc, sc, env, A => by
    have h1 := hc l (List.mem_cons_self ..)
    have ih := run_input h tdim ls fun l hl => hc l (List.mem_cons_of_mem _ hl)
    rw [run, run, exec_input h tdim none l.pre fun c hm => h1 c (List.mem_append_left _ hm)]
    split
    · next sc' env' A' _ =>
      have h2 := iterate_input h tdim l.body (fun c hm => h1 c (List.mem_append_right _ hm)) sc'
      simp only [h2, ih]
    · rfl

/-! ### The properties -/

/-- The data of FFCx for an entity: the static arrays and the coefficients given to the packer. -/
def standard (S : Scalars K R) (U : Values R) (i : Pack.Input K) (e : Nat) : Values R :=
  { U with input := fun a k => if a = 0 then (coefficient S i e k).getD (U.input 0 k) else U.input a k }

theorem call_custom [Add R] [DecidableEq P] (toNat : K → Nat) (S : Scalars K R) {B : Basix P K} {I : Kernel.Info} {mixed : Bool}
    {tables : List (List (Table P))} {i : Pack.Input K} (L : Linked B I mixed tables i) (hi : i.Ok) {first : Loop R} {rest : List (Loop R)}
    {setup more : List (Kernel.Stmt R)} {ws ts : List Nat} (h : Kernel.Shape I first rest setup ws ts more)
    (ha : ∀ l ∈ first :: rest, Allowed I (count tables) i.cols l.quad (first.pre ++ l.body)) (mem : List (Slot K)) {e j : Nat}
    (hj : j < i.custom.length)
    (hin : ∀ k < i.cols, ∃ x, coefficient S i e k = some x ∧
      (readNums mem (i.rowPos e + k * i.types.ratio) i.types.ratio).map S.scalar = some x)
    (hk : i.run toNat mem e = some (.custom (i.quads.map fun q => q.entity j)))
    {st : Tables.State P K} (hst : Tables.Reachable B st) (U : Values R) (A : Nat → R) :
    call toNat S B I mixed tables (first :: rest) i.types i.cols mem (i.rowPos e) st U A =
      ideal (exact S U B I mixed tables i e j) I first.pre (first :: rest) A := by
  obtain ⟨st', h1, h2⟩ := tables_ok L hi hj hst
  obtain ⟨h3, h4⟩ := same_custom S (e := e) L hi U mem hin h2
  rw [call, L.shapes_eq, show kernel toNat i.types i.cols (i.quads.map Quad.shape) mem (i.rowPos e) = _ from hk, Option.bind_some]
  simp only [h1, Option.bind_some]
  rw [C75_custom _ I first rest h]
  refine ideal_same first.pre (first :: rest) ?_ ha (fun l _ => h3 l.quad) (fun l hl iq hiq => h4 l.quad iq hiq (h.quads l hl)) A
  intro l hl c hc
  rcases List.mem_append.1 hc with hc | hc
  · rw [h.pre] at hc
    simp only [List.mem_append, List.mem_cons, List.mem_map, reduceCtorEq, and_false, exists_const, or_self, false_or] at hc
    rcases hc with hc | hc
    · exact (h.setup _ hc).1
    · exact (h.more _ hc).1
  · exact h.body l hl _ hc

theorem call_standard [Add R] [DecidableEq P] (toNat : K → Nat) (S : Scalars K R) {B : Basix P K} {I : Kernel.Info} {mixed : Bool}
    {tables : List (List (Table P))} {i : Pack.Input K} (L : Linked B I mixed tables i) {first : Loop R} {rest : List (Loop R)}
    {setup more : List (Kernel.Stmt R)} {ws ts : List Nat} (h : Kernel.Shape I first rest setup ws ts more)
    (hf : ∀ l ∈ first :: rest, ∃ n, l.bound = .fixed n) (hl : ∀ l ∈ first :: rest, Local l.body)
    (ha : ∀ l ∈ first :: rest, Allowed I (count tables) i.cols l.quad (first.pre ++ l.body)) (mem : List (Slot K)) {e : Nat}
    (hin : ∀ k < i.cols, ∃ x, coefficient S i e k = some x ∧
      (readNums mem (i.rowPos e + k * i.types.ratio) i.types.ratio).map S.scalar = some x)
    (hk : i.run toNat mem e = some .standard) (st : Tables.State P K) (U : Values R) {A A' : Nat → R}
    (hr : run (standard S U i e) I.tdim ((first :: rest).map (skip I)) .empty [] A = some A') :
    call toNat S B I mixed tables (first :: rest) i.types i.cols mem (i.rowPos e) st U A = some A' := by
  rw [call, L.shapes_eq, show kernel toNat i.types i.cols (i.quads.map Quad.shape) mem (i.rowPos e) = _ from hk, Option.bind_some]
  refine C75_original _ I first rest h hf hl ?_
  rw [← hr]
  refine run_input (cols := i.cols) (g := (standard S U i e).input) ⟨?_, ?_⟩ I.tdim _ ?_ _ _ A
  · intro a k h0
    simp [values, standard, h0]
  · intro k hk
    obtain ⟨x, h1, h2⟩ := hin k hk
    simp only [values, standard, if_true, h1, h2, Option.getD_some]
  · intro l hl c hc
    obtain ⟨l', hl', rfl⟩ := List.mem_map.1 hl
    have hb : (skip I l').body = l'.body ∧ (skip I l').pre = l'.pre := by unfold skip; split <;> exact ⟨rfl, rfl⟩
    rw [hb.1, hb.2] at hc
    refine Each.mono (fun ρ e he => Access.coefficients ρ e he) c _ (ha l' hl' c ?_)
    rcases List.mem_append.1 hc with hc | hc
    · rcases List.mem_cons.1 hl' with rfl | hl'
      · exact List.mem_append_left _ hc
      · rw [h.between l' hl'] at hc; simp at hc
    · exact List.mem_append_right _ hc

/-- **C87** (cells and exterior facets): packing the coefficients succeeds; then, in every thread and whatever was executed before, the
generated function adds to the element tensor of a cut entity what the kernel of FFCx would with the quadrature, the functions at the
points, the normals and the coefficients of that entity; it adds nothing in an empty one; and in the others it adds what the kernel of
FFCx does, without the integrals over unfitted boundaries. Values of memory where nothing was stored do not matter (`U`). -/
theorem C87_entity [Add R] [NatCast K] [DecidableEq P] (toNat : K → Nat) (hn : ∀ n : Nat, toNat (n : K) = n) (S : Scalars K R) (B : Basix P K)
    (I : Kernel.Info) (mixed : Bool) (tables : List (List (Table P))) (i : Pack.Input K) (hi : i.Ok) (L : Linked B I mixed tables i)
    (hint : i.interior = false) (first : Loop R) (rest : List (Loop R)) {setup more : List (Kernel.Stmt R)}
    {ws ts : List Nat} (h : Kernel.Shape I first rest setup ws ts more)
    (ha : ∀ l ∈ first :: rest, Allowed I (count tables) i.cols l.quad (first.pre ++ l.body)) :
    ∃ mem, pack i = some mem ∧ ∀ e, e < i.n → ∀ st, Tables.Reachable B st → ∀ (U : Values R) (A : Nat → R),
      let result := call toNat S B I mixed tables (first :: rest) i.types i.cols mem (i.rowPos e) st U A
      (∀ j, i.custom[j]? = some e → result = ideal (exact S U B I mixed tables i e j) I first.pre (first :: rest) A) ∧
      (e ∈ i.empty → result = some A) ∧
      (e ∉ i.custom → e ∉ i.empty → (∀ l ∈ first :: rest, ∃ n, l.bound = .fixed n) → (∀ l ∈ first :: rest, Local l.body) →
        ∀ A', run (standard S U i e) I.tdim ((first :: rest).map (skip I)) .empty [] A = some A' → result = some A') := by
  obtain ⟨mem, h1, h2, h3⟩ := C67_kernel toNat hn i hi hint
  refine ⟨mem, h1, fun e he st hst U A => ?_⟩
  obtain ⟨k1, k2, k3⟩ := h3 e he
  have hrow : i.row e = e := by simp [Input.row, hint]
  have hin : ∀ k < i.cols, ∃ x, coefficient S i e k = some x ∧
      (readNums mem (i.rowPos e + k * i.types.ratio) i.types.ratio).map S.scalar = some x := by
    intro k hk
    have hel : e < i.old.length := by rw [hi.old_rows]; simpa [Input.rows, hint] using he
    have hc := hi.old_cols _ (List.getElem_mem hel)
    have hk1 := Nat.mul_le_mul_right i.types.ratio (show k + 1 ≤ i.cols from hk)
    have hk2 : (k + 1) * i.types.ratio = k * i.types.ratio + i.types.ratio := by rw [Nat.add_mul, Nat.one_mul]
    have hl : (((i.old[e]).drop (k * i.types.ratio)).take i.types.ratio).length = i.types.ratio := by
      rw [List.length_take, List.length_drop, hc]
      omega
    refine ⟨S.scalar (((i.old[e]).drop (k * i.types.ratio)).take i.types.ratio), ?_, ?_⟩
    · rw [coefficient, hrow, List.getElem?_eq_getElem hel, Option.bind_some, if_pos (by rw [hc]; exact hk1)]
    · rw [readNums_spec ?_ hl, Option.map_some]
      intro m hm
      rw [List.length_map, hl] at hm
      rw [Pack.rowPos_eq, hrow, Nat.add_assoc]
      have := h2 e (k * i.types.ratio + m) _ ((i.old[e])[k * i.types.ratio + m]'(by omega)) (List.getElem?_eq_getElem hel)
        (List.getElem?_eq_getElem (by omega))
      rw [this]
      simp [hm]
  refine ⟨?_, ?_, ?_⟩
  · intro j hj
    exact call_custom toNat S L hi h ha mem (List.getElem?_eq_some_iff.1 hj).1 hin (k1 j hj) hst U A
  · intro hem
    show call toNat S B I mixed tables (first :: rest) i.types i.cols mem (i.rowPos e) st U A = some A
    rw [call, L.shapes_eq, show kernel toNat i.types i.cols (i.quads.map Quad.shape) mem (i.rowPos e) = _ from k2 hem, Option.bind_some]
  · intro hc hem hf hl A' hr'
    exact call_standard toNat S L h hf hl ha mem hin (k3 hc hem) st U hr'

/-- **C87** (interior facets): the same without coefficients, if there are no empty facets (see `C67_interior_coefficients_fail` and
`C67_interior_empty_fails`). -/
theorem C87_interior_partial [Add R] [NatCast K] [DecidableEq P] (toNat : K → Nat) (hn : ∀ n : Nat, toNat (n : K) = n) (S : Scalars K R) (B : Basix P K)
    (I : Kernel.Info) (mixed : Bool) (tables : List (List (Table P))) (i : Pack.Input K) (hi : i.Ok) (L : Linked B I mixed tables i)
    (hcols : i.cols = 0) (hemp : i.empty = []) (first : Loop R) (rest : List (Loop R)) {setup more : List (Kernel.Stmt R)}
    {ws ts : List Nat} (h : Kernel.Shape I first rest setup ws ts more)
    (ha : ∀ l ∈ first :: rest, Allowed I (count tables) i.cols l.quad (first.pre ++ l.body)) :
    ∃ mem, pack i = some mem ∧ ∀ e, e < i.n → ∀ st, Tables.Reachable B st → ∀ (U : Values R) (A : Nat → R),
      let result := call toNat S B I mixed tables (first :: rest) i.types i.cols mem (i.rowPos e) st U A
      (∀ j, i.custom[j]? = some e → result = ideal (exact S U B I mixed tables i e j) I first.pre (first :: rest) A) ∧
      (e ∉ i.custom → (∀ l ∈ first :: rest, ∃ n, l.bound = .fixed n) → (∀ l ∈ first :: rest, Local l.body) →
        ∀ A', run (standard S U i e) I.tdim ((first :: rest).map (skip I)) .empty [] A = some A' → result = some A') := by
  obtain ⟨mem, h1, h3⟩ := C67_interior_partial toNat hn i hi hemp
  refine ⟨mem, h1, fun e he st hst U A => ?_⟩
  obtain ⟨k1, k3⟩ := h3 e he
  have hin : ∀ k < i.cols, ∃ x, coefficient S i e k = some x ∧
      (readNums mem (i.rowPos e + k * i.types.ratio) i.types.ratio).map S.scalar = some x := by
    intro k hk
    omega
  refine ⟨?_, ?_⟩
  · intro j hj
    exact call_custom toNat S L hi h ha mem (List.getElem?_eq_some_iff.1 hj).1 hin (k1 j hj) hst U A
  · intro hc hf hl A' hr'
    exact call_standard toNat S L h hf hl ha mem hin (k3 hc) st U hr'

/-- **C87**: for the simplest kernels, what is added is the sum over the points: a loop over `q` in which `e` is added to an entry. -/
theorem C87_sum [AddCommMonoid R] (D : Values R) (I : Kernel.Info) (l : Loop R) (k : Nat) (e : Expr R)
    (hb : l.body = [.code (.accum (.lit k) e)]) (f : Nat → R)
    (he : ∀ iq < D.points l.quad, idealEval D I l.quad iq [] noLoop e = some (f iq)) (A : Nat → R) :
    ideal D I [] [l] A = some (Function.update A k (A k + ((List.range (D.points l.quad)).map f).sum)) := by
  have key : ∀ (n s : Nat) (A : Nat → R), (∀ iq, iq < s + n → idealEval D I l.quad iq [] noLoop e = some (f iq)) →
      idealLoop D I l.quad l.body n s A = some (Function.update A k (A k + ((List.range n).map fun m => f (s + m)).sum)) := by
    intro n
    induction n with
    | zero => intro s A _; simp [idealLoop]
    | succ n ih =>
      intro s A h
      rw [idealLoop]
      have h1 : idealExec D I l.quad s l.body [] A = some ([], Function.update A k (A k + f s)) := by
        rw [hb, idealExec, Code.exec, h s (by omega)]
        rfl
      rw [h1]
      simp only
      rw [ih (s + 1) _ fun iq hiq => h iq (by omega)]
      congr 1
      rw [List.range_succ_eq_map, List.map_cons, List.sum_cons, List.map_map, Function.update_self, Function.update_idem]
      congr 1
      rw [add_assoc, Nat.add_zero]
      congr 3
      refine List.map_congr_left fun m _ => ?_
      show f (s + 1 + m) = f (s + (m + 1))
      congr 1
      omega
  rw [ideal, List.nil_append, key _ 0 A fun iq hiq => he iq (by omega)]
  simp [ideal]

/-! ### Examples -/

/-- Three cells with a coefficient, in dimension 1: cell 1 is cut and has two points, cell 0 is empty. -/
def inputEx : Pack.Input Nat where
  types := ⟨1, 1⟩
  n := 3
  interior := false
  cols := 1
  old := [[7], [5], [3]]
  custom := [1]
  empty := [0]
  quads := [{ gdim := 1, nPts := [2], points := [2, 3], weights := [10, 20] }]

def infoEx : Kernel.Info where
  tables := [0]
  constant _ := false
  permuted _ := false
  quadOf _ := 0
  quads := [0]
  boundary _ := false
  interior := false
  normals := []
  tdim := 1

/-- `for ic < 2: A[ic] += weights[iq] * FE[0][0][iq][ic] * w[0]`. -/
def loopEx : Loop Nat where
  quad := 0
  pre := [.marker, .declWeights 0, .declTable 0]
  bound := .fixed 1
  body := [.code (.loop 0 2 (.accum (.var 0) (.op (· * ·) (.weight 0) (.op (· * ·) (.table4 0 none 0 none (.var 0)) (.input 0 (.lit 0))))))]

def valuesEx : Values Nat where
  const _ := 0
  input _ _ := 0
  staticWeight _ _ := 1
  staticTable _ _ _ _ d := 100 + d
  weight _ _ := 0
  table _ _ _ _ := 0
  normals _ _ := 0
  points _ := 0

/-- Real scalars. -/
def realEx : Scalars Nat Nat := ⟨id, fun l => l.headD 0⟩

theorem inputEx_ok : inputEx.Ok := by
  refine ⟨⟨.inl rfl, .inl rfl⟩, rfl, by decide, by decide, by decide, by decide, by decide, ?_⟩
  intro q hq
  obtain rfl := List.mem_singleton.1 hq
  exact ⟨rfl, rfl, by simp, by simp, rfl, by simp⟩

theorem linkedEx : Linked exampleBasix infoEx false [[exampleTable 0]] inputEx where
  names := by decide
  length := rfl
  shapes := rfl
  interior := rfl
  known := by
    rintro m q ts hm ht x hx
    rcases m with _ | m
    · simp only [List.getElem?_cons_zero, Option.some.injEq, infoEx] at hm ht
      subst hm ht
      obtain rfl := List.mem_singleton.1 hx
      exact ⟨rfl, rfl, rfl⟩
    · simp at ht
  all := by
    intro t ht
    obtain rfl := List.mem_singleton.1 ht
    exact ⟨exampleTable 0, by simp, rfl⟩
  distinct := by decide
  wellFormed := (exampleQuad_ok 0 []).tables
  dims := by
    intro x hx _
    simp only [List.flatten_cons, List.flatten_nil, List.append_nil, List.mem_singleton] at hx
    subst hx
    exact .inl rfl
  one := by
    intro m m' ts ts' h1 h2 _ _
    have h3 := (List.getElem?_eq_some_iff.1 h1).1
    have h4 := (List.getElem?_eq_some_iff.1 h2).1
    simp only [List.length_singleton] at h3 h4
    omega

theorem shapeEx : Kernel.Shape infoEx loopEx [] [] [0] [0] [] where
  pre := rfl
  setup := by simp
  more := by simp
  tables := by simp
  between := by simp
  body := by simp [loopEx, IsBody, FromFFCx, Code.All, infoEx]
  quads := by simp [loopEx, infoEx]

theorem allowedEx : ∀ l ∈ [loopEx], Allowed infoEx (count [[exampleTable 0]]) inputEx.cols l.quad (loopEx.pre ++ l.body) := by
  intro l hl c hc
  obtain rfl := List.mem_singleton.1 hl
  simp only [loopEx, List.cons_append, List.nil_append, List.mem_cons, reduceCtorEq, Kernel.Stmt.code.injEq, List.not_mem_nil, or_false,
    false_or] at hc
  subst hc
  intro k hk
  refine ⟨rfl, ?_, ?_⟩
  · intro _
    refine ⟨rfl, rfl, by simp, ?_⟩
    intro n hn
    simp only [Idx.val, Function.update_self, Option.some.injEq] at hn
    subst hn
    exact hk
  · intro _ n hn
    simp only [Idx.val, Option.some.injEq] at hn
    subst hn
    exact Nat.zero_lt_one

example : Local loopEx.body := by unfold Local; decide +kernel

/-- In the cut cell: `10 · 2 · 5 + 20 · 3 · 5` and `10 · 2² · 5 + 20 · 3² · 5`. -/
example : ((pack inputEx).bind fun mem => call id realEx exampleBasix infoEx false [[exampleTable 0]] [loopEx] inputEx.types 1 mem (inputEx.rowPos 1)
    exampleStart valuesEx (fun _ => 1)).map (fun A => (A 0, A 1, A 2)) = some (1 + 400, 1 + 1100, 1) := by decide +kernel

/-- In the empty cell and in the other. -/
example : ((pack inputEx).bind fun mem => call id realEx exampleBasix infoEx false [[exampleTable 0]] [loopEx] inputEx.types 1 mem (inputEx.rowPos 0)
    exampleStart valuesEx (fun _ => 1)).map (fun A => (A 0, A 1, A 2)) = some (1, 1, 1) := by decide +kernel

example : ((pack inputEx).bind fun mem => call id realEx exampleBasix infoEx false [[exampleTable 0]] [loopEx] inputEx.types 1 mem (inputEx.rowPos 2)
    exampleStart valuesEx (fun _ => 1)).map (fun A => (A 0, A 1, A 2)) = some (1 + 300, 1 + 303, 1) := by decide +kernel

/-- The theorem for this integral. -/
example : ∃ mem, pack inputEx = some mem ∧ ∀ A, call id realEx exampleBasix infoEx false [[exampleTable 0]] [loopEx] inputEx.types 1 mem
    (inputEx.rowPos 1) exampleStart valuesEx A = ideal (exact realEx valuesEx exampleBasix infoEx false [[exampleTable 0]] inputEx 1 0) infoEx
      loopEx.pre [loopEx] A := by
  obtain ⟨mem, h1, h2⟩ := C87_entity id (fun _ => rfl) realEx exampleBasix infoEx false [[exampleTable 0]] inputEx inputEx_ok linkedEx rfl
    loopEx [] shapeEx allowedEx
  exact ⟨mem, h1, fun A => (h2 1 (by decide) exampleStart (.start _ _) valuesEx A).1 0 rfl⟩

/-- The same with complex coefficients `7 + 2i`, `5 + i`, `3 + 4i` (here `a + bi` is written as `a + 1000 b`). -/
def inputEx1 : Pack.Input Nat := { inputEx with types := ⟨2, 1⟩, old := [[7, 2], [5, 1], [3, 4]] }

def complexEx : Scalars Nat Nat := ⟨id, fun l => l.getD 0 0 + 1000 * l.getD 1 0⟩

example : ((pack inputEx1).bind fun mem => call id complexEx exampleBasix infoEx false [[exampleTable 0]] [loopEx] inputEx1.types 1 mem
    (inputEx1.rowPos 1) exampleStart valuesEx (fun _ => 1)).map (fun A => (A 0, A 1, A 2)) = some (1 + 80 * 1005, 1 + 220 * 1005, 1) := by
  decide +kernel

example : ((pack inputEx1).bind fun mem => call id complexEx exampleBasix infoEx false [[exampleTable 0]] [loopEx] inputEx1.types 1 mem
    (inputEx1.rowPos 2) exampleStart valuesEx (fun _ => 1)).map (fun A => (A 0, A 1, A 2)) = some (1 + 100 * 4003, 1 + 101 * 4003, 1) := by
  decide +kernel

/-- An interior facet with one point, 2 in the first cell and 3 in the second. -/
def inputEx2 : Pack.Input Nat where
  types := ⟨1, 1⟩
  n := 1
  interior := true
  cols := 0
  old := [[], []]
  custom := [0]
  empty := []
  quads := [{ gdim := 1, nPts := [1], points := [2], side1 := some [3], weights := [10] }]

def infoEx2 : Kernel.Info := { infoEx with interior := true, permuted := fun _ => true }

def tableEx2 : Table Nat := { exampleTable 0 with perms := 2 }

/-- `A[0] += weights[iq] * FE[p0][..][iq][0]; A[1] += weights[iq] * FE[p1][..][iq][1]`. -/
def loopEx2 : Loop Nat := { loopEx with
  body := [.code (.accum (.lit 0) (.op (· * ·) (.weight 0) (.table4 0 (some 0) 0 none (.lit 0)))),
    .code (.accum (.lit 1) (.op (· * ·) (.weight 0) (.table4 0 (some 1) 1 none (.lit 1))))] }

theorem inputEx2_ok : inputEx2.Ok := by
  refine ⟨⟨.inl rfl, .inl rfl⟩, rfl, by decide, by decide, by decide, by decide, by decide, ?_⟩
  intro q hq
  obtain rfl := List.mem_singleton.1 hq
  exact ⟨rfl, rfl, by simp, by simp, rfl, by simp⟩

theorem linkedEx2 : Linked exampleBasix infoEx2 false [[tableEx2]] inputEx2 where
  names := by decide
  length := rfl
  shapes := rfl
  interior := rfl
  known := by
    rintro m q ts hm ht x hx
    rcases m with _ | m
    · simp only [List.getElem?_cons_zero, Option.some.injEq, infoEx2, infoEx] at hm ht
      subst hm ht
      obtain rfl := List.mem_singleton.1 hx
      exact ⟨rfl, rfl, rfl⟩
    · simp at ht
  all := by
    intro t ht
    obtain rfl := List.mem_singleton.1 ht
    exact ⟨tableEx2, by simp, rfl⟩
  distinct := by decide
  wellFormed := by
    intro x hx _
    simp only [List.flatten_cons, List.flatten_nil, List.append_nil, List.mem_singleton] at hx
    subst hx
    exact ⟨.plain 0, ⟨0, 0, rfl, by decide, rfl, rfl, rfl⟩, Nat.le_refl 1, show 1 ≤ 3 by decide, rfl⟩
  dims := by
    intro x hx _
    simp only [List.flatten_cons, List.flatten_nil, List.append_nil, List.mem_singleton] at hx
    subst hx
    exact .inl rfl
  one := by
    intro m m' ts ts' h1 h2 _ _
    have h3 := (List.getElem?_eq_some_iff.1 h1).1
    have h4 := (List.getElem?_eq_some_iff.1 h2).1
    simp only [List.length_singleton] at h3 h4
    omega

theorem shapeEx2 : Kernel.Shape infoEx2 loopEx2 [] [] [0] [0] [] where
  pre := rfl
  setup := by simp
  more := by simp
  tables := by simp
  between := by simp
  body := by simp [loopEx2, IsBody, FromFFCx, Code.All, infoEx2, infoEx]
  quads := by simp [loopEx2, loopEx, infoEx2, infoEx]

theorem allowedEx2 : ∀ l ∈ [loopEx2], Allowed infoEx2 (count [[tableEx2]]) inputEx2.cols l.quad (loopEx2.pre ++ l.body) := by
  intro l hl c hc
  obtain rfl := List.mem_singleton.1 hl
  simp only [loopEx2, loopEx, List.cons_append, List.nil_append, List.mem_cons, reduceCtorEq, Kernel.Stmt.code.injEq, List.not_mem_nil,
    or_false, false_or] at hc
  rcases hc with rfl | rfl
  · refine ⟨rfl, fun _ => ⟨rfl, rfl, by simp, ?_⟩⟩
    intro n hn
    simp only [Idx.val, Option.some.injEq] at hn
    subst hn
    decide
  · refine ⟨rfl, fun _ => ⟨rfl, rfl, by simp, ?_⟩⟩
    intro n hn
    simp only [Idx.val, Option.some.injEq] at hn
    subst hn
    decide

/-- `10 · 2` with the function of the first side, `10 · 3²` with that of the second. -/
example : ((pack inputEx2).bind fun mem => call id realEx exampleBasix infoEx2 false [[tableEx2]] [loopEx2] inputEx2.types 0 mem (inputEx2.rowPos 0)
    exampleStart valuesEx (fun _ => 1)).map (fun A => (A 0, A 1)) = some (1 + 20, 1 + 90) := by decide +kernel

example : ∃ mem, pack inputEx2 = some mem ∧ ∀ A, call id realEx exampleBasix infoEx2 false [[tableEx2]] [loopEx2] inputEx2.types 0 mem
    (inputEx2.rowPos 0) exampleStart valuesEx A = ideal (exact realEx valuesEx exampleBasix infoEx2 false [[tableEx2]] inputEx2 0 0) infoEx2
      loopEx2.pre [loopEx2] A := by
  obtain ⟨mem, h1, h2⟩ := C87_interior_partial id (fun _ => rfl) realEx exampleBasix infoEx2 false [[tableEx2]] inputEx2 inputEx2_ok linkedEx2 rfl rfl
    loopEx2 [] shapeEx2 allowedEx2
  exact ⟨mem, h1, fun A => (h2 0 (by decide) exampleStart (.start _ _) valuesEx A).1 0 rfl⟩

end Qugar.Py.Assemble
