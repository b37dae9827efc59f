import Verif.Model.PyKernel
import Mathlib.Data.List.Induction
import Mathlib.Data.List.TakeDrop
import Mathlib.Tactic.Ring
import Mathlib.Data.Int.Notation
/-
C75: the two variants of a kernel compute what they should.
-/
namespace Qugar.Py.Kernel

/-! ### Specification -/

/-- Brackets match in the text. -/
inductive Balanced (op cl : Char) : List Char → Prop
  | nil : Balanced op cl []
  | char {ch : Char} {t : List Char} : ch ≠ op → ch ≠ cl → Balanced op cl t → Balanced op cl (ch :: t)
  | pair {t t' : List Char} : Balanced op cl t → Balanced op cl t' → Balanced op cl (op :: t ++ cl :: t')

section
variable {R : Type}

/-- The value of an expression of FFCx with the custom quadrature: the weights, the functions that depend on the point and, in unfitted
boundaries, the normals, are those of the point `iq` of the quadrature. -/
def idealEval (D : Values R) (I : Info) (q iq : Nat) (env : Env R) (ρ : Nat → Option Nat) : Expr R → Option R
  | .lit r => some r
  | .var x k => (k.val ρ).bind fun j => (env.lookup x).bind fun l => l[j]?
  | .input a k => (k.val ρ).map (D.input a)
  | .const k =>
    match (if I.boundary q then I.normals.find? fun off => off ≤ k && k < off + I.tdim else none) with
    | some off => some (D.normals q (I.tdim * iq + (k - off)))
    | none => some (D.const k)
  | .weight q' => some (D.weight q' iq)
  | .table4 t p e i d =>
    (d.val ρ).map fun d =>
      if I.constant t then D.staticTable t p e (i.getD iq) d else D.table t (if I.two t then p else none) (i.getD iq) d
  | .table1 .. => none
  | .normal .. => none
  | .op f a b =>
    match idealEval D I q iq env ρ a, idealEval D I q iq env ρ b with
    | some x, some y => some (f x y)
    | _, _ => none

/-- Statements of FFCx: computations; declarations of tables and weights have no effect here. -/
def idealExec [Add R] (D : Values R) (I : Info) (q iq : Nat) : List (Stmt R) → Env R → (Nat → R) → Option (Env R × (Nat → R))
  | [], env, A => some (env, A)
  | .code c :: ss, env, A => (c.exec (idealEval D I q iq) noLoop env A).bind fun x => idealExec D I q iq ss x.1 x.2
  | _ :: ss, env, A => idealExec D I q iq ss env A

/-- The sum over the points of a quadrature: at each, the statements before the loops and those of the loop. -/
def idealLoop [Add R] (D : Values R) (I : Info) (q : Nat) (stmts : List (Stmt R)) : Nat → Nat → (Nat → R) → Option (Nat → R)
  | 0, _, A => some A
  | n + 1, k, A =>
    match idealExec D I q k stmts [] A with
    | none => none
    | some (_, A') => idealLoop D I q stmts n (k + 1) A'

/-- What the kernel of a cut entity has to compute: the loops of FFCx, each over the points of its custom quadrature. -/
def ideal [Add R] (D : Values R) (I : Info) (pre : List (Stmt R)) : List (Loop R) → (Nat → R) → Option (Nat → R)
  | [], A => some A
  | l :: ls, A =>
    match idealLoop D I l.quad (pre ++ l.body) (D.points l.quad) 0 A with
    | none => none
    | some A' => ideal D I pre ls A'

/-- Expressions that FFCx generates: known tables and quadratures, permutations used exactly in the tables that have them. -/
def FromFFCx (I : Info) : Expr R → Prop
  | .weight q => q ∈ I.quads
  | .table4 t p _ _ _ => t ∈ I.tables ∧ I.quadOf t ∈ I.quads ∧ (I.interior = true → I.constant t = false → p.isSome = I.permuted t)
  | .table1 .. => False
  | .normal .. => False
  | .op _ a b => FromFFCx I a ∧ FromFFCx I b
  | _ => True

/-- All the expressions of a computation. -/
def Code.All (P : Expr R → Prop) : Code R → Prop
  | .skip => True
  | .seq a b => a.All P ∧ b.All P
  | .decl _ _ e => P e
  | .set _ _ e => P e
  | .accum _ e => P e
  | .block c => c.All P
  | .loop _ _ c => c.All P

/-- Nothing is added to `A`. -/
def Code.NoAccum : Code R → Prop
  | .seq a b => a.NoAccum ∧ b.NoAccum
  | .accum _ _ => False
  | .block c => c.NoAccum
  | .loop _ _ c => c.NoAccum
  | _ => True

/-- Computation of variables only. -/
def IsSetup (I : Info) : Stmt R → Prop
  | .code c => c.All (FromFFCx I) ∧ c.NoAccum
  | _ => False

/-- Computations. -/
def IsBody (I : Info) : Stmt R → Prop
  | .code c => c.All (FromFFCx I)
  | _ => False

/-- The names that a computation has declared at its end, if those declared before are `own`; `none` if it assigns to others. -/
def Code.own : Code R → List Nat → Option (List Nat)
  | .skip, d => some d
  | .seq a b, d => (a.own d).bind b.own
  | .decl x _ _, d => some (x :: d)
  | .set x _ _, d => if x ∈ d then some d else none
  | .accum _ _, d => some d
  | .block c, d => (c.own d).map fun _ => d
  | .loop _ _ c, d => (c.own d).map fun _ => d

/-- The same for statements. -/
def ownAll : List (Stmt R) → List Nat → Option (List Nat)
  | [], d => some d
  | .code c :: ss, d => (c.own d).bind (ownAll ss)
  | _ :: ss, d => ownAll ss d

/-- The statements of a loop only assign to variables that they declare. -/
def Local (body : List (Stmt R)) : Prop := (ownAll body []).isSome = true

/-- The kernels of FFCx: variables, the rules and the tables, more variables; then loops with nothing between them. -/
structure Shape (I : Info) (first : Loop R) (rest : List (Loop R)) (setup : List (Stmt R)) (weights tables : List Nat)
    (more : List (Stmt R)) : Prop where
  pre : first.pre = setup ++ .marker :: (weights.map .declWeights ++ tables.map .declTable ++ more)
  setup : ∀ s ∈ setup, IsSetup I s
  more : ∀ s ∈ more, IsSetup I s
  tables : tables ≠ []
  between : ∀ l ∈ rest, l.pre = []
  body : ∀ l ∈ first :: rest, ∀ s ∈ l.body, IsBody I s
  quads : ∀ l ∈ first :: rest, l.quad ∈ I.quads

/-! ### Proofs: text -/

theorem pairFrom_balanced {op cl : Char} (hne : op ≠ cl) {t : List Char} (h : Balanced op cl t) (rest : List Char) (i start : Nat) (n : Int)
    (hn : 0 < n) : pairFrom op cl (t ++ rest) i start n = pairFrom op cl rest (i + t.length) start n := by
  induction h generalizing i n rest with
  | nil => rfl
  | @char ch t h1 h2 _ ih =>
    rw [List.cons_append, pairFrom, if_neg h1, if_neg h2, ih rest (i + 1) n hn, List.length_cons]
    congr 1
    omega
  | @pair t t' _ _ ih ih' =>
    rw [show op :: t ++ cl :: t' ++ rest = op :: (t ++ (cl :: (t' ++ rest))) by simp, pairFrom, if_pos rfl, if_neg (by omega),
      ih _ _ (n + 1) (by omega), pairFrom, if_neg (Ne.symm hne), if_pos rfl, if_neg (by omega), show n + 1 - 1 = n by omega,
      ih' _ _ n hn]
    congr 1
    simp only [List.length_append, List.length_cons]
    omega

theorem pairFrom_skip {op cl : Char} (t rest : List Char) (h : ∀ ch ∈ t, ch ≠ op ∧ ch ≠ cl) (i start : Nat) (n : Int) :
    pairFrom op cl (t ++ rest) i start n = pairFrom op cl rest (i + t.length) start n := by
  induction t generalizing i with
  | nil => rfl
  | cons ch t ih =>
    have hc := h ch (List.mem_cons_self ..)
    rw [List.cons_append, pairFrom, if_neg hc.1, if_neg hc.2, ih (fun c hc => h c (List.mem_cons_of_mem _ hc)), List.length_cons]
    congr 1
    omega

/-- C75: the first opening bracket is found together with the one that closes it, whatever there is inside and after. -/
theorem C75_brackets {op cl : Char} (hne : op ≠ cl) (before inside after : List Char) (hb : ∀ ch ∈ before, ch ≠ op ∧ ch ≠ cl)
    (hi : Balanced op cl inside) :
    getPairing op cl (before ++ op :: (inside ++ cl :: after)) = some (before.length, before.length + inside.length + 2) := by
  rw [getPairing, pairFrom_skip _ _ hb, pairFrom, if_pos rfl, if_pos rfl, pairFrom_balanced hne hi _ _ _ _ (by omega), pairFrom,
    if_neg (Ne.symm hne), if_pos rfl, if_pos (by omega)]
  simp only [Option.some.injEq, Prod.mk.injEq]
  omega

example : getPairing '{' '}' "for\n{ if (x) { y; } z; } }".toList = some (4, 24) := by decide +kernel

/-- C75: after a closing bracket without its opening one the pair is not found: here the assertion fails although the text has a
pair. -/
theorem C75_brackets_fail : getPairing '{' '}' "} {x}".toList = none := by decide +kernel

/-- What the result of `get_pairing_brackets` is, if any. -/
theorem pairFrom_close {op cl : Char} (text : List Char) (i start : Nat) (n : Int) {a b : Nat} (hn : 0 < n → start < i)
    (h : pairFrom op cl text i start n = some (a, b)) : a + 1 < b ∧ i < b ∧ b ≤ i + text.length ∧ text[b - 1 - i]? = some cl := by
  induction text generalizing i start n with
  | nil => exact absurd h (by simp [pairFrom])
  | cons ch t ih =>
    have lift : ∀ {start' : Nat} {n' : Int}, (0 < n' → start' < i + 1) → pairFrom op cl t (i + 1) start' n' = some (a, b) →
        a + 1 < b ∧ i < b ∧ b ≤ i + (ch :: t).length ∧ (ch :: t)[b - 1 - i]? = some cl := by
      intro start' n' hn' h'
      obtain ⟨h1, h2, h3, h4⟩ := ih (i + 1) start' n' hn' h'
      refine ⟨h1, by omega, by rw [List.length_cons]; omega, ?_⟩
      rw [show b - 1 - i = (b - 1 - (i + 1)) + 1 by omega, List.getElem?_cons_succ]
      exact h4
    rw [pairFrom] at h
    split at h
    · refine lift ?_ h
      intro _
      split
      · omega
      · have := hn (by omega)
        omega
    · split at h
      · next hc =>
        split at h
        · simp only [Option.some.injEq, Prod.mk.injEq] at h
          obtain ⟨rfl, rfl⟩ := h
          have := hn (by omega)
          refine ⟨by omega, by omega, by rw [List.length_cons]; omega, ?_⟩
          rw [show i + 1 - 1 - i = 0 by omega, List.getElem?_cons_zero, hc]
        · exact lift (fun hh => by have := hn (by omega); omega) h
      · exact lift (fun hh => by have := hn hh; omega) h

theorem slice_append_drop (text : List Char) {a b : Nat} (h : a ≤ b) : slice text a b ++ text.drop b = text.drop a := by
  unfold slice
  rw [List.drop_take, show text.drop b = (text.drop a).drop (b - a) by rw [List.drop_drop]; congr 1; omega, List.take_append_drop]

theorem slice_drop (text : List Char) (e a b : Nat) : slice (text.drop e) a b = slice text (e + a) (e + b) := by
  unfold slice
  rw [List.drop_take, List.drop_take, List.drop_drop]
  congr 1
  omega

/-- The headers found are in order, each after the end of the previous loop. -/
def InOrder (text : List Char) : List (Nat × Nat) → Nat → Prop
  | [], ind => ind ≤ text.length
  | (s, e) :: hs, ind => ind ≤ s ∧ s ≤ e ∧ ∀ bo bc, getPairing '{' '}' (text.drop e) = some (bo, bc) → InOrder text hs (e + bc)

/-- C75: splitting the code into loops and rendering it again gives the same code, if no loop is inside of another. -/
theorem C75_round_trip (blank : Char → Bool) (text : List Char) (headers : List (Nat × Nat)) (ind : Nat) (h : InOrder text headers ind)
    {loops : List TextLoop} {post : List Char} (hp : parseLoops blank text headers ind = some (loops, post)) :
    renderLoops loops post = text.drop ind := by
  induction headers generalizing ind loops post with
  | nil =>
    simp only [parseLoops, Option.some.injEq, Prod.mk.injEq] at hp
    obtain ⟨rfl, rfl⟩ := hp
    simp [renderLoops]
  | cons se hs ih =>
    obtain ⟨s, e⟩ := se
    obtain ⟨h1, h2, h3⟩ := h
    rw [parseLoops] at hp
    split at hp
    · simp at hp
    · next bo bc hg =>
      split at hp
      · split at hp
        · simp at hp
        · next loops' post' hp' =>
          simp only [Option.some.injEq, Prod.mk.injEq] at hp
          obtain ⟨rfl, rfl⟩ := hp
          have hr := ih _ (h3 bo bc hg) hp'
          obtain ⟨g1, g2, g3, g4⟩ := pairFrom_close _ _ _ _ (by omega) hg
          rw [List.length_drop] at g3
          rw [List.getElem?_drop] at g4
          have hlast : '}' :: text.drop (e + bc) = text.drop (e + bc - 1) := by
            have hlt : e + bc - 1 < text.length := by omega
            rw [List.drop_eq_getElem_cons hlt, show e + bc - 1 + 1 = e + bc by omega]
            congr 1
            rw [show e + (bc - 1 - 0) = e + bc - 1 by omega, List.getElem?_eq_getElem hlt] at g4
            exact (Option.some.inj g4).symm
          rw [renderLoops] at hr ⊢
          rw [List.flatMap_cons]
          simp only [List.append_assoc, List.cons_append, List.nil_append] at hr ⊢
          rw [hr, hlast, slice_drop, show e + (bc - 1) = e + bc - 1 by omega, slice_append_drop text (by omega),
            show e + (bo + 1) = e + bo + 1 by omega, slice_append_drop text (by omega), slice_append_drop text h1]
      · simp at hp

/-- A loop as it is written: what is before, `for (...)`, the space up to the bracket, and the body. -/
structure Piece where
  before : List Char
  header : List Char
  space : List Char
  body : List Char

/-- The text of a function: loops and what is after them. -/
def assemble (ps : List Piece) (post : List Char) : List Char :=
  (ps.flatMap fun p => p.before ++ p.header ++ p.space ++ '{' :: (p.body ++ ['}'])) ++ post

/-- Where the headers are. -/
def headersOf : List Piece → Nat → List (Nat × Nat)
  | [], _ => []
  | p :: ps, i =>
    (i + p.before.length, i + p.before.length + p.header.length) ::
      headersOf ps (i + p.before.length + p.header.length + p.space.length + p.body.length + 2)

/-- C75: the loops found are those of the text, with all of their bodies, whatever brackets they have inside. -/
theorem C75_loops (blank : Char → Bool) (hbl : blank '{' = false ∧ blank '}' = false) (ps : List Piece) (post done : List Char)
    (hs : ∀ p ∈ ps, p.space.all blank = true) (hb : ∀ p ∈ ps, Balanced '{' '}' p.body) :
    parseLoops blank (done ++ assemble ps post) (headersOf ps done.length) done.length =
      some (ps.map fun p => ⟨p.before, p.header ++ p.space ++ ['{'], p.body⟩, post) := by
  induction ps generalizing done with
  | nil => simp [parseLoops, headersOf, assemble]
  | cons p ps ih =>
    have hp := hs p (List.mem_cons_self ..)
    have hskip : ∀ ch ∈ p.space, ch ≠ '{' ∧ ch ≠ '}' := by
      intro ch hch
      have := List.all_eq_true.1 hp ch hch
      constructor <;> rintro rfl
      · rw [hbl.1] at this; simp at this
      · rw [hbl.2] at this; simp at this
    have htext : done ++ assemble (p :: ps) post =
        done ++ p.before ++ p.header ++ (p.space ++ '{' :: (p.body ++ '}' :: assemble ps post)) := by
      simp [assemble]
    have hdrop : (done ++ assemble (p :: ps) post).drop (done.length + p.before.length + p.header.length) =
        p.space ++ '{' :: (p.body ++ '}' :: assemble ps post) := by
      rw [htext, show done.length + p.before.length + p.header.length = (done ++ p.before ++ p.header).length by
        simp [Nat.add_assoc], List.drop_left]
    have hnext : done.length + p.before.length + p.header.length + (p.space.length + p.body.length + 2) =
        (done ++ p.before ++ p.header ++ p.space ++ '{' :: (p.body ++ ['}'])).length := by
      simp only [List.length_append, List.length_cons, List.length_nil]
      omega
    have htext' : done ++ assemble (p :: ps) post =
        (done ++ p.before ++ p.header ++ p.space ++ '{' :: (p.body ++ ['}'])) ++ assemble ps post := by
      simp [assemble]
    have hrec := ih (done ++ p.before ++ p.header ++ p.space ++ '{' :: (p.body ++ ['}'])) (fun p hp => hs p (List.mem_cons_of_mem _ hp))
      (fun p hp => hb p (List.mem_cons_of_mem _ hp))
    rw [headersOf, parseLoops, hdrop, C75_brackets (by decide) _ _ _ hskip (hb p (List.mem_cons_self ..))]
    simp only [List.take_left, hp, if_true]
    rw [show done.length + p.before.length + p.header.length + p.space.length + p.body.length + 2 =
      done.length + p.before.length + p.header.length + (p.space.length + p.body.length + 2) by omega, hnext, htext', hrec, ← htext']
    simp only [List.map_cons, Option.some.injEq, Prod.mk.injEq, List.cons.injEq, TextLoop.mk.injEq, and_true]
    refine ⟨?_, ?_, ?_⟩
    · rw [htext, slice, show done ++ p.before ++ p.header ++ (p.space ++ '{' :: (p.body ++ '}' :: assemble ps post)) =
        (done ++ p.before) ++ (p.header ++ (p.space ++ '{' :: (p.body ++ '}' :: assemble ps post))) by simp,
        show done.length + p.before.length = (done ++ p.before).length by simp, List.take_left, List.drop_left]
    · rw [htext, slice, show done ++ p.before ++ p.header ++ (p.space ++ '{' :: (p.body ++ '}' :: assemble ps post)) =
        ((done ++ p.before) ++ (p.header ++ p.space ++ ['{'])) ++ (p.body ++ '}' :: assemble ps post) by simp,
        show done.length + p.before.length + p.header.length + p.space.length + 1 =
          ((done ++ p.before) ++ (p.header ++ p.space ++ ['{'])).length by simp [Nat.add_assoc], List.take_left,
        show done.length + p.before.length = (done ++ p.before).length by simp, List.drop_left]
    · rw [slice, show p.space ++ '{' :: (p.body ++ '}' :: assemble ps post) =
        ((p.space ++ ['{']) ++ p.body) ++ '}' :: assemble ps post by simp,
        show p.space.length + p.body.length + 2 - 1 = ((p.space ++ ['{']) ++ p.body).length by simp; omega, List.take_left,
        show p.space.length + 1 = (p.space ++ ['{']).length by simp, List.drop_left]

/-- C75: a loop over the points inside of another one is not supported: its text is repeated. -/
theorem C75_nested_fails :
    (parseLoops (· == ' ') "f{f{a}b}c".toList [(0, 1), (2, 3)] 0).map (fun r => renderLoops r.1 r.2) = some "f{f{a}b}f{a}b}c".toList := by
  decide +kernel

theorem findPair_eq (a b : Char) (l : List Char) (n : Nat) (h1 : l[n]? = some a) (h2 : l[n + 1]? = some b)
    (h : ∀ m : Nat, m < n → ¬ (l[m]? = some a ∧ l[m + 1]? = some b)) : findPair a b l = some n := by
  induction n generalizing l with
  | zero =>
    match l with
    | [] => simp at h1
    | [x] => simp at h2
    | x :: y :: t =>
      simp only [List.getElem?_cons_zero, List.getElem?_cons_succ, Option.some.injEq] at h1 h2
      rw [findPair, if_pos ⟨h1, h2⟩]
  | succ n ih =>
    match l with
    | [] => simp at h1
    | [x] => simp at h2
    | x :: y :: t =>
      have h0 := h 0 (by omega)
      simp only [List.getElem?_cons_zero, List.getElem?_cons_succ, Option.some.injEq, Nat.zero_add] at h0
      rw [findPair, if_neg h0, ih (y :: t) (by simpa using h1) (by simpa using h2) (fun m hm => by
        have := h (m + 1) (by omega)
        simpa only [List.getElem?_cons_succ] using this)]
      rfl

/-- C75: the function ends at the last bracket that is followed by a new line; one more character than that new line is taken. -/
theorem C75_end (x rest : List Char) (hr : ∀ i : Nat, rest[i]? = some '}' → rest[i + 1]? ≠ some '\n') :
    functionEnd (x ++ '}' :: '\n' :: rest) = some ((x ++ ['}', '\n']).length + 1) := by
  unfold functionEnd
  have hrev : (x ++ '}' :: '\n' :: rest).reverse = rest.reverse ++ '\n' :: '}' :: x.reverse := by simp
  have hat : ∀ m : Nat, m < rest.length → (rest.reverse ++ '\n' :: '}' :: x.reverse)[m]? = rest[rest.length - 1 - m]? := by
    intro m hm
    rw [List.getElem?_append_left (by simpa using hm), List.getElem?_reverse hm]
  rw [hrev, findPair_eq _ _ _ rest.length]
  · simp only [Option.map_some, Option.some.injEq, List.length_append, List.length_cons, List.length_nil]
    omega
  · rw [List.getElem?_append_right (by simp)]
    simp
  · rw [List.getElem?_append_right (by simp)]
    simp
  · rintro m hm ⟨h1, h2⟩
    rw [hat m hm] at h1
    by_cases hm1 : m + 1 < rest.length
    · rw [hat _ hm1] at h2
      refine hr _ h2 ?_
      rw [show rest.length - 1 - (m + 1) + 1 = rest.length - 1 - m by omega]
      exact h1
    · rw [List.getElem?_append_right (by simp; omega)] at h2
      rw [show m + 1 - rest.reverse.length = 0 by simp; omega] at h2
      simp at h2

/-- C75: if the next line is not blank, its first character is taken for a part of the function. -/
example : let text := "{ a }\nint b;".toList
    (functionEnd text).map (fun cb => (text.take cb, text.drop cb)) = some ("{ a }\ni".toList, "nt b;".toList) := by decide +kernel

/-! ### Types -/

/-- C75: the types of C and NumPy: each one is recovered, and complex ones are not accepted where real ones are needed. -/
theorem C75_types (d : DType) : ofC (toC d) = some d ∧ (realOfC (toC d) = some d ↔ d = .float32 ∨ d = .float64) ∧
    ∀ s, ofC s = some d → ∃ s', s' ∈ [toC d, "float32", "float64", "complex float", "complex64", "complex double", "complex128"] ∧ s' = s := by
  refine ⟨by cases d <;> decide +kernel, by cases d <;> decide +kernel, ?_⟩
  intro s hs
  refine ⟨s, ?_, rfl⟩
  unfold ofC at hs
  split at hs
  · next h => cases hs; simp only [List.mem_cons, List.not_mem_nil, or_false] at h; rcases h with rfl | rfl <;> decide +kernel
  · split at hs
    · next h => cases hs; simp only [List.mem_cons, List.not_mem_nil, or_false] at h; rcases h with rfl | rfl <;> decide +kernel
    · split at hs
      · next h => cases hs; simp only [List.mem_cons, List.not_mem_nil, or_false] at h; rcases h with rfl | rfl | rfl <;> decide +kernel
      · split at hs
        · next h => cases hs; simp only [List.mem_cons, List.not_mem_nil, or_false] at h; rcases h with rfl | rfl | rfl <;> decide +kernel
        · simp at hs

/-! ### Computations -/

theorem times_mono {α : Type} {f g : Nat → α → Option α} (h : ∀ k x y, f k x = some y → g k x = some y) {n : Nat} {x y : α}
    (e : times f n x = some y) : times g n x = some y := by
  induction n generalizing y with
  | zero => exact e
  | succ n ih =>
    obtain ⟨z, e1, e2⟩ := Option.bind_eq_some_iff.1 e
    rw [times, ih e1]
    exact h _ _ _ e2

theorem Code.exec_mono [Add R] {ev ev' : Env R → (Nat → Option Nat) → Expr R → Option R} {P : Expr R → Prop}
    (h : ∀ env ρ e r, P e → ev env ρ e = some r → ev' env ρ e = some r) : ∀ (c : Code R) (ρ : Nat → Option Nat) (env : Env R) (A : Nat → R)
    {x : Env R × (Nat → R)}, c.All P → c.exec ev ρ env A = some x → c.exec ev' ρ env A = some x
  | .skip, _, _, _, _, _, e => e
  | .seq a b, ρ, env, A, x, hc, e => by
    obtain ⟨z, e1, e2⟩ := Option.bind_eq_some_iff.1 e
    rw [Code.exec, Code.exec_mono h a ρ env A hc.1 e1]
    exact Code.exec_mono h b ρ _ _ hc.2 e2
  | .decl y n e0, ρ, env, A, x, hc, e => by
    obtain ⟨z, e1, e2⟩ := Option.map_eq_some_iff.1 e
    rw [Code.exec, h _ _ _ _ hc e1]
    exact congrArg some e2
  | .set y k e0, ρ, env, A, x, hc, e => by
    obtain ⟨z, e1, e2⟩ := Option.bind_eq_some_iff.1 e
    rw [Code.exec, h _ _ _ _ hc e1]
    exact e2
  | .accum i e0, ρ, env, A, x, hc, e => by
    obtain ⟨z, e1, e2⟩ := Option.bind_eq_some_iff.1 e
    rw [Code.exec, h _ _ _ _ hc e1]
    exact e2
  | .block c, ρ, env, A, x, hc, e => by
    obtain ⟨z, e1, e2⟩ := Option.map_eq_some_iff.1 e
    rw [Code.exec, Code.exec_mono h c ρ env A hc e1]
    exact congrArg some e2
  | .loop v n c, ρ, env, A, x, hc, e => by
    refine times_mono (fun k y z hk => ?_) e
    obtain ⟨w, e1, e2⟩ := Option.map_eq_some_iff.1 hk
    rw [Code.exec_mono h c _ _ _ hc e1]
    exact congrArg some e2

theorem option_ext {α : Type} {a b : Option α} (h1 : ∀ x, a = some x → b = some x) (h2 : ∀ x, b = some x → a = some x) : a = b := by
  cases a with
  | none => cases b with
    | none => rfl
    | some y => exact h2 y rfl
  | some x => exact (h1 x rfl).symm

theorem Code.exec_congr [Add R] {ev ev' : Env R → (Nat → Option Nat) → Expr R → Option R} {P : Expr R → Prop}
    (h : ∀ env ρ e, P e → ev env ρ e = ev' env ρ e) (c : Code R) (hc : c.All P) (ρ : Nat → Option Nat) (env : Env R) (A : Nat → R) :
    c.exec ev ρ env A = c.exec ev' ρ env A :=
  option_ext (fun _ e => Code.exec_mono (fun env ρ e r hp he => by rw [← h env ρ e hp]; exact he) c ρ env A hc e)
    (fun _ e => Code.exec_mono (fun env ρ e r hp he => by rw [h env ρ e hp]; exact he) c ρ env A hc e)

theorem Code.exec_map [Add R] (ev : Env R → (Nat → Option Nat) → Expr R → Option R) (f : Expr R → Expr R) :
    ∀ (c : Code R) (ρ : Nat → Option Nat) (env : Env R) (A : Nat → R),
      (c.map f).exec ev ρ env A = c.exec (fun env ρ e => ev env ρ (f e)) ρ env A
  | .skip, _, _, _ => rfl
  | .seq a b, ρ, env, A => by
    rw [Code.map, Code.exec, Code.exec, Code.exec_map ev f a]
    cases a.exec (fun env ρ e => ev env ρ (f e)) ρ env A with
    | none => rfl
    | some x => exact Code.exec_map ev f b ρ x.1 x.2
  | .decl .., _, _, _ => rfl
  | .set .., _, _, _ => rfl
  | .accum .., _, _, _ => rfl
  | .block c, ρ, env, A => by rw [Code.map, Code.exec, Code.exec, Code.exec_map ev f c]
  | .loop v n c, ρ, env, A => by
    rw [Code.map, Code.exec, Code.exec]
    refine congrFun (congrFun (congrArg times ?_) n) _
    funext k x
    rw [Code.exec_map ev f c]

/-- Without contributions to `A`, what is computed does not depend on `A`. -/
theorem Code.exec_noAccum [Add R] {ev : Env R → (Nat → Option Nat) → Expr R → Option R} : ∀ (c : Code R) (ρ : Nat → Option Nat) (env : Env R)
    (A B : Nat → R) {env' : Env R} {A' : Nat → R}, c.NoAccum → c.exec ev ρ env A = some (env', A') →
      A' = A ∧ c.exec ev ρ env B = some (env', B)
  | .skip, _, _, _, _, _, _, _, e => by
    obtain ⟨rfl, rfl⟩ := Prod.mk.inj (Option.some.inj e)
    exact ⟨rfl, rfl⟩
  | .seq a b, ρ, env, A, B, env', A', hc, e => by
    obtain ⟨⟨e1, A1⟩, h1, h2⟩ := Option.bind_eq_some_iff.1 e
    obtain ⟨rfl, h3⟩ := Code.exec_noAccum a ρ env A B hc.1 h1
    obtain ⟨rfl, h4⟩ := Code.exec_noAccum b ρ e1 A1 B hc.2 h2
    exact ⟨rfl, by rw [Code.exec, h3]; exact h4⟩
  | .decl y n e0, ρ, env, A, B, env', A', hc, e => by
    obtain ⟨z, h1, h2⟩ := Option.map_eq_some_iff.1 e
    obtain ⟨rfl, rfl⟩ := Prod.mk.inj h2
    exact ⟨rfl, by rw [Code.exec, h1]; rfl⟩
  | .set y k e0, ρ, env, A, B, env', A', hc, e => by
    obtain ⟨z, h1, h2⟩ := Option.bind_eq_some_iff.1 e
    obtain ⟨j, h3, h4⟩ := Option.bind_eq_some_iff.1 h2
    obtain ⟨w, h5, h6⟩ := Option.map_eq_some_iff.1 h4
    obtain ⟨rfl, rfl⟩ := Prod.mk.inj h6
    exact ⟨rfl, by rw [Code.exec, h1, Option.bind_some, h3, Option.bind_some, h5]; rfl⟩
  | .accum .., _, _, _, _, _, _, hc, _ => hc.elim
  | .block c, ρ, env, A, B, env', A', hc, e => by
    obtain ⟨⟨e1, A1⟩, h1, h2⟩ := Option.map_eq_some_iff.1 e
    obtain ⟨rfl, h3⟩ := Code.exec_noAccum c ρ env A B hc h1
    obtain ⟨rfl, rfl⟩ := Prod.mk.inj h2
    exact ⟨rfl, by rw [Code.exec, h3]; rfl⟩
  | .loop v n c, ρ, env, A, B, env', A', hc, e => by
    rw [Code.exec] at e ⊢
    induction n generalizing env' A' with
    | zero =>
      obtain ⟨rfl, rfl⟩ := Prod.mk.inj (Option.some.inj e)
      exact ⟨rfl, rfl⟩
    | succ n ih =>
      obtain ⟨⟨e1, A1⟩, h1, h2⟩ := Option.bind_eq_some_iff.1 e
      obtain ⟨rfl, h3⟩ := ih _ _ hc h1
      obtain ⟨⟨e2, A2⟩, h4, h5⟩ := Option.map_eq_some_iff.1 h2
      obtain ⟨rfl, h6⟩ := Code.exec_noAccum c _ e1 A1 B hc h4
      obtain ⟨rfl, rfl⟩ := Prod.mk.inj h5
      refine ⟨rfl, ?_⟩
      rw [times, h3, Option.bind_some]
      show (c.exec ev _ e1 B).map _ = _
      rw [h6]
      rfl

theorem Code.own_suffix : ∀ (c : Code R) {d d' : List Nat}, c.own d = some d' → ∃ p, d' = p ++ d
  | .skip, _, _, e => ⟨[], (Option.some.inj e).symm⟩
  | .seq a b, d, d', e => by
    obtain ⟨d1, h1, h2⟩ := Option.bind_eq_some_iff.1 e
    obtain ⟨p, rfl⟩ := a.own_suffix h1
    obtain ⟨p', rfl⟩ := b.own_suffix h2
    exact ⟨p' ++ p, by simp⟩
  | .decl x _ _, _, _, e => ⟨[x], (Option.some.inj e).symm⟩
  | .set x _ _, d, d', e => by
    rw [Code.own] at e
    split at e
    · exact ⟨[], (Option.some.inj e).symm⟩
    · cases e
  | .accum _ _, _, _, e => ⟨[], (Option.some.inj e).symm⟩
  | .block c, d, d', e => by
    obtain ⟨_, _, h⟩ := Option.map_eq_some_iff.1 e
    exact ⟨[], h.symm⟩
  | .loop _ _ c, d, d', e => by
    obtain ⟨_, _, h⟩ := Option.map_eq_some_iff.1 e
    exact ⟨[], h.symm⟩

theorem assign_own {x j : Nat} {r : R} : ∀ {loc : Env R} {out env' : Env R}, x ∈ loc.map (·.1) → (loc ++ out).assign x j r = some env' →
    ∃ loc' : Env R, env' = loc' ++ out ∧ loc'.map (·.1) = loc.map (·.1)
  | [], _, _, h, _ => by simp at h
  | (y, l) :: loc, out, env', h, e => by
    rw [List.cons_append, Env.assign] at e
    split at e
    · next hy =>
      split at e
      · exact ⟨(y, l.set j r) :: loc, (Option.some.inj e).symm, rfl⟩
      · cases e
    · next hy =>
      obtain ⟨env1, h1, rfl⟩ := Option.map_eq_some_iff.1 e
      have hx : x ∈ loc.map (·.1) := by
        rcases List.mem_cons.1 h with h | h
        · exact absurd h.symm hy
        · exact h
      obtain ⟨loc', rfl, h2⟩ := assign_own hx h1
      exact ⟨(y, l) :: loc', rfl, by rw [List.map_cons, List.map_cons, h2]⟩

theorem leave_append {env loc' out : Env R} {loc : Env R} {p : List Nat} (h : loc'.map (·.1) = p ++ loc.map (·.1)) (he : env = loc ++ out) :
    ∃ loc2 : Env R, env.leave (loc' ++ out) = loc2 ++ out ∧ loc2.map (·.1) = loc.map (·.1) := by
  subst he
  have hl := congrArg List.length h
  simp only [List.length_map, List.length_append] at hl
  refine ⟨loc'.drop p.length, ?_, ?_⟩
  · unfold Env.leave
    rw [List.length_append, List.length_append, show loc'.length + out.length - (loc.length + out.length) = p.length by omega,
      List.drop_append_of_le_length (by omega)]
  · rw [List.map_drop, h, List.drop_left]

/-- What a computation does to the variables that it does not declare: nothing. -/
theorem Code.exec_own [Add R] {ev : Env R → (Nat → Option Nat) → Expr R → Option R} : ∀ (c : Code R) (ρ : Nat → Option Nat) (loc out : Env R)
    (A : Nat → R) {d' : List Nat} {env' : Env R} {A' : Nat → R}, c.own (loc.map (·.1)) = some d' → c.exec ev ρ (loc ++ out) A = some (env', A') →
      ∃ loc' : Env R, env' = loc' ++ out ∧ loc'.map (·.1) = d'
  | .skip, _, loc, _, _, _, _, _, ho, e => ⟨loc, (Prod.mk.inj (Option.some.inj e)).1.symm, Option.some.inj ho⟩
  | .seq a b, ρ, loc, out, A, d', env', A', ho, e => by
    obtain ⟨d1, o1, o2⟩ := Option.bind_eq_some_iff.1 ho
    obtain ⟨⟨e1, A1⟩, h1, h2⟩ := Option.bind_eq_some_iff.1 e
    obtain ⟨loc1, rfl, rfl⟩ := Code.exec_own a ρ loc out A o1 h1
    exact Code.exec_own b ρ loc1 out A1 o2 h2
  | .decl y n e0, ρ, loc, out, A, d', env', A', ho, e => by
    obtain ⟨z, h1, h2⟩ := Option.map_eq_some_iff.1 e
    obtain ⟨rfl, rfl⟩ := Prod.mk.inj h2
    exact ⟨(y, List.replicate n z) :: loc, rfl, Option.some.inj ho⟩
  | .set y k e0, ρ, loc, out, A, d', env', A', ho, e => by
    obtain ⟨z, h1, h2⟩ := Option.bind_eq_some_iff.1 e
    obtain ⟨j, h3, h4⟩ := Option.bind_eq_some_iff.1 h2
    obtain ⟨w, h5, h6⟩ := Option.map_eq_some_iff.1 h4
    obtain ⟨rfl, rfl⟩ := Prod.mk.inj h6
    rw [Code.own] at ho
    split at ho
    · next hm =>
      obtain ⟨loc', h7, h8⟩ := assign_own hm h5
      exact ⟨loc', h7, h8.trans (Option.some.inj ho)⟩
    · cases ho
  | .accum i e0, ρ, loc, out, A, d', env', A', ho, e => by
    obtain ⟨z, h1, h2⟩ := Option.bind_eq_some_iff.1 e
    obtain ⟨j, h3, h4⟩ := Option.map_eq_some_iff.1 h2
    obtain ⟨rfl, rfl⟩ := Prod.mk.inj h4
    exact ⟨loc, rfl, Option.some.inj ho⟩
  | .block c, ρ, loc, out, A, d', env', A', ho, e => by
    obtain ⟨d1, o1, o2⟩ := Option.map_eq_some_iff.1 ho
    obtain ⟨⟨e1, A1⟩, h1, h2⟩ := Option.map_eq_some_iff.1 e
    obtain ⟨rfl, rfl⟩ := Prod.mk.inj h2
    obtain ⟨loc1, rfl, h3⟩ := Code.exec_own c ρ loc out A o1 h1
    obtain ⟨p, hp⟩ := c.own_suffix o1
    obtain ⟨loc2, h4, h5⟩ := leave_append (h3.trans hp) rfl
    exact ⟨loc2, h4, h5.trans o2⟩
  | .loop v n c, ρ, loc, out, A, d', env', A', ho, e => by
    obtain ⟨d1, o1, o2⟩ := Option.map_eq_some_iff.1 ho
    rw [Code.exec] at e
    rw [← o2]
    clear o2 ho
    induction n generalizing env' A' with
    | zero => exact ⟨loc, (Prod.mk.inj (Option.some.inj e)).1.symm, rfl⟩
    | succ n ih =>
      obtain ⟨⟨e1, A1⟩, h1, h2⟩ := Option.bind_eq_some_iff.1 e
      obtain ⟨loc1, rfl, h3⟩ := ih _ _ h1
      obtain ⟨⟨e2, A2⟩, h4, h5⟩ := Option.map_eq_some_iff.1 h2
      obtain ⟨rfl, rfl⟩ := Prod.mk.inj h5
      obtain ⟨loc2, rfl, h6⟩ := Code.exec_own c _ loc1 out A1 (by rw [h3]; exact o1) h4
      obtain ⟨p, hp⟩ := c.own_suffix o1
      obtain ⟨loc3, h7, h8⟩ := leave_append (loc := loc1) (h6.trans (hp.trans (by rw [h3]))) rfl
      exact ⟨loc3, h7, h8.trans h3⟩

theorem exec_own [Add R] (D : Values R) (tdim : Nat) (iq : Option Nat) : ∀ (ss : List (Stmt R)) (sc : Scope R) (loc out : Env R) (A : Nat → R)
    {d' : List Nat} {sc' : Scope R} {env' : Env R} {A' : Nat → R} {b : Bool}, ownAll ss (loc.map (·.1)) = some d' →
      exec D tdim iq ss sc (loc ++ out) A = some (sc', env', A', b) → ∃ loc' : Env R, env' = loc' ++ out
  | [], sc, loc, out, A, d', sc', env', A', b, ho, e => by
    simp only [exec, Option.some.injEq, Prod.mk.injEq] at e
    exact ⟨loc, e.2.1.symm⟩
  | s :: ss, sc, loc, out, A, d', sc', env', A', b, ho, e => by
    cases s with
    | code c =>
      obtain ⟨d1, o1, o2⟩ := Option.bind_eq_some_iff.1 ho
      rw [exec] at e
      obtain ⟨⟨e1, A1⟩, h1, h2⟩ := Option.bind_eq_some_iff.1 e
      obtain ⟨loc1, rfl, rfl⟩ := Code.exec_own c _ loc out A o1 h1
      exact exec_own D tdim iq ss sc loc1 out A1 o2 h2
    | brk =>
      cases iq with
      | none => simp [exec] at e
      | some k =>
        simp only [exec, Option.some.injEq, Prod.mk.injEq] at e
        exact ⟨loc, e.2.1.symm⟩
    | marker => rw [exec] at e; exact exec_own D tdim iq ss _ loc out A ho e
    | declWeights => rw [exec] at e; exact exec_own D tdim iq ss _ loc out A ho e
    | declTable => rw [exec] at e; exact exec_own D tdim iq ss _ loc out A ho e
    | declDynamic => rw [exec] at e; exact exec_own D tdim iq ss _ loc out A ho e
    | declDynTable => rw [exec] at e; exact exec_own D tdim iq ss _ loc out A ho e

/-- A loop whose statements are `Local` leaves the variables as they were. -/
theorem leave_local [Add R] (D : Values R) (tdim : Nat) (iq : Option Nat) (ss : List (Stmt R)) (h : Local ss) (sc : Scope R) (env : Env R)
    (A : Nat → R) {sc' : Scope R} {env' : Env R} {A' : Nat → R} {b : Bool} (e : exec D tdim iq ss sc env A = some (sc', env', A', b)) :
    env.leave env' = env := by
  obtain ⟨d', hd⟩ := Option.isSome_iff_exists.1 h
  obtain ⟨loc', rfl⟩ := exec_own D tdim iq ss sc [] env A hd e
  unfold Env.leave
  rw [List.length_append, Nat.add_sub_cancel, List.drop_left]

theorem leave_nil (env' : Env R) : Env.leave [] env' = [] := by
  unfold Env.leave
  rw [List.length_nil, Nat.sub_zero, List.drop_length]

/-! ### Kernels -/

/-- What the transformations do to an expression of a loop of the quadrature `q`. -/
def custom (I : Info) (q : Nat) (e : Expr R) : Expr R := if I.boundary q then replaceNormals I q (rewrite I e) else rewrite I e

theorem foldl_replace_op (q : Nat) (f : R → R → R) (l : List (Nat × Nat)) (a b : Expr R) :
    l.foldl (fun e ki => replaceConst q ki.1 ki.2 e) (.op f a b) =
      .op f (l.foldl (fun e ki => replaceConst q ki.1 ki.2 e) a) (l.foldl (fun e ki => replaceConst q ki.1 ki.2 e) b) := by
  induction l generalizing a b with
  | nil => rfl
  | cons x l ih => rw [List.foldl_cons, List.foldl_cons, List.foldl_cons, replaceConst, ih]

theorem foldl_replace_fixed (q : Nat) (l : List (Nat × Nat)) (e : Expr R) (h : ∀ k i, replaceConst q k i e = e) :
    l.foldl (fun e ki => replaceConst q ki.1 ki.2 e) e = e := by
  induction l with
  | nil => rfl
  | cons x l ih => rw [List.foldl_cons, h, ih]

/-- All the replacements, in order. -/
def pairs (I : Info) : List (Nat × Nat) := I.normals.flatMap fun off => (List.range I.tdim).map fun i => (off + i, i)

theorem replaceNormals_eq (I : Info) (q : Nat) (e : Expr R) :
    replaceNormals I q e = (pairs I).foldl (fun e ki => replaceConst q ki.1 ki.2 e) e := by
  unfold replaceNormals pairs
  induction I.normals generalizing e with
  | nil => rfl
  | cons off l ih => rw [List.foldl_cons, List.flatMap_cons, List.foldl_append, ih, List.foldl_map]

theorem replace_range (q off k n : Nat) :
    ((List.range n).map fun i => (off + i, i)).foldl (fun e ki => replaceConst q ki.1 ki.2 e) (.const k : Expr R) =
      if off ≤ k ∧ k < off + n then .normal q (k - off) else .const k := by
  induction n with
  | zero => rw [if_neg (by omega)]; rfl
  | succ n ih =>
    rw [List.range_succ, List.map_append, List.foldl_append, ih]
    by_cases h : off ≤ k ∧ k < off + n
    · rw [if_pos h, if_pos (by omega)]
      rfl
    · rw [if_neg h]
      simp only [List.map_cons, List.map_nil, List.foldl_cons, List.foldl_nil, replaceConst]
      by_cases hk : k = off + n
      · rw [if_pos hk, if_pos (by omega), show k - off = n by omega]
      · rw [if_neg hk, if_neg (by omega)]

theorem replaceNormals_const (I : Info) (q k : Nat) :
    replaceNormals I q (.const k : Expr R) =
      match I.normals.find? (fun off => off ≤ k && k < off + I.tdim) with
      | some off => .normal q (k - off)
      | none => .const k := by
  rw [replaceNormals_eq]
  unfold pairs
  induction I.normals with
  | nil => rfl
  | cons off l ih =>
    rw [List.flatMap_cons, List.foldl_append, replace_range, List.find?_cons]
    by_cases h : off ≤ k ∧ k < off + I.tdim
    · rw [if_pos h, foldl_replace_fixed q _ _ (fun _ _ => rfl)]
      simp [h.1, h.2]
    · rw [if_neg h, ih]
      have : (decide (off ≤ k) && decide (k < off + I.tdim)) = false := by
        simpa using fun h1 => Nat.le_of_not_lt fun h2 => h ⟨h1, h2⟩
      rw [this]

theorem replaceNormals_op (I : Info) (q : Nat) (f : R → R → R) (a b : Expr R) :
    replaceNormals I q (.op f a b) = .op f (replaceNormals I q a) (replaceNormals I q b) := by
  rw [replaceNormals_eq, replaceNormals_eq, replaceNormals_eq, foldl_replace_op]

theorem replaceNormals_fixed (I : Info) (q : Nat) (e : Expr R) (h : ∀ k i, replaceConst q k i e = e) : replaceNormals I q e = e := by
  rw [replaceNormals_eq, foldl_replace_fixed q _ _ h]

theorem custom_op (I : Info) (q : Nat) (f : R → R → R) (a b : Expr R) : custom I q (.op f a b) = .op f (custom I q a) (custom I q b) := by
  unfold custom
  rw [rewrite]
  split
  · exact replaceNormals_op ..
  · rfl

/-- The names that the prologue declares. -/
structure Ready (I : Info) (sc : Scope R) : Prop where
  weights : ∀ q ∈ I.quads, sc.weights q = some (.dynamic false)
  points : ∀ q ∈ I.quads, sc.points q = true
  normals : ∀ q ∈ I.quads, sc.normals q = I.boundary q
  tables : ∀ t ∈ I.tables, I.quadOf t ∈ I.quads → sc.tables t = some (if I.constant t then .static else .dynamic (I.two t))

theorem eval_custom (D : Values R) (I : Info) {sc : Scope R} (hr : Ready I sc) {q : Nat} (hq : q ∈ I.quads) (iq : Nat) (e : Expr R)
    (he : FromFFCx I e) (env : Env R) (ρ : Nat → Option Nat) :
    eval D I.tdim sc (some iq) env ρ (custom I q e) = idealEval D I q iq env ρ e := by
  have plain : ∀ e : Expr R, rewrite I e = e → (∀ k i, replaceConst q k i e = e) → custom I q e = e := by
    intro e h1 h2
    unfold custom
    rw [h1]
    split
    · exact replaceNormals_fixed I q e h2
    · rfl
  induction e with
  | lit r => rw [plain _ rfl (fun _ _ => rfl)]; rfl
  | var x k => rw [plain _ rfl (fun _ _ => rfl)]; rfl
  | input a k => rw [plain _ rfl (fun _ _ => rfl)]; rfl
  | const k =>
    unfold custom
    rw [rewrite, idealEval]
    swap
    · rintro _ _ _ _ _ h; cases h
    swap
    · rintro _ _ _ h; cases h
    cases hb : I.boundary q
    · rfl
    · simp only [if_true]
      rw [replaceNormals_const]
      split
      · next off ho =>
        simp only [eval, hr.normals q hq, hb]
      · rfl
  | weight q' =>
    have hw := hr.weights q' he
    rw [plain _ rfl (fun _ _ => rfl), idealEval]
    simp only [eval, hw]
  | table4 t p en i d =>
    obtain ⟨h1, h2, h3⟩ := he
    have hrw : rewrite I (.table4 t p en i d : Expr R) =
        if I.constant t then .table4 t p en i d else .table1 t (if I.interior then p else none) i d := by
      rw [rewrite, if_pos h1]
    have hor : i.or (some iq) = some (i.getD iq) := by cases i <;> rfl
    cases hc : I.constant t
    · rw [hc] at hrw
      simp only [Bool.false_eq_true, if_false] at hrw
      have : custom I q (.table4 t p en i d : Expr R) = .table1 t (if I.interior then p else none) i d := by
        unfold custom
        rw [hrw]
        split
        · exact replaceNormals_fixed I q _ (fun _ _ => rfl)
        · rfl
      rw [this, eval, hr.tables t h1 h2, hor, idealEval]
      simp only [hc, Bool.false_eq_true, if_false]
      have htwo : (if I.interior then p else none).isSome = I.two t ∧ (if I.interior then p else none) = if I.two t then p else none := by
        unfold Info.two
        cases hi : I.interior
        · simp
        · have := h3 hi hc
          simp only [if_true, Bool.true_and]
          refine ⟨this, ?_⟩
          cases p with
          | none => simp
          | some s => simp only [Option.isSome_some] at this; rw [← this]; simp
      rw [if_pos htwo.1, htwo.2]
    · rw [hc] at hrw
      simp only [if_true] at hrw
      rw [plain _ hrw (fun _ _ => rfl), eval, hr.tables t h1 h2, hor, idealEval]
      simp only [hc, if_true]
  | table1 => exact he.elim
  | normal => exact he.elim
  | op f a b iha ihb =>
    rw [custom_op, eval, idealEval, iha he.1, ihb he.2]
    cases idealEval D I q iq env ρ a <;> cases idealEval D I q iq env ρ b <;> rfl

theorem exec_custom [Add R] (D : Values R) (I : Info) {q : Nat} (hq : q ∈ I.quads) (iq : Nat) (ss : List (Stmt R))
    (hs : ∀ s ∈ ss, IsBody I s) {sc : Scope R} (hr : Ready I sc) (env : Env R) (A : Nat → R) :
    exec D I.tdim (some iq) (ss.map (Stmt.map (custom I q))) sc env A =
      (idealExec D I q iq ss env A).map fun vA => (sc, vA.1, vA.2, false) := by
  induction ss generalizing env A with
  | nil => rfl
  | cons s ss ih =>
    have h1 := hs s (List.mem_cons_self ..)
    have ih' := fun (env : Env R) (A : Nat → R) => ih (fun s h => hs s (List.mem_cons_of_mem _ h)) env A
    cases s with
    | code c =>
      rw [List.map_cons, Stmt.map, exec, idealExec, Code.exec_map,
        Code.exec_congr (fun env ρ e he => eval_custom D I hr hq iq e he env ρ) c h1]
      cases c.exec (idealEval D I q iq) noLoop env A with
      | none => rfl
      | some x => exact ih' x.1 x.2
    | marker => exact h1.elim
    | declWeights => exact h1.elim
    | declTable => exact h1.elim
    | brk => exact h1.elim
    | declDynamic => exact h1.elim
    | declDynTable => exact h1.elim

theorem iterate_custom [Add R] (D : Values R) (I : Info) {q : Nat} (hq : q ∈ I.quads) (ss : List (Stmt R))
    (hs : ∀ s ∈ ss, IsBody I s) {sc : Scope R} (hr : Ready I sc) (n k : Nat) (A : Nat → R) :
    iterate D I.tdim (ss.map (Stmt.map (custom I q))) sc n k [] A = (idealLoop D I q ss n k A).map fun A' => ([], A') := by
  induction n generalizing k A with
  | zero => rfl
  | succ n ih =>
    rw [iterate, idealLoop, exec_custom D I hq k ss hs hr [] A]
    cases idealExec D I q k ss [] A with
    | none => rfl
    | some vA =>
      simp only [Option.map_some, leave_nil]
      exact ih (k + 1) vA.2

/-- A loop of the custom variant. -/
def tr (I : Info) (pre : List (Stmt R)) (l : Loop R) : Loop R :=
  { quad := l.quad, pre := [], bound := .dynamic l.quad, body := (pre ++ l.body).map (Stmt.map (custom I l.quad)) }

theorem run_custom [Add R] (D : Values R) (I : Info) (pre : List (Stmt R)) (hp : ∀ s ∈ pre, IsBody I s) (ls : List (Loop R))
    (hb : ∀ l ∈ ls, ∀ s ∈ l.body, IsBody I s) (hq : ∀ l ∈ ls, l.quad ∈ I.quads) {sc : Scope R} (hr : Ready I sc)
    (A : Nat → R) : run D I.tdim (ls.map (tr I pre)) sc [] A = ideal D I pre ls A := by
  induction ls generalizing A with
  | nil => rfl
  | cons l ls ih =>
    have hl := hq l (List.mem_cons_self ..)
    rw [List.map_cons, run, ideal]
    simp only [tr, exec]
    rw [hr.points _ hl]
    simp only [if_true]
    rw [iterate_custom D I hl (pre ++ l.body) (fun s hs => (List.mem_append.1 hs).elim (hp s) (hb l (List.mem_cons_self ..) s)) hr]
    cases idealLoop D I l.quad (pre ++ l.body) (D.points l.quad) 0 A with
    | none => rfl
    | some A' => exact ih (fun l h => hb l (List.mem_cons_of_mem _ h)) (fun l h => hq l (List.mem_cons_of_mem _ h)) A'

theorem findIdx_append_of {α : Type} (p : α → Bool) (l : List α) (x : α) (l' : List α) (h : ∀ y ∈ l, p y = false) (hx : p x = true) :
    (l ++ x :: l').findIdx p = l.length := by
  induction l with
  | nil => simp [List.findIdx_cons, hx]
  | cons y l ih =>
    rw [List.cons_append, List.findIdx_cons, h y (List.mem_cons_self ..), cond_false, ih (fun z hz => h z (List.mem_cons_of_mem _ hz)),
      List.length_cons]

theorem eraseStatic_shape (I : Info) (setup more : List (Stmt R)) (ws ts : List Nat) (h1 : ∀ s ∈ setup, IsSetup I s)
    (h2 : ∀ s ∈ more, IsSetup I s) (ht : ts ≠ []) :
    eraseStatic (setup ++ .marker :: (ws.map .declWeights ++ ts.map .declTable ++ more)) = setup ++ more := by
  obtain ⟨ts', t, rfl⟩ : ∃ ts' t, ts = ts' ++ [t] := ⟨ts.dropLast, ts.getLast ht, (List.dropLast_append_getLast ht).symm⟩
  unfold eraseStatic
  simp only
  rw [if_pos (by simp), findIdx_append_of _ setup .marker _ (fun s hs => by
    have := h1 s hs
    cases s <;> simp_all [IsSetup]) rfl, List.take_left]
  congr 1
  have hrev : (setup ++ Stmt.marker :: (ws.map Stmt.declWeights ++ (ts' ++ [t]).map Stmt.declTable ++ more)).reverse =
      more.reverse ++ Stmt.declTable t :: (setup ++ Stmt.marker :: (ws.map Stmt.declWeights ++ ts'.map Stmt.declTable)).reverse := by
    simp
  rw [hrev, findIdx_append_of _ more.reverse (.declTable t) _ (fun s hs => by
    have := h2 s (List.mem_reverse.1 hs)
    cases s <;> simp_all [IsSetup]) rfl, List.length_reverse,
    show setup ++ Stmt.marker :: (ws.map Stmt.declWeights ++ (ts' ++ [t]).map Stmt.declTable ++ more) =
      (setup ++ Stmt.marker :: (ws.map Stmt.declWeights ++ (ts' ++ [t]).map Stmt.declTable)) ++ more by simp, List.length_append, Nat.add_sub_cancel,
    List.drop_left]

theorem map_map_custom (I : Info) (q : Nat) (ss : List (Stmt R)) (hb : I.boundary q = true) :
    (ss.map (Stmt.map (rewrite I))).map (Stmt.map (replaceNormals I q)) = ss.map (Stmt.map (custom I q)) := by
  rw [List.map_map]
  apply List.map_congr_left
  intro s _
  have : ∀ e : Expr R, replaceNormals I q (rewrite I e) = custom I q e := fun e => by rw [custom, if_pos hb]
  have hcc : ∀ c : Code R, (c.map (rewrite I)).map (replaceNormals I q) = c.map (custom I q) := by
    intro c
    induction c <;> simp_all [Code.map]
  cases s <;> simp [Stmt.map, hcc]

theorem map_custom (I : Info) (q : Nat) (ss : List (Stmt R)) (hb : I.boundary q = false) :
    ss.map (Stmt.map (rewrite I)) = ss.map (Stmt.map (custom I q)) := by
  apply List.map_congr_left
  intro s _
  have : rewrite I = custom (R := R) I q := funext fun e => by rw [custom, hb]; rfl
  rw [this]

theorem customVariant_eq (I : Info) (first : Loop R) (rest : List (Loop R)) (hbt : ∀ l ∈ rest, l.pre = [])
    (hq : ∀ l ∈ first :: rest, l.quad ∈ I.quads) :
    customVariant I (first :: rest) = addPrologue I ((first :: rest).map (tr I (eraseStatic first.pre))) := by
  unfold customVariant
  congr 1
  have key : ∀ l : Loop R, l.quad ∈ I.quads →
      (if l.quad ∈ I.quads ∧ I.boundary l.quad = true then
        ({ quad := l.quad, pre := [], bound := .dynamic l.quad, body := ((eraseStatic first.pre).map (Stmt.map (rewrite I)) ++
          l.body.map (Stmt.map (rewrite I))).map (Stmt.map (replaceNormals I l.quad)) } : Loop R)
      else { quad := l.quad, pre := [], bound := .dynamic l.quad, body := (eraseStatic first.pre).map (Stmt.map (rewrite I)) ++
          l.body.map (Stmt.map (rewrite I)) }) = tr I (eraseStatic first.pre) l := by
    intro l hl
    rw [← List.map_append]
    cases hb : I.boundary l.quad
    · rw [if_neg (by simp), tr, map_custom I l.quad _ hb]
    · rw [if_pos ⟨hl, rfl⟩, tr, map_map_custom I l.quad _ hb]
  simp only [rewriteLoops, dynamicBounds, inlinePre, substituteNormals, List.map_cons, List.map_map]
  refine List.cons_eq_cons.2 ⟨key first (hq first (List.mem_cons_self ..)), ?_⟩
  apply List.map_congr_left
  intro l hl
  have := key l (hq l (List.mem_cons_of_mem _ hl))
  simp only [Function.comp]
  rw [hbt l hl]
  exact this

/-- The statements of the prologue. -/
def IsDecl (I : Info) : Stmt R → Prop
  | .declTable t => I.constant t = true
  | .declDynamic q n => n = I.boundary q
  | .declDynTable t two => I.constant t = false ∧ two = I.two t
  | _ => False

theorem exec_prologue [Add R] (D : Values R) (I : Info) (L : List (Stmt R)) (hL : ∀ s ∈ L, IsDecl I s) (sc : Scope R) (env : Env R) (A : Nat → R) :
    ∃ sc', exec D I.tdim none L sc env A = some (sc', env, A, false) ∧
      (∀ q, ((∃ n, Stmt.declDynamic q n ∈ L) ∨ (sc.weights q = some (.dynamic false) ∧ sc.points q = true ∧ sc.normals q = I.boundary q)) →
        sc'.weights q = some (.dynamic false) ∧ sc'.points q = true ∧ sc'.normals q = I.boundary q) ∧
      ∀ t, ((Stmt.declTable t ∈ L ∨ ∃ two, Stmt.declDynTable t two ∈ L) ∨
          sc.tables t = some (if I.constant t then .static else .dynamic (I.two t))) →
        sc'.tables t = some (if I.constant t then .static else .dynamic (I.two t)) := by
  induction L generalizing sc with
  | nil => exact ⟨sc, rfl, fun q h => by simpa using h, fun t h => by simpa using h⟩
  | cons s L ih =>
    have h1 := hL s (List.mem_cons_self ..)
    have ih' := ih (fun s h => hL s (List.mem_cons_of_mem _ h))
    cases s with
    | marker => exact h1.elim
    | declWeights => exact h1.elim
    | code => exact h1.elim
    | brk => exact h1.elim
    | declTable t0 =>
      obtain ⟨sc', e1, e3, e4⟩ := ih' { sc with tables := Function.update sc.tables t0 (some .static) }
      refine ⟨sc', e1, fun q h => e3 q ?_, fun t h => e4 t ?_⟩
      · simpa using h
      · by_cases ht : t = t0
        · subst ht
          right
          have h1' : I.constant t = true := h1
          simp [h1']
        · simpa [ht] using h
    | declDynamic q0 n =>
      obtain ⟨sc', e1, e3, e4⟩ := ih' { sc with
        weights := Function.update sc.weights q0 (some (.dynamic false)), points := Function.update sc.points q0 true,
        normals := Function.update sc.normals q0 n }
      refine ⟨sc', e1, fun q h => e3 q ?_, fun t h => e4 t ?_⟩
      · by_cases hq : q = q0
        · subst hq
          right
          have h1' : n = I.boundary q := h1
          simp [h1']
        · simpa [hq] using h
      · simpa using h
    | declDynTable t0 two =>
      obtain ⟨sc', e1, e3, e4⟩ := ih' { sc with tables := Function.update sc.tables t0 (some (.dynamic two)) }
      refine ⟨sc', e1, fun q h => e3 q ?_, fun t h => e4 t ?_⟩
      · simpa using h
      · by_cases ht : t = t0
        · subst ht
          right
          have h1' : I.constant t = false ∧ two = I.two t := h1
          simp [h1'.1, h1'.2]
        · simpa [ht] using h

theorem ready_prologue [Add R] (D : Values R) (I : Info) (A : Nat → R) :
    ∃ sc : Scope R, exec D I.tdim none (I.quads.flatMap (declarations I)) .empty [] A = some (sc, [], A, false) ∧ Ready I sc := by
  obtain ⟨sc, e1, e3, e4⟩ := exec_prologue D I (I.quads.flatMap (declarations I)) (by
    intro s hs
    obtain ⟨q, _, hs⟩ := List.mem_flatMap.1 hs
    simp only [declarations, List.mem_append, List.mem_map, List.mem_filter, List.mem_singleton] at hs
    rcases hs with (⟨t, ⟨_, ht⟩, rfl⟩ | rfl) | ⟨t, ⟨_, ht⟩, rfl⟩
    · simp only [Bool.and_eq_true] at ht
      exact ht.2
    · exact rfl
    · simp only [Bool.and_eq_true, Bool.not_eq_true'] at ht
      exact ⟨ht.2, rfl⟩) .empty [] A
  refine ⟨sc, e1, ⟨fun q hq => ?_, fun q hq => ?_, fun q hq => ?_, fun t ht hq => ?_⟩⟩
  all_goals try have hd : Stmt.declDynamic q (I.boundary q) ∈ I.quads.flatMap (declarations (R := R) I) :=
    List.mem_flatMap.2 ⟨q, hq, by simp [declarations]⟩
  · exact (e3 q (Or.inl ⟨_, hd⟩)).1
  · exact (e3 q (Or.inl ⟨_, hd⟩)).2.1
  · exact (e3 q (Or.inl ⟨_, hd⟩)).2.2
  · refine e4 t (Or.inl ?_)
    cases hc : I.constant t
    · right
      exact ⟨I.two t, List.mem_flatMap.2 ⟨_, hq, by simp [declarations, ht, hc]⟩⟩
    · left
      exact List.mem_flatMap.2 ⟨_, hq, by simp [declarations, ht, hc]⟩

theorem idealExec_static [Add R] (D : Values R) (I : Info) (q iq : Nat) (ws ts : List Nat) (rest : List (Stmt R)) (env : Env R)
    (A : Nat → R) : idealExec D I q iq (.marker :: (ws.map .declWeights ++ ts.map .declTable ++ rest)) env A =
      idealExec D I q iq rest env A := by
  rw [idealExec]
  · induction ws with
    | nil =>
      induction ts with
      | nil => rfl
      | cons t ts ih => exact ih
    | cons w ws ih => exact ih
  · rintro _ h; cases h

theorem idealExec_congr [Add R] (D : Values R) (I : Info) (q iq : Nat) (ss a b : List (Stmt R))
    (h : ∀ env A, idealExec D I q iq a env A = idealExec D I q iq b env A) (env : Env R) (A : Nat → R) :
    idealExec D I q iq (ss ++ a) env A = idealExec D I q iq (ss ++ b) env A := by
  induction ss generalizing env A with
  | nil => exact h env A
  | cons s ss ih =>
    cases s with
    | code c =>
      rw [List.cons_append, List.cons_append, idealExec, idealExec]
      cases c.exec (idealEval D I q iq) noLoop env A with
      | none => rfl
      | some x => exact ih _ _
    | marker => exact ih env A
    | declWeights => exact ih env A
    | declTable => exact ih env A
    | brk => exact ih env A
    | declDynamic => exact ih env A
    | declDynTable => exact ih env A

theorem idealLoop_congr [Add R] (D : Values R) (I : Info) (q : Nat) (a b : List (Stmt R))
    (h : ∀ iq vars A, idealExec D I q iq a vars A = idealExec D I q iq b vars A) (n k : Nat) (A : Nat → R) :
    idealLoop D I q a n k A = idealLoop D I q b n k A := by
  induction n generalizing k A with
  | zero => rfl
  | succ n ih =>
    rw [idealLoop, idealLoop, h]
    cases idealExec D I q k b [] A with
    | none => rfl
    | some vA => exact ih (k + 1) vA.2

theorem ideal_congr [Add R] (D : Values R) (I : Info) (a b : List (Stmt R)) (ls : List (Loop R))
    (h : ∀ q ss iq vars A, idealExec D I q iq (a ++ ss) vars A = idealExec D I q iq (b ++ ss) vars A) (A : Nat → R) :
    ideal D I a ls A = ideal D I b ls A := by
  induction ls generalizing A with
  | nil => rfl
  | cons l ls ih =>
    rw [ideal, ideal, idealLoop_congr D I l.quad _ _ (fun iq vars A => h l.quad l.body iq vars A)]
    cases idealLoop D I l.quad (b ++ l.body) (D.points l.quad) 0 A with
    | none => rfl
    | some A' => exact ih A'

/-- C75: in the cut entities, the kernel computes what the kernel of FFCx would with the custom quadratures: in each loop, at every point, the
weights, the functions and the normals are those of the point, and everything else is as FFCx wrote it. -/
theorem C75_custom [Add R] (D : Values R) (I : Info) (first : Loop R) (rest : List (Loop R)) {setup more : List (Stmt R)} {ws ts : List Nat}
    (h : Shape I first rest setup ws ts more) (A : Nat → R) :
    run D I.tdim (customVariant I (first :: rest)) .empty [] A = ideal D I first.pre (first :: rest) A := by
  obtain ⟨sc, e1, hr⟩ := ready_prologue D I A
  have hset : ∀ s ∈ setup ++ more, IsBody I s := by
    intro s hs
    have : IsSetup I s := (List.mem_append.1 hs).elim (h.setup s) (h.more s)
    cases s <;> simp_all [IsSetup, IsBody]
  have her : eraseStatic first.pre = setup ++ more := by rw [h.pre, eraseStatic_shape I _ _ _ _ h.setup h.more h.tables]
  have hrun := run_custom D I (setup ++ more) hset (first :: rest) h.body h.quads hr A
  have hlast : run D I.tdim (customVariant I (first :: rest)) .empty [] A =
      run D I.tdim ((first :: rest).map (tr I (setup ++ more))) sc [] A := by
    rw [customVariant_eq I first rest h.between h.quads, her, List.map_cons, addPrologue, run, run]
    simp only [tr, List.append_nil]
    rw [e1]
    rfl
  rw [hlast, hrun]
  apply ideal_congr
  intro q ss iq vars A
  rw [h.pre, List.append_assoc, List.append_assoc, List.cons_append]
  apply idealExec_congr
  intro vars A
  rw [List.append_assoc, idealExec_static]


/-! ### The kernel of the entities that are not cut -/

theorem exec_append [Add R] (D : Values R) (tdim : Nat) (iq : Option Nat) (a b : List (Stmt R)) (sc : Scope R) (env : Env R) (A : Nat → R)
    {sc' : Scope R} {env' : Env R} {A' : Nat → R} (h : exec D tdim iq a sc env A = some (sc', env', A', false)) :
    exec D tdim iq (a ++ b) sc env A = exec D tdim iq b sc' env' A' := by
  induction a generalizing sc env A with
  | nil =>
    simp only [exec, Option.some.injEq, Prod.mk.injEq, and_true] at h
    rw [h.1, h.2.1, h.2.2]
    rfl
  | cons s a ih =>
    rw [List.cons_append]
    cases s with
    | code c =>
      rw [exec] at h ⊢
      obtain ⟨x, h1, h2⟩ := Option.bind_eq_some_iff.1 h
      rw [h1]
      exact ih _ _ _ h2
    | brk => cases iq <;> simp [exec] at h
    | marker => rw [exec] at h ⊢; exact ih _ _ _ h
    | declWeights => rw [exec] at h ⊢; exact ih _ _ _ h
    | declTable => rw [exec] at h ⊢; exact ih _ _ _ h
    | declDynamic => rw [exec] at h ⊢; exact ih _ _ _ h
    | declDynTable => rw [exec] at h ⊢; exact ih _ _ _ h

theorem eval_mono (D : Values R) (tdim k : Nat) (sc : Scope R) (env : Env R) (ρ : Nat → Option Nat) (e : Expr R) {r : R}
    (h : eval D tdim sc none env ρ e = some r) : eval D tdim sc (some k) env ρ e = some r := by
  induction e generalizing r with
  | lit => exact h
  | var => exact h
  | input => exact h
  | const => exact h
  | weight q =>
    simp only [eval] at h
    split at h <;> simp_all
  | table4 t p en i d =>
    cases i with
    | none => simp only [eval] at h; split at h <;> simp_all
    | some j => exact h
  | table1 t p i d =>
    cases i with
    | none => simp only [eval] at h; split at h <;> simp_all
    | some j => exact h
  | normal q i =>
    simp only [eval] at h
    split at h <;> simp_all
  | op f a b iha ihb =>
    simp only [eval] at h ⊢
    split at h
    · next x y hx hy => rw [iha hx, ihb hy]; exact h
    · simp at h

theorem Code.all_true : ∀ c : Code R, c.All fun _ => True
  | .skip => trivial
  | .seq a b => ⟨a.all_true, b.all_true⟩
  | .decl .. => trivial
  | .set .. => trivial
  | .accum .. => trivial
  | .block c => c.all_true
  | .loop _ _ c => c.all_true

theorem exec_mono [Add R] (D : Values R) (tdim k : Nat) (ss : List (Stmt R)) (sc : Scope R) (env : Env R) (A : Nat → R)
    {x : Scope R × Env R × (Nat → R) × Bool} (h : exec D tdim none ss sc env A = some x) : exec D tdim (some k) ss sc env A = some x := by
  induction ss generalizing sc env A with
  | nil => exact h
  | cons s ss ih =>
    cases s with
    | code c =>
      rw [exec] at h ⊢
      obtain ⟨y, h1, h2⟩ := Option.bind_eq_some_iff.1 h
      rw [Code.exec_mono (fun env ρ e r _ he => eval_mono D tdim k sc env ρ e he) c _ _ _ c.all_true h1]
      exact ih _ _ _ h2
    | brk => rw [exec] at h; simp at h
    | marker => rw [exec] at h ⊢; exact ih _ _ _ h
    | declWeights => rw [exec] at h ⊢; exact ih _ _ _ h
    | declTable => rw [exec] at h ⊢; exact ih _ _ _ h
    | declDynamic => rw [exec] at h ⊢; exact ih _ _ _ h
    | declDynTable => rw [exec] at h ⊢; exact ih _ _ _ h

/-- Statements that do not contribute to `A`. -/
def NoAccum : Stmt R → Prop
  | .code c => c.NoAccum
  | _ => True

theorem exec_noAccum [Add R] (D : Values R) (tdim : Nat) (iq : Option Nat) (ss : List (Stmt R)) (hs : ∀ s ∈ ss, NoAccum s) (sc : Scope R)
    (env : Env R) (A : Nat → R) (B : Nat → R) {sc' : Scope R} {env' : Env R} {A' : Nat → R} {b : Bool}
    (h : exec D tdim iq ss sc env A = some (sc', env', A', b)) : A' = A ∧ exec D tdim iq ss sc env B = some (sc', env', B, b) := by
  induction ss generalizing sc env with
  | nil =>
    simp only [exec, Option.some.injEq, Prod.mk.injEq] at h ⊢
    exact ⟨h.2.2.1.symm, h.1, h.2.1, trivial, h.2.2.2⟩
  | cons s ss ih =>
    have h1 := hs s (List.mem_cons_self ..)
    have ih' := fun sc env h => ih (fun s h => hs s (List.mem_cons_of_mem _ h)) sc env h
    cases s with
    | code c =>
      rw [exec] at h ⊢
      obtain ⟨⟨e1, A1⟩, h2, h3⟩ := Option.bind_eq_some_iff.1 h
      obtain ⟨rfl, h4⟩ := Code.exec_noAccum c _ env A B h1 h2
      rw [h4]
      exact ih' _ _ h3
    | brk =>
      cases iq with
      | none => simp [exec] at h
      | some k =>
        simp only [exec, Option.some.injEq, Prod.mk.injEq] at h ⊢
        exact ⟨h.2.2.1.symm, h.1, h.2.1, trivial, h.2.2.2⟩
    | marker => rw [exec] at h ⊢; exact ih' _ _ h
    | declWeights => rw [exec] at h ⊢; exact ih' _ _ h
    | declTable => rw [exec] at h ⊢; exact ih' _ _ h
    | declDynamic => rw [exec] at h ⊢; exact ih' _ _ h
    | declDynTable => rw [exec] at h ⊢; exact ih' _ _ h

theorem iterate_inline [Add R] (D : Values R) (tdim : Nat) (pre body : List (Stmt R)) (sc sc' : Scope R) (env' : Env R)
    (hp : ∀ (k : Nat) A, exec D tdim (some k) pre sc [] A = some (sc', env', A, false)) (hl : Local body) (n k : Nat) (A : Nat → R) :
    iterate D tdim (pre ++ body) sc n k [] A = (iterate D tdim body sc' n k env' A).map (fun x => ([], x.2)) ∧
      ∀ x, iterate D tdim body sc' n k env' A = some x → x.1 = env' := by
  induction n generalizing k A with
  | zero => exact ⟨rfl, fun x h => by rw [← Option.some.inj h]⟩
  | succ n ih =>
    rw [iterate, iterate, exec_append D tdim _ pre body sc [] A (hp k A)]
    rcases he : exec D tdim (some k) body sc' env' A with _ | ⟨sc1, e1, A1, b⟩
    · exact ⟨rfl, fun x h => by cases h⟩
    · have hleave := leave_local D tdim _ body hl sc' env' A he
      cases b with
      | true =>
        simp only [leave_nil, hleave]
        exact ⟨rfl, fun x h => by rw [← Option.some.inj h]⟩
      | false =>
        simp only [leave_nil, hleave]
        exact ih _ _

theorem iterate_brk [Add R] (D : Values R) (tdim : Nat) (body : List (Stmt R)) (sc : Scope R) (n k : Nat) (A : Nat → R) :
    iterate D tdim (.brk :: body) sc n k [] A = some ([], A) := by
  cases n <;> rfl

/-- The loops of the quadratures of unfitted boundaries are not executed. -/
def skip (I : Info) (l : Loop R) : Loop R := if I.boundary l.quad then { l with bound := .fixed 0 } else l

theorem Shape.noAccum {I : Info} {first : Loop R} {rest : List (Loop R)} {setup more : List (Stmt R)} {ws ts : List Nat}
    (h : Shape I first rest setup ws ts more) : ∀ s ∈ first.pre, NoAccum s := by
  intro s hs
  rw [h.pre] at hs
  simp only [List.mem_append, List.mem_cons, List.mem_map] at hs
  rcases hs with hs | rfl | ((⟨q, _, rfl⟩ | ⟨t, _, rfl⟩) | hs)
  · have := h.setup s hs
    cases s <;> simp_all [IsSetup, NoAccum]
  · trivial
  · trivial
  · trivial
  · have := h.more s hs
    cases s <;> simp_all [IsSetup, NoAccum]

/-- A loop of the original variant. -/
def orig (I : Info) (pre : List (Stmt R)) (l : Loop R) : Loop R :=
  { l with pre := [], body := if I.boundary l.quad then .brk :: (pre ++ l.body) else pre ++ l.body }

theorem run_orig [Add R] (D : Values R) (I : Info) (pre : List (Stmt R)) (sc sc' : Scope R) (env' : Env R)
    (hp : ∀ (k : Nat) A, exec D I.tdim (some k) pre sc [] A = some (sc', env', A, false)) (ls : List (Loop R))
    (hf : ∀ l ∈ ls, ∃ n, l.bound = .fixed n) (hl : ∀ l ∈ ls, Local l.body) (A : Nat → R) :
    run D I.tdim (ls.map (orig I pre)) sc [] A = run D I.tdim (ls.map fun l => { skip I l with pre := [] }) sc' env' A := by
  induction ls generalizing A with
  | nil => rfl
  | cons l ls ih =>
    obtain ⟨n, hn⟩ := hf l (List.mem_cons_self ..)
    have ih' := ih (fun l h => hf l (List.mem_cons_of_mem _ h)) (fun l h => hl l (List.mem_cons_of_mem _ h))
    rw [List.map_cons, List.map_cons, run, run]
    unfold orig skip
    simp only [exec]
    cases hb : I.boundary l.quad
    · simp only [Bool.false_eq_true, if_false, hn]
      obtain ⟨h1, h2⟩ := iterate_inline D I.tdim pre l.body sc sc' env' hp (hl l (List.mem_cons_self ..)) n 0 A
      rw [h1]
      rcases hi : iterate D I.tdim l.body sc' n 0 env' A with _ | ⟨e, A'⟩
      · rfl
      · obtain rfl := h2 _ hi
        exact ih' A'
    · simp only [if_true, hn]
      rw [iterate_brk, iterate]
      exact ih' A

/-- C75: in the entities that are not cut, the kernel computes what the one of FFCx does, without the integrals over the unfitted
boundaries. -/
theorem C75_original [Add R] (D : Values R) (I : Info) (first : Loop R) (rest : List (Loop R)) {setup more : List (Stmt R)}
    {ws ts : List Nat} (h : Shape I first rest setup ws ts more) (hf : ∀ l ∈ first :: rest, ∃ n, l.bound = .fixed n)
    (hl : ∀ l ∈ first :: rest, Local l.body) {A A' : Nat → R}
    (hr : run D I.tdim ((first :: rest).map (skip I)) .empty [] A = some A') :
    run D I.tdim (originalVariant I (first :: rest)) .empty [] A = some A' := by
  by_cases hany : I.quads.any I.boundary = true
  · have hov : originalVariant I (first :: rest) = (first :: rest).map (orig I first.pre) := by
      rw [originalVariant, if_pos hany]
      have key : ∀ l ∈ first :: rest,
          (if l.quad ∈ I.quads ∧ I.boundary l.quad = true then
            ({ l with pre := [], body := .brk :: (first.pre ++ l.body) } : Loop R)
          else { l with pre := [], body := first.pre ++ l.body }) = orig I first.pre l := by
        intro l hl
        have := h.quads l hl
        unfold orig
        cases hb : I.boundary l.quad <;> simp [this]
      simp only [inlinePre, breakUnfitted, List.map_cons, List.map_map]
      refine List.cons_eq_cons.2 ⟨key first (List.mem_cons_self ..), ?_⟩
      apply List.map_congr_left
      intro l hl
      have := key l (List.mem_cons_of_mem _ hl)
      simp only [Function.comp]
      rw [h.between l hl]
      exact this
    have hpre : (skip I first).pre = first.pre := by unfold skip; split <;> rfl
    rw [List.map_cons, run, hpre] at hr
    cases he : exec D I.tdim none first.pre .empty [] A with
    | none => rw [he] at hr; simp at hr
    | some x =>
      obtain ⟨sc', env', A1, b⟩ := x
      rw [he] at hr
      cases b with
      | true => simp at hr
      | false =>
        obtain ⟨rfl, _⟩ := exec_noAccum D I.tdim none _ h.noAccum .empty [] A A he
        have hp : ∀ (k : Nat) B, exec D I.tdim (some k) first.pre .empty [] B = some (sc', env', B, false) := fun k B =>
          exec_mono D I.tdim k _ _ _ _ (exec_noAccum D I.tdim none _ h.noAccum .empty [] A1 B he).2
        rw [hov, run_orig D I first.pre .empty sc' env' hp _ hf hl, List.map_cons, run]
        simp only [exec]
        have hrest : rest.map (fun l => ({ skip I l with pre := [] } : Loop R)) = rest.map (skip I) := by
          apply List.map_congr_left
          intro l hl
          have := h.between l hl
          unfold skip
          split <;> (cases l; simp_all)
        rw [hrest]
        exact hr
  · have hb : ∀ l ∈ first :: rest, skip I l = l := by
      intro l hl
      unfold skip
      rw [if_neg]
      intro hbl
      exact hany (List.any_eq_true.2 ⟨l.quad, h.quads l hl, hbl⟩)
    rw [originalVariant, if_neg hany, ← hr, List.map_congr_left hb, List.map_id']

/-! ### The custom kernel with the quadrature of FFCx -/

/-- The data at run time are those of FFCx. -/
structure SameRule (D : Values R) (I : Info) (ls : List (Loop R)) : Prop where
  boundary : ∀ l ∈ ls, I.boundary l.quad = false
  points : ∀ l ∈ ls, l.bound = .fixed (D.points l.quad)
  weight : D.weight = D.staticWeight
  table : ∀ t p e j d, I.constant t = false → D.table t (if I.two t then p else none) j d = D.staticTable t p e j d

theorem eval_same (D : Values R) (I : Info) {q k : Nat} (hb : I.boundary q = false) (hw : D.weight = D.staticWeight)
    (ht : ∀ t p e j d, I.constant t = false → D.table t (if I.two t then p else none) j d = D.staticTable t p e j d) (sc : Scope R)
    (env : Env R) (ρ : Nat → Option Nat) (e : Expr R) {r : R} (he : FromFFCx I e) (h : eval D I.tdim sc (some k) env ρ e = some r) :
    idealEval D I q k env ρ e = some r := by
  induction e generalizing r with
  | lit => exact h
  | var => exact h
  | input => exact h
  | const c => simp only [idealEval, hb, Bool.false_eq_true, if_false]; exact h
  | weight q' =>
    simp only [eval] at h
    rw [idealEval, hw]
    split at h
    · next hk => cases hk; exact h
    · next hk => cases hk; rw [← hw]; exact h
    · simp at h
  | table4 t p en i d =>
    have hor : i.or (some k) = some (i.getD k) := by cases i <;> rfl
    simp only [eval, hor] at h
    rw [idealEval]
    split at h
    · next j _ hj =>
      cases hj
      cases hc : I.constant t
      · simp only [Bool.false_eq_true, if_false]
        rw [show (fun d => D.table t (if I.two t then p else none) (i.getD k) d) = D.staticTable t p en (i.getD k) from
          funext fun d => ht t p en _ d hc]
        exact h
      · exact h
    · simp at h
  | table1 => exact he.elim
  | normal => exact he.elim
  | op f a b iha ihb =>
    simp only [eval] at h
    rw [idealEval]
    split at h
    · next x y hx hy => rw [iha he.1 hx, ihb he.2 hy]; exact h
    · simp at h

/-- Statements of FFCx. -/
def IsFFCx (I : Info) : Stmt R → Prop
  | .code c => c.All (FromFFCx I)
  | .marker => True
  | .declWeights _ => True
  | .declTable _ => True
  | _ => False

theorem exec_same [Add R] (D : Values R) (I : Info) {q k : Nat} (hb : I.boundary q = false) (hw : D.weight = D.staticWeight)
    (ht : ∀ t p e j d, I.constant t = false → D.table t (if I.two t then p else none) j d = D.staticTable t p e j d) (ss : List (Stmt R))
    (hs : ∀ s ∈ ss, IsFFCx I s) (sc : Scope R) (env : Env R) (A : Nat → R) {sc' : Scope R} {env' : Env R} {A' : Nat → R} {b : Bool}
    (h : exec D I.tdim (some k) ss sc env A = some (sc', env', A', b)) : b = false ∧ idealExec D I q k ss env A = some (env', A') := by
  induction ss generalizing sc env A with
  | nil =>
    simp only [exec, Option.some.injEq, Prod.mk.injEq] at h
    obtain ⟨rfl, rfl, rfl, rfl⟩ := h
    exact ⟨rfl, rfl⟩
  | cons s ss ih =>
    have h1 := hs s (List.mem_cons_self ..)
    have ih' := fun sc env A h => ih (fun s h => hs s (List.mem_cons_of_mem _ h)) sc env A h
    cases s with
    | code c =>
      rw [exec] at h
      obtain ⟨x, h2, h3⟩ := Option.bind_eq_some_iff.1 h
      rw [idealExec, Code.exec_mono (fun env ρ e r he hr => eval_same D I hb hw ht sc env ρ e he hr) c _ _ _ h1 h2]
      exact ih' _ _ _ h3
    | brk => exact h1.elim
    | declDynamic => exact h1.elim
    | declDynTable => exact h1.elim
    | marker => rw [exec] at h; exact ih' _ _ _ h
    | declWeights q => rw [exec] at h; exact ih' { sc with weights := Function.update sc.weights q (some .static) } _ _ h
    | declTable t => rw [exec] at h; exact ih' { sc with tables := Function.update sc.tables t (some .static) } _ _ h

theorem iterate_same [Add R] (D : Values R) (I : Info) {q : Nat} (hb : I.boundary q = false) (hw : D.weight = D.staticWeight)
    (ht : ∀ t p e j d, I.constant t = false → D.table t (if I.two t then p else none) j d = D.staticTable t p e j d) (ss : List (Stmt R))
    (hs : ∀ s ∈ ss, IsFFCx I s) (sc : Scope R) (n k : Nat) (A : Nat → R) {x : Env R × (Nat → R)}
    (h : iterate D I.tdim ss sc n k [] A = some x) : idealLoop D I q ss n k A = some x.2 := by
  induction n generalizing k A with
  | zero => rw [← Option.some.inj h]; rfl
  | succ n ih =>
    rw [iterate] at h
    rw [idealLoop]
    split at h
    · simp at h
    · next sc1 e1 A1 he =>
      exact absurd (exec_same D I (q := q) hb hw ht ss hs sc [] A he).1 (by decide)
    · next sc1 e1 A1 he =>
      rw [(exec_same D I (q := q) hb hw ht ss hs sc [] A he).2]
      rw [leave_nil] at h
      exact ih _ _ h

theorem run_same [Add R] (D : Values R) (I : Info) (pre : List (Stmt R)) (hpf : ∀ s ∈ pre, IsFFCx I s) (sc sc' : Scope R) (env' : Env R)
    (hp : ∀ (k : Nat) A, exec D I.tdim (some k) pre sc [] A = some (sc', env', A, false)) (ls : List (Loop R))
    (hD : SameRule D I ls) (hb : ∀ l ∈ ls, ∀ s ∈ l.body, IsFFCx I s) (hl : ∀ l ∈ ls, Local l.body) (hbt : ∀ l ∈ ls, l.pre = [])
    (A : Nat → R) {A' : Nat → R} (h : run D I.tdim ls sc' env' A = some A') : ideal D I pre ls A = some A' := by
  induction ls generalizing A with
  | nil => exact h
  | cons l ls ih =>
    rw [run, hbt l (List.mem_cons_self ..)] at h
    simp only [exec, hD.points l (List.mem_cons_self ..)] at h
    rw [ideal]
    obtain ⟨h1, h2⟩ := iterate_inline D I.tdim pre l.body sc sc' env' hp (hl l (List.mem_cons_self ..)) (D.points l.quad) 0 A
    split at h
    · simp at h
    · next e1 A1 hi =>
      obtain rfl := h2 _ hi
      rw [hi] at h1
      rw [iterate_same D I (hD.boundary l (List.mem_cons_self ..)) hD.weight hD.table (pre ++ l.body)
        (fun s hs => (List.mem_append.1 hs).elim (hpf s) (hb l (List.mem_cons_self ..) s)) sc _ _ _ h1]
      exact ih ⟨fun l h => hD.boundary l (List.mem_cons_of_mem _ h), fun l h => hD.points l (List.mem_cons_of_mem _ h), hD.weight,
        hD.table⟩ (fun l h => hb l (List.mem_cons_of_mem _ h)) (fun l h => hl l (List.mem_cons_of_mem _ h))
        (fun l h => hbt l (List.mem_cons_of_mem _ h)) A1 h

/-- C75: with the quadrature and the tables of FFCx the custom kernel computes what the kernel of FFCx does. -/
theorem C75_same_rule [Add R] (D : Values R) (I : Info) (first : Loop R) (rest : List (Loop R)) {setup more : List (Stmt R)}
    {ws ts : List Nat} (h : Shape I first rest setup ws ts more) (hD : SameRule D I (first :: rest))
    (hl : ∀ l ∈ first :: rest, Local l.body) {A A' : Nat → R} (hr : run D I.tdim (first :: rest) .empty [] A = some A') :
    run D I.tdim (customVariant I (first :: rest)) .empty [] A = some A' := by
  rw [C75_custom D I first rest h]
  have hpf : ∀ s ∈ first.pre, IsFFCx I s := by
    intro s hs
    rw [h.pre] at hs
    simp only [List.mem_append, List.mem_cons, List.mem_map] at hs
    rcases hs with hs | rfl | ((⟨q, _, rfl⟩ | ⟨t, _, rfl⟩) | hs)
    · have := h.setup s hs
      cases s <;> simp_all [IsSetup, IsFFCx]
    · trivial
    · trivial
    · trivial
    · have := h.more s hs
      cases s <;> simp_all [IsSetup, IsFFCx]
  have hbf : ∀ l ∈ first :: rest, ∀ s ∈ l.body, IsFFCx I s := by
    intro l hl s hs
    have := h.body l hl s hs
    cases s <;> simp_all [IsBody, IsFFCx]
  rw [run] at hr
  cases he : exec D I.tdim none first.pre .empty [] A with
  | none => rw [he] at hr; simp at hr
  | some x =>
    obtain ⟨sc', env', A1, b⟩ := x
    rw [he] at hr
    cases b with
    | true => simp at hr
    | false =>
      obtain ⟨rfl, _⟩ := exec_noAccum D I.tdim none _ h.noAccum .empty [] A A he
      have hp : ∀ (k : Nat) B, exec D I.tdim (some k) first.pre .empty [] B = some (sc', env', B, false) := fun k B =>
        exec_mono D I.tdim k _ _ _ _ (exec_noAccum D I.tdim none _ h.noAccum .empty [] A1 B he).2
      have hi : ideal D I first.pre (first :: rest) A1 = ideal D I first.pre ({ first with pre := [] } :: rest) A1 := rfl
      rw [hi]
      refine run_same D I first.pre hpf .empty sc' env' hp _ ⟨?_, ?_, hD.weight, hD.table⟩ ?_ ?_ ?_ A1 ?_
      · intro l hl
        rcases List.mem_cons.1 hl with rfl | hl
        · exact hD.boundary first (List.mem_cons_self ..)
        · exact hD.boundary l (List.mem_cons_of_mem _ hl)
      · intro l hl
        rcases List.mem_cons.1 hl with rfl | hl
        · exact hD.points first (List.mem_cons_self ..)
        · exact hD.points l (List.mem_cons_of_mem _ hl)
      · intro l hl
        rcases List.mem_cons.1 hl with rfl | hl
        · exact hbf first (List.mem_cons_self ..)
        · exact hbf l (List.mem_cons_of_mem _ hl)
      · intro l hm
        rcases List.mem_cons.1 hm with rfl | hm
        · exact hl first (List.mem_cons_self ..)
        · exact hl l (List.mem_cons_of_mem _ hm)
      · intro l hl
        rcases List.mem_cons.1 hl with rfl | hl
        · rfl
        · exact h.between l hl
      · rw [run]
        exact hr

/-! ### Quadratures without tables -/

theorem exec_points [Add R] (D : Values R) (tdim q : Nat) (iq : Option Nat) (ss : List (Stmt R)) (hs : ∀ n, Stmt.declDynamic q n ∉ ss)
    (sc : Scope R) (env : Env R) (A : Nat → R) {sc' : Scope R} {env' : Env R} {A' : Nat → R} {b : Bool}
    (h : exec D tdim iq ss sc env A = some (sc', env', A', b)) : sc'.points q = sc.points q := by
  induction ss generalizing sc env A with
  | nil =>
    simp only [exec, Option.some.injEq, Prod.mk.injEq] at h
    rw [h.1]
  | cons s ss ih =>
    have ih' := fun sc env A h => ih (fun n hn => hs n (List.mem_cons_of_mem _ hn)) sc env A h
    cases s with
    | code c =>
      rw [exec] at h
      obtain ⟨x, h1, h2⟩ := Option.bind_eq_some_iff.1 h
      exact ih' _ _ _ h2
    | brk =>
      cases iq with
      | none => simp [exec] at h
      | some k => simp only [exec, Option.some.injEq, Prod.mk.injEq] at h; rw [h.1]
    | declDynamic q' n =>
      rw [exec] at h
      have hq : q ≠ q' := by
        rintro rfl
        exact hs n (List.mem_cons_self ..)
      rw [ih' _ _ _ h]
      simp [hq]
    | marker => rw [exec] at h; exact (ih' _ _ _ h).trans rfl
    | declWeights => rw [exec] at h; exact (ih' _ _ _ h).trans rfl
    | declTable => rw [exec] at h; exact (ih' _ _ _ h).trans rfl
    | declDynTable => rw [exec] at h; exact (ih' _ _ _ h).trans rfl

theorem run_undeclared [Add R] (D : Values R) (tdim : Nat) (ls : List (Loop R)) (hpre : ∀ l ∈ ls, l.pre = []) (sc : Scope R) (env : Env R)
    (A : Nat → R) {l : Loop R} (hl : l ∈ ls) {q : Nat} (hb : l.bound = .dynamic q) (hq : sc.points q = false) :
    run D tdim ls sc env A = none := by
  induction ls generalizing env A with
  | nil => simp at hl
  | cons l' ls ih =>
    rw [run, hpre l' (List.mem_cons_self ..)]
    simp only [exec]
    rcases List.mem_cons.1 hl with rfl | hl
    · rw [hb]
      simp [hq]
    · split
      · rfl
      · split
        · rfl
        · exact ih (fun l h => hpre l (List.mem_cons_of_mem _ h)) _ _ hl

/-- C75: if a loop is over a quadrature for which the integral has no tables (nothing in it depends on the point through an element), the
code does not compile: its number of points is never declared. -/
theorem C75_no_tables_fails [Add R] (D : Values R) (I : Info) (first : Loop R) (rest : List (Loop R)) (hbt : ∀ l ∈ rest, l.pre = [])
    {l : Loop R} (hl : l ∈ first :: rest) (hq : l.quad ∉ I.quads) (A : Nat → R) :
    run D I.tdim (customVariant I (first :: rest)) .empty [] A = none := by
  have hnot : ∀ n, Stmt.declDynamic l.quad n ∉ I.quads.flatMap (declarations (R := R) I) := by
    intro n hn
    obtain ⟨q, hqm, hs⟩ := List.mem_flatMap.1 hn
    simp only [declarations, List.mem_append, List.mem_map, List.mem_filter, List.mem_singleton] at hs
    rcases hs with (⟨t, _, h⟩ | h) | ⟨t, _, h⟩
    · cases h
    · cases h; exact hq hqm
    · cases h
  obtain ⟨M, hc, hM, hlM⟩ : ∃ M : List (Loop R), customVariant I (first :: rest) = addPrologue I M ∧ (∀ l ∈ M, l.pre = []) ∧
      ∃ l' ∈ M, l'.bound = Bound.dynamic l.quad := by
    refine ⟨_, rfl, ?_, ?_⟩
    · intro l' hl'
      obtain ⟨l1, h1, rfl⟩ := List.mem_map.1 hl'
      have : l1.pre = [] := by
        simp only [rewriteLoops, dynamicBounds, inlinePre, List.map_cons, List.map_map, List.mem_cons, List.mem_map] at h1
        rcases h1 with rfl | ⟨l2, h2, rfl⟩
        · rfl
        · exact hbt l2 h2
      split
      · exact this
      · exact this
    · have : ∃ l1 ∈ inlinePre (dynamicBounds (rewriteLoops I (first :: rest))), l1.bound = Bound.dynamic l.quad := by
        simp only [rewriteLoops, dynamicBounds, inlinePre, List.map_cons, List.map_map]
        rcases List.mem_cons.1 hl with rfl | hl
        · exact ⟨_, List.mem_cons_self .., rfl⟩
        · exact ⟨_, List.mem_cons_of_mem _ (List.mem_map.2 ⟨l, hl, rfl⟩), rfl⟩
      obtain ⟨l1, h1, h2⟩ := this
      refine ⟨_, List.mem_map.2 ⟨l1, h1, rfl⟩, ?_⟩
      split
      · exact h2
      · exact h2
  rw [hc]
  obtain ⟨l', hl', hb'⟩ := hlM
  cases M with
  | nil => simp at hl'
  | cons m ms =>
    rw [addPrologue, run]
    simp only [hM m (List.mem_cons_self ..), List.append_nil]
    split
    · next sc' env' A1 he =>
      have hp : sc'.points l.quad = false := by rw [exec_points D I.tdim l.quad none _ hnot _ _ _ he]; rfl
      have := run_undeclared D I.tdim (m :: ms) hM sc' env' A1 hl' hb' hp
      rw [run, hM m (List.mem_cons_self ..)] at this
      exact this
    · rfl

end

/-! ### A kernel -/

/-- Mass over the interior (quadrature 0) and a flux through the unfitted boundary (quadrature 1, constants 3 and 4 for the normal). -/
def infoEx : Info where
  tables := [0, 1, 2]
  constant := fun t => t = 1
  permuted := fun _ => false
  quadOf := fun t => if t = 2 then 1 else 0
  quads := [0, 1]
  boundary := fun q => q = 1
  interior := false
  normals := [3]
  tdim := 2

/-- The two loops: a mass matrix of two functions, computed with a local array, and the flux. -/
def loopsEx : Loop ℤ × Loop ℤ :=
  ({ quad := 0
     pre := [.code (.seq (.decl 0 1 (.lit 0)) (.loop 0 2 (.set 0 (.lit 0) (.op (· + ·) (.var 0 (.lit 0)) (.input 0 (.var 0)))))),
       .marker, .declWeights 0, .declWeights 1, .declTable 0, .declTable 1, .declTable 2,
       .code (.decl 1 1 (.table4 1 none 0 (some 0) (.lit 0)))]
     bound := .fixed 1
     body := [.code (.decl 2 1 (.op (· * ·) (.weight 0) (.var 1 (.lit 0)))),
       .code (.block (.seq (.decl 3 2 (.lit 0)) (.seq
         (.loop 0 2 (.set 3 (.var 0) (.op (· * ·) (.var 2 (.lit 0)) (.table4 0 none 0 none (.var 0)))))
         (.loop 0 2 (.loop 1 2 (.accum (.add (.mul (.lit 2) (.var 0)) (.var 1))
           (.op (· * ·) (.table4 0 none 0 none (.var 0)) (.var 3 (.var 1)))))))))] },
   { quad := 1
     pre := []
     bound := .fixed 1
     body := [.code (.loop 0 2 (.accum (.var 0) (.op (· * ·) (.op (· * ·) (.weight 1) (.table4 2 none 0 none (.var 0)))
       (.op (· * ·) (.var 0 (.lit 0)) (.const 4)))))] })

/-- Two points in the interior and one in the boundary. -/
def valuesEx : Values ℤ where
  const := fun k => k + 2
  input := fun _ k => k + 1
  staticWeight := fun _ _ => 100
  staticTable := fun t _ _ _ d => 10 + t + d
  weight := fun q i => 1 + q + i
  table := fun t _ j d => 3 + t + j + 5 * d
  normals := fun _ k => 7 + k
  points := fun q => 2 - q

theorem shapeEx : Shape infoEx loopsEx.1 [loopsEx.2]
    [.code (.seq (.decl 0 1 (.lit 0)) (.loop 0 2 (.set 0 (.lit 0) (.op (· + ·) (.var 0 (.lit 0)) (.input 0 (.var 0))))))] [0, 1] [0, 1, 2]
    [.code (.decl 1 1 (.table4 1 none 0 (some 0) (.lit 0)))] where
  pre := rfl
  setup := by simp [IsSetup, FromFFCx, Code.All, Code.NoAccum]
  more := by simp [IsSetup, FromFFCx, Code.All, Code.NoAccum, infoEx]
  tables := by simp
  between := by simp [loopsEx]
  body := by simp [loopsEx, IsBody, FromFFCx, Code.All, infoEx]
  quads := by simp [loopsEx, infoEx]

theorem localEx : ∀ l ∈ [loopsEx.1, loopsEx.2], Local l.body := by
  intro l hl
  simp only [List.mem_cons, List.not_mem_nil, or_false] at hl
  rcases hl with rfl | rfl <;> (unfold Local; decide +kernel)

/-- Entry (0, 1): `(1·3·8 + 2·4·9)·11` in the interior, `2·10·3·8` in the boundary. -/
example : (run valuesEx 2 (customVariant infoEx [loopsEx.1, loopsEx.2]) .empty [] (fun _ => 0)).map (· 1) =
    some ((1 * 3 * 8 + 2 * 4 * 9) * 11 + 2 * 10 * 3 * 8) := by
  decide +kernel

example : (ideal valuesEx infoEx loopsEx.1.pre [loopsEx.1, loopsEx.2] (fun _ => 0)).map (· 1) =
    some ((1 * 3 * 8 + 2 * 4 * 9) * 11 + 2 * 10 * 3 * 8) := by
  decide +kernel

/-- In the entities that are not cut, one point with the static tables and nothing in the boundary. -/
example : (run valuesEx 2 (originalVariant infoEx [loopsEx.1, loopsEx.2]) .empty [] (fun _ => 0)).map (· 1) = some (100 * 11 * 10 * 11) := by
  decide +kernel

example : (run valuesEx 2 ([loopsEx.1, loopsEx.2].map (skip infoEx)) .empty [] (fun _ => 0)).map (· 1) = some (100 * 11 * 10 * 11) := by
  decide +kernel

/-- The data of FFCx. -/
example : SameRule { valuesEx with weight := fun _ _ => 100, table := fun t _ _ d => 10 + t + d, points := fun _ => 1 } infoEx [loopsEx.1] where
  boundary := by simp [loopsEx, infoEx]
  points := by simp [loopsEx]
  weight := rfl
  table := by intro t p e j d _; rfl

example : ∃ setup more, Shape infoEx loopsEx.1 [] setup [0, 1] [0, 1, 2] more :=
  ⟨_, _, { shapeEx with between := by simp, body := fun l hl => shapeEx.body l (by simp_all), quads := fun l hl => shapeEx.quads l (by simp_all) }⟩

/-- A loop over a quadrature without tables. -/
example : (run valuesEx 2 (customVariant { infoEx with quads := [0] } [loopsEx.1, loopsEx.2]) .empty [] (fun _ => 0)).isNone = true := by
  decide +kernel

/-- Without `Local` the variants differ: a variable declared before the loops that a loop changes is kept from point to point in FFCx's
kernel (0 + 1 + 2), but set again at each point when its declaration is moved into the loop. -/
theorem C75_shared_variables_fail : ∃ (D : Values ℤ) (I : Info) (first : Loop ℤ) (setup more : List (Stmt ℤ)) (ws ts : List Nat),
    Shape I first [] setup ws ts more ∧ SameRule D I [first] ∧
      (run D I.tdim [first] .empty [] (fun _ => 0)).map (· 0) = some 3 ∧
      (run D I.tdim (customVariant I [first]) .empty [] (fun _ => 0)).map (· 0) = some 2 := by
  refine ⟨{ valuesEx with weight := fun _ _ => 100, table := fun t _ _ d => 10 + t + d, points := fun _ => 2 }, infoEx,
    { quad := 0, pre := [.code (.decl 0 1 (.lit 0)), .marker, .declWeights 0, .declTable 0], bound := .fixed 2,
      body := [.code (.set 0 (.lit 0) (.op (· + ·) (.var 0 (.lit 0)) (.lit 1))), .code (.accum (.lit 0) (.var 0 (.lit 0)))] },
    [.code (.decl 0 1 (.lit 0))], [], [0], [0], ?_, ?_, by decide +kernel, by decide +kernel⟩
  · constructor <;> simp [IsSetup, IsBody, FromFFCx, Code.All, Code.NoAccum, infoEx]
  · constructor
    · simp [infoEx]
    · simp
    · rfl
    · intro t p e j d _; rfl

end Qugar.Py.Kernel
