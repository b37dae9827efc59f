import Mathlib.Algebra.Group.Defs
import Mathlib.Data.List.Basic
/-
Model of python/qugar/dolfinx/_kernel_body.py (`KernelBody`), parsing_utils.py (`get_pairing_brackets` and the types) and of the two
variants of the kernels in codegeneration.py (`_create_non_custom_quad_function`, `_create_custom_function`).

Two levels: the text (lists of characters) for the splitting of the code into loops, and a small language of statements with the scopes of
C (blocks, loops over the functions of the elements, local arrays) for the transformations of the kernels. A name may be declared again in
the same scope. Matches of regular expressions are positions (first level) or the constructors of the language (second level).
-/
namespace Qugar.Py.Kernel

/-! ### Text -/

/-- State of the loop of `get_pairing_brackets`: position, `start`, `n_open`. parsing_utils.py:50-61. -/
def pairFrom (op cl : Char) : List Char → Nat → Nat → Int → Option (Nat × Nat)
  | [], _, _, _ => none
  | ch :: text, i, start, n =>
    if ch = op then pairFrom op cl text (i + 1) (if n = 0 then i else start) (n + 1)
    else if ch = cl then if n - 1 = 0 then some (start, i + 1) else pairFrom op cl text (i + 1) start (n - 1)
    else pairFrom op cl text (i + 1) start n

/-- `get_pairing_brackets`; `none` if the assertion fails. parsing_utils.py:23-61. -/
def getPairing (op cl : Char) (text : List Char) : Option (Nat × Nat) := pairFrom op cl text 0 0 0

/-- `text[a:b]`. -/
def slice (text : List Char) (a b : Nat) : List Char := (text.take b).drop a

/-- A loop of the text: `pre_text`, `header` (with its opening bracket) and `body`. _kernel_body.py:73-97. -/
structure TextLoop where
  pre : List Char
  header : List Char
  body : List Char
deriving DecidableEq

/-- The loop over the headers, found by the regular expression (start and end of each): loops and remaining text. `none` if brackets do
not match or there is something between a header and its bracket. The name of the quadrature is not in this model.
_kernel_body.py:191-226. -/
def parseLoops (blank : Char → Bool) (text : List Char) : List (Nat × Nat) → Nat → Option (List TextLoop × List Char)
  | [], ind => some ([], text.drop ind)
  | (s, e) :: hs, ind =>
    match getPairing '{' '}' (text.drop e) with
    | none => none
    | some (bo, bc) =>
      if ((text.drop e).take bo).all blank then
        match parseLoops blank text hs (e + bc) with
        | none => none
        | some (loops, post) =>
          some (⟨slice text ind s, slice text s (e + bo + 1), slice (text.drop e) (bo + 1) (bc - 1)⟩ :: loops, post)
      else none

/-- `render_body`, without the first bracket: the loops and the text after them. _kernel_body.py:266-277. -/
def renderLoops (loops : List TextLoop) (post : List Char) : List Char :=
  (loops.flatMap fun l => l.pre ++ l.header ++ l.body ++ ['}']) ++ post

/-- `text.find(ab)`. -/
def findPair (a b : Char) : List Char → Option Nat
  | x :: y :: t => if x = a ∧ y = b then some 0 else (findPair a b (y :: t)).map (· + 1)
  | _ => none

/-- `cb`, where the function ends. _kernel_body.py:162-166. -/
def functionEnd (sub : List Char) : Option Nat := (findPair '\n' '}' sub.reverse).map fun rm => sub.length - rm + 1

/-! ### Types -/

/-- Types of NumPy. -/
inductive DType where
  | float32
  | float64
  | complex64
  | complex128
deriving DecidableEq

/-- `dtype_to_C_str`. parsing_utils.py:64-95. -/
def toC : DType → String
  | .float32 => "float"
  | .float64 => "double"
  | .complex64 => "float _Complex"
  | .complex128 => "double _Complex"

/-- `parse_dtype_C`; `none` is an exception. parsing_utils.py:98-136. -/
def ofC (s : String) : Option DType :=
  if s ∈ ["float", "float32"] then some .float32
  else if s ∈ ["double", "float64"] then some .float64
  else if s ∈ ["complex float", "float _Complex", "complex64"] then some .complex64
  else if s ∈ ["complex double", "double _Complex", "complex128"] then some .complex128
  else none

/-- `parse_real_dtype_from_C`. parsing_utils.py:139-163. -/
def realOfC (s : String) : Option DType :=
  match ofC s with
  | some .float32 => some .float32
  | some .float64 => some .float64
  | _ => none

/-! ### Kernels -/

/-- Integer expressions of numbers and variables of loops. -/
inductive Idx where
  | lit (n : Nat)
  | var (v : Nat)
  | add (a b : Idx)
  | mul (a b : Idx)
deriving DecidableEq

/-- Expressions of the kernels. Quadratures, tables, variables, inputs and constants have numbers. A point index is a literal or `iq`
(`none`); a permutation is `0` (`none`) or `quadrature_permutation[s]`. -/
inductive Expr (R : Type) where
  | lit (r : R)
  /-- `x` or `x[k]` -/
  | var (x : Nat) (k : Idx)
  /-- `w[k]`, `coordinate_dofs[k]` -/
  | input (a : Nat) (k : Idx)
  /-- `c[k]` -/
  | const (k : Nat)
  /-- `weights_q[iq]` -/
  | weight (q : Nat)
  /-- `FE_t[perm][entity][point][dof]` -/
  | table4 (t : Nat) (perm : Option Nat) (entity : Nat) (point : Option Nat) (dof : Idx)
  /-- `FE_t[n * point + dof]`, or `FE_t[side][n * point + dof]` -/
  | table1 (t : Nat) (side : Option Nat) (point : Option Nat) (dof : Idx)
  /-- `normals_q[tdim * iq + i]` -/
  | normal (q i : Nat)
  | op (f : R → R → R) (a b : Expr R)

/-- Computations. -/
inductive Code (R : Type) where
  | skip
  | seq (a b : Code R)
  /-- `double x = e;`, or an array of `n` entries -/
  | decl (x n : Nat) (e : Expr R)
  /-- `x[k] = e;` (`x[k] += e` is `x[k] = x[k] + e`) -/
  | set (x : Nat) (k : Idx) (e : Expr R)
  /-- `A[i] += e;` -/
  | accum (i : Idx) (e : Expr R)
  /-- `{ c }` -/
  | block (c : Code R)
  /-- `for (int v = 0; v < n; ++v) { c }` -/
  | loop (v n : Nat) (c : Code R)

/-- Statements. -/
inductive Stmt (R : Type) where
  /-- `// Quadrature rules` -/
  | marker
  /-- `static const double weights_q[..] = ..;` -/
  | declWeights (q : Nat)
  /-- `static const double FE_t[..][..][..][..] = ..;` -/
  | declTable (t : Nat)
  | code (c : Code R)
  /-- `break;` -/
  | brk
  /-- pointers to the weights, points and number of points of a quadrature, and to its normals; loader. codegeneration.py:450-471 -/
  | declDynamic (q : Nat) (normals : Bool)
  /-- pointer to a table (or to the two of an interior facet). codegeneration.py:576-657 -/
  | declDynTable (t : Nat) (two : Bool)

/-- Upper bound of a loop: a number, or `n_pts_Qq`. -/
inductive Bound where
  | fixed (n : Nat)
  | dynamic (q : Nat)
deriving DecidableEq

/-- A quadrature loop. _kernel_body.py:73-97. -/
structure Loop (R : Type) where
  quad : Nat
  pre : List (Stmt R)
  bound : Bound
  body : List (Stmt R)

/-- Data of the tables and quadratures of an integral: `FETable`, `quad_data_FE_tables`. -/
structure Info where
  /-- names of the tables -/
  tables : List Nat
  /-- `is_constant_for_pts()` -/
  constant : Nat → Bool
  /-- more than one permutation -/
  permuted : Nat → Bool
  /-- quadrature of the table -/
  quadOf : Nat → Nat
  /-- quadratures of the integral that have tables (`quad_by_name`) -/
  quads : List Nat
  /-- `unfitted_boundary` -/
  boundary : Nat → Bool
  /-- the integral is over interior facets -/
  interior : Bool
  /-- offsets of the constants that stand for the normals. codegeneration.py:245-261 -/
  normals : List Nat
  tdim : Nat

/-- `is_interior_facet and table.permutations > 1`. codegeneration.py:579. -/
def Info.two (I : Info) (t : Nat) : Bool := I.interior && I.permuted t

/-- `erase_static_declarations`, on the text before the first loop: removed from the marker to the last table.
_kernel_body.py:344-365. -/
def eraseStatic {R : Type} (text : List (Stmt R)) : List (Stmt R) :=
  let isMarker : Stmt R → Bool := fun s => match s with | .marker => true | _ => false
  let isTable : Stmt R → Bool := fun s => match s with | .declTable _ => true | _ => false
  if text.any isMarker && text.any isTable then
    text.take (text.findIdx isMarker) ++ text.drop (text.length - text.reverse.findIdx isTable)
  else text

/-- `transform` of `rewrite_table_accesses`, in an expression. _kernel_body.py:367-394. -/
def rewrite {R : Type} (I : Info) : Expr R → Expr R
  | .table4 t p e i d =>
    if t ∈ I.tables then
      if I.constant t then .table4 t p e i d else .table1 t (if I.interior then p else none) i d
    else .table4 t p e i d
  | .op f a b => .op f (rewrite I a) (rewrite I b)
  | e => e

/-- Replacement of one constant by a component of the normal. _kernel_body.py:436-443. -/
def replaceConst {R : Type} (q k i : Nat) : Expr R → Expr R
  | .const k' => if k' = k then .normal q i else .const k'
  | .op f a b => .op f (replaceConst q k i a) (replaceConst q k i b)
  | e => e

/-- The loops over offsets and components. _kernel_body.py:434-443. -/
def replaceNormals {R : Type} (I : Info) (q : Nat) (e : Expr R) : Expr R :=
  I.normals.foldl (fun e off => (List.range I.tdim).foldl (fun e i => replaceConst q (off + i) i e) e) e

/-- The expressions of a computation. -/
def Code.map {R : Type} (f : Expr R → Expr R) : Code R → Code R
  | .skip => .skip
  | .seq a b => .seq (a.map f) (b.map f)
  | .decl x n e => .decl x n (f e)
  | .set x k e => .set x k (f e)
  | .accum i e => .accum i (f e)
  | .block c => .block (c.map f)
  | .loop v n c => .loop v n (c.map f)

/-- The expressions of a statement. -/
def Stmt.map {R : Type} (f : Expr R → Expr R) : Stmt R → Stmt R
  | .code c => .code (c.map f)
  | s => s

/-- `inline_pre_loop_into_loops`. _kernel_body.py:310-327. -/
def inlinePre {R : Type} : List (Loop R) → List (Loop R)
  | [] => []
  | l :: ls => { l with pre := [], body := l.pre ++ l.body } :: ls.map fun l' => { l' with body := l.pre ++ l'.body }

/-- `break_unfitted_loops`. _kernel_body.py:329-342. -/
def breakUnfitted {R : Type} (I : Info) (ls : List (Loop R)) : List (Loop R) :=
  ls.map fun l => if l.quad ∈ I.quads ∧ I.boundary l.quad = true then { l with body := .brk :: l.body } else l

/-- `erase_static_declarations` and `rewrite_table_accesses`. _kernel_body.py:344-403. -/
def rewriteLoops {R : Type} (I : Info) : List (Loop R) → List (Loop R)
  | [] => []
  | l :: ls =>
    { l with pre := (eraseStatic l.pre).map (Stmt.map (rewrite I)), body := l.body.map (Stmt.map (rewrite I)) } ::
      ls.map fun l' => { l' with body := l'.body.map (Stmt.map (rewrite I)) }

/-- `dynamic_loop_bounds`. _kernel_body.py:405-417. -/
def dynamicBounds {R : Type} (ls : List (Loop R)) : List (Loop R) := ls.map fun l => { l with bound := .dynamic l.quad }

/-- `substitute_normals`. _kernel_body.py:419-445. -/
def substituteNormals {R : Type} (I : Info) (ls : List (Loop R)) : List (Loop R) :=
  ls.map fun l =>
    if l.quad ∈ I.quads ∧ I.boundary l.quad = true then { l with body := l.body.map (Stmt.map (replaceNormals I l.quad)) } else l

/-- The declarations of one quadrature: tables that do not depend on the point, pointers and loader, the other tables.
codegeneration.py:432-657. -/
def declarations {R : Type} (I : Info) (q : Nat) : List (Stmt R) :=
  ((I.tables.filter fun t => I.quadOf t = q && I.constant t).map .declTable) ++ [.declDynamic q (I.boundary q)] ++
    ((I.tables.filter fun t => I.quadOf t = q && !I.constant t).map fun t => .declDynTable t (I.two t))

/-- `_create_non_custom_quad_function`. codegeneration.py:661-677. -/
def originalVariant {R : Type} (I : Info) (ls : List (Loop R)) : List (Loop R) :=
  if I.quads.any I.boundary then breakUnfitted I (inlinePre ls) else ls

/-- The code before the first loop of `_create_custom_function`. codegeneration.py:717-727. -/
def addPrologue {R : Type} (I : Info) : List (Loop R) → List (Loop R)
  | [] => []
  | l :: ls => { l with pre := I.quads.flatMap (declarations I) ++ l.pre } :: ls

/-- `_create_custom_function`. codegeneration.py:679-729. -/
def customVariant {R : Type} (I : Info) (ls : List (Loop R)) : List (Loop R) :=
  addPrologue I (substituteNormals I (inlinePre (dynamicBounds (rewriteLoops I ls))))

/-! ### Meaning of the kernels in C -/

/-- The values of everything. The static tables and weights of FFCx, and those loaded or computed at run time. -/
structure Values (R : Type) where
  const : Nat → R
  input : Nat → Nat → R
  staticWeight : Nat → Nat → R
  staticTable : Nat → Option Nat → Nat → Nat → Nat → R
  weight : Nat → Nat → R
  table : Nat → Option Nat → Nat → Nat → R
  normals : Nat → Nat → R
  points : Nat → Nat

/-- What a name is. -/
inductive Binding where
  | static
  | dynamic (two : Bool)
deriving DecidableEq

/-- The names in scope, other than variables: weights, tables; number of points and normals. -/
structure Scope (R : Type) where
  weights : Nat → Option Binding
  tables : Nat → Option Binding
  points : Nat → Bool
  normals : Nat → Bool

/-- The variables in scope with the values of their entries, the last declared first. -/
abbrev Env (R : Type) := List (Nat × List R)

/-- The entries of the variable `x`. -/
def Env.lookup {R : Type} (x : Nat) : Env R → Option (List R)
  | [] => none
  | (y, l) :: env => if y = x then some l else Env.lookup x env

/-- `x[j] = r`; `none` if there is no such entry. -/
def Env.assign {R : Type} (x j : Nat) (r : R) : Env R → Option (Env R)
  | [] => none
  | (y, l) :: env => if y = x then if j < l.length then some ((y, l.set j r) :: env) else none else (Env.assign x j r env).map ((y, l) :: ·)

/-- The variables that remain at the end of a block that began with the variables `env`. -/
def Env.leave {R : Type} (env env' : Env R) : Env R := env'.drop (env'.length - env.length)

/-- Value of an index, given the values of the variables of the loops. -/
def Idx.val (ρ : Nat → Option Nat) : Idx → Option Nat
  | .lit n => some n
  | .var v => ρ v
  | .add a b => (a.val ρ).bind fun x => (b.val ρ).map fun y => x + y
  | .mul a b => (a.val ρ).bind fun x => (b.val ρ).map fun y => x * y

/-- Value of an expression in a scope, with the value of `iq` inside of a loop over points; `none` if the code does not compile or
reads outside of an array. -/
def eval {R : Type} (D : Values R) (tdim : Nat) (sc : Scope R) (iq : Option Nat) (env : Env R) (ρ : Nat → Option Nat) : Expr R → Option R
  | .lit r => some r
  | .var x k => (k.val ρ).bind fun j => (env.lookup x).bind fun l => l[j]?
  | .input a k => (k.val ρ).map (D.input a)
  | .const k => some (D.const k)
  | .weight q =>
    match sc.weights q, iq with
    | some .static, some i => some (D.staticWeight q i)
    | some (.dynamic _), some i => some (D.weight q i)
    | _, _ => none
  | .table4 t p e i d =>
    match sc.tables t, i.or iq with
    | some .static, some j => (d.val ρ).map (D.staticTable t p e j)
    | _, _ => none
  | .table1 t s i d =>
    match sc.tables t, i.or iq with
    | some (.dynamic two), some j => if s.isSome = two then (d.val ρ).map (D.table t s j) else none
    | _, _ => none
  | .normal q i =>
    match sc.normals q, iq with
    | true, some j => some (D.normals q (tdim * j + i))
    | _, _ => none
  | .op f a b =>
    match eval D tdim sc iq env ρ a, eval D tdim sc iq env ρ b with
    | some x, some y => some (f x y)
    | _, _ => none

/-- `f 0`, …, `f (n - 1)`, one after the other. -/
def times {α : Type} (f : Nat → α → Option α) : Nat → α → Option α
  | 0, x => some x
  | n + 1, x => (times f n x).bind (f n)

/-- Execution of a computation, given the values of expressions: variables and `A` afterwards. -/
def Code.exec {R : Type} [Add R] (ev : Env R → (Nat → Option Nat) → Expr R → Option R) : Code R → (Nat → Option Nat) → Env R → (Nat → R) →
    Option (Env R × (Nat → R))
  | .skip, _, env, A => some (env, A)
  | .seq a b, ρ, env, A => (a.exec ev ρ env A).bind fun x => b.exec ev ρ x.1 x.2
  | .decl x n e, ρ, env, A => (ev env ρ e).map fun r => ((x, List.replicate n r) :: env, A)
  | .set x k e, ρ, env, A => (ev env ρ e).bind fun r => (k.val ρ).bind fun j => (env.assign x j r).map fun env' => (env', A)
  | .accum i e, ρ, env, A => (ev env ρ e).bind fun r => (i.val ρ).map fun j => (env, Function.update A j (A j + r))
  | .block c, ρ, env, A => (c.exec ev ρ env A).map fun x => (env.leave x.1, x.2)
  | .loop v n c, ρ, env, A =>
    times (fun k x => (c.exec ev (Function.update ρ v (some k)) x.1 x.2).map fun y => (x.1.leave y.1, y.2)) n (env, A)

/-- No variable of a loop. -/
def noLoop : Nat → Option Nat := fun _ => none

/-- Execution of statements: names and variables afterwards, `A`, and whether a `break` was executed. -/
def exec {R : Type} [Add R] (D : Values R) (tdim : Nat) (iq : Option Nat) : List (Stmt R) → Scope R → Env R → (Nat → R) →
    Option (Scope R × Env R × (Nat → R) × Bool)
  | [], sc, env, A => some (sc, env, A, false)
  | s :: ss, sc, env, A =>
    match s with
    | .marker => exec D tdim iq ss sc env A
    | .declWeights q => exec D tdim iq ss { sc with weights := Function.update sc.weights q (some .static) } env A
    | .declTable t => exec D tdim iq ss { sc with tables := Function.update sc.tables t (some .static) } env A
    | .code c => (c.exec (eval D tdim sc iq) noLoop env A).bind fun x => exec D tdim iq ss sc x.1 x.2
    | .brk => match iq with
      | some _ => some (sc, env, A, true)
      | none => none
    | .declDynamic q n => exec D tdim iq ss { sc with
        weights := Function.update sc.weights q (some (.dynamic false)), points := Function.update sc.points q true,
        normals := Function.update sc.normals q n } env A
    | .declDynTable t two => exec D tdim iq ss { sc with tables := Function.update sc.tables t (some (.dynamic two)) } env A

/-- The iterations `k`, …, `k + n - 1` of a loop, whose body has its own scope. -/
def iterate {R : Type} [Add R] (D : Values R) (tdim : Nat) (body : List (Stmt R)) (sc : Scope R) : Nat → Nat → Env R → (Nat → R) →
    Option (Env R × (Nat → R))
  | 0, _, env, A => some (env, A)
  | n + 1, k, env, A =>
    match exec D tdim (some k) body sc env A with
    | none => none
    | some (_, env', A', true) => some (env.leave env', A')
    | some (_, env', A', false) => iterate D tdim body sc n (k + 1) (env.leave env') A'

/-- Execution of a kernel. -/
def run {R : Type} [Add R] (D : Values R) (tdim : Nat) : List (Loop R) → Scope R → Env R → (Nat → R) → Option (Nat → R)
  | [], _, _, A => some A
  | l :: ls, sc, env, A =>
    match exec D tdim none l.pre sc env A with
    | some (sc', env', A', false) =>
      match (match l.bound with
        | .fixed n => some n
        | .dynamic q => if sc'.points q then some (D.points q) else none) with
      | none => none
      | some n =>
        match iterate D tdim l.body sc' n 0 env' A' with
        | none => none
        | some (env'', A'') => run D tdim ls sc' env'' A''
    | _ => none

/-- Nothing declared. -/
def Scope.empty {R : Type} : Scope R := ⟨fun _ => none, fun _ => none, fun _ => false, fun _ => false⟩

end Qugar.Py.Kernel
