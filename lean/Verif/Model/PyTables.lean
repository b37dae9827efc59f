import Mathlib.Data.Nat.Choose.Basic
import Mathlib.Algebra.Order.Ring.Rat
/-
Model of the part of python/qugar/dolfinx/codegeneration.py and fe_table.py that generates the code that computes the tables of finite
elements at the custom points, of that code, and of python/qugar/dolfinx/_shim/qugar_basix_shim.cpp, which it calls.

The generated code is modelled as a list of statements, with the expressions of sizes evaluated for the number of points of the entity.
-/
namespace Qugar.Py.Tables

variable {P K : Type}

/-- Facts about the elements of Basix (external code). `P` are the parameters of `create_element`. -/
structure Basix (P K : Type) where
  /-- dimension of the reference cell -/
  dim : P → Nat
  /-- number of functions -/
  dofs : P → Nat
  /-- number of components of the functions -/
  values : P → Nat
  /-- `create_element` succeeds -/
  valid : P → Bool
  /-- derivative with the given orders of a component of a function at a point: element, point, orders, function, component -/
  eval : P → List K → List Nat → Nat → Nat → K

/-- Elements of `basix.ufl`: mixed ones, blocked ones (block size, number of components) and the others. -/
inductive Elem (P : Type) where
  | mixed (subs : List (Elem P))
  | blocked (blockSize valueSize : Nat) (core : P)
  | plain (core : P)

mutual
/-- `reference_value_size`. -/
def Elem.size (values : P → Nat) : Elem P → Nat
  | .mixed subs => Elem.sizes values subs
  | .blocked _ vs _ => vs
  | .plain core => values core

/-- Sum of `reference_value_size` of the sub-elements. -/
def Elem.sizes (values : P → Nat) : List (Elem P) → Nat
  | [] => 0
  | s :: ss => s.size values + Elem.sizes values ss
end

mutual
/-- `_resolve_mixed_component`; `none` if it raises an exception. codegeneration.py:281-299. -/
def resolve (values : P → Nat) : Elem P → Nat → Option (Elem P × Nat)
  | .mixed subs, c => resolveSubs values subs 0 c
  | e, c => some (e, c)

/-- The loop of `_resolve_mixed_component` over the sub-elements. codegeneration.py:290-299. -/
def resolveSubs (values : P → Nat) : List (Elem P) → Nat → Nat → Option (Elem P × Nat)
  | [], _, _ => none
  | sub :: subs, acc, c =>
    if c < acc + sub.size values then resolve values sub (c - acc) else resolveSubs values subs (acc + sub.size values) c
end

/-- `FETable`: what the generation of code uses of a table. `const` is `is_constant_for_pts()`. fe_table.py:186-306. -/
structure Table (P : Type) where
  name : Nat
  elem : Elem P
  elemDim : Nat
  component : Nat
  derivs : List Nat
  funcs : Nat
  perms : Nat
  const : Bool

/-- `basix.index` (external), in dimensions 1 to 3. -/
def index : List Nat → Nat
  | [p] => p
  | [p, q] => (p + q + 1) * (p + q) / 2 + q
  | [p, q, r] => (p + q + r) * (p + q + r + 1) * (p + q + r + 2) / 6 + (q + r) * (q + r + 1) / 2 + r
  | _ => 0

/-- The dictionary returned by `_table_codegen_info`. codegeneration.py:335-343. -/
structure Info (P : Type) where
  params : P
  gdim : Nat
  vs : Nat
  ndofs : Nat
  didx : Nat
  vaxis : Nat
  maxnd : Nat

/-- `_table_codegen_info`; `none` if it raises an exception. codegeneration.py:302-343. -/
def info (values : P → Nat) (t : Table P) : Option (Info P) :=
  match resolve values t.elem t.component with
  | none => none
  | some (el, localC) =>
    let gdim := t.elemDim
    let derivs := (t.derivs ++ List.replicate gdim 0).take gdim
    match el with
    | .mixed _ => none
    | .blocked bs vs core => some
      { params := core, gdim := gdim, vs := if bs > 1 then 1 else vs, ndofs := t.funcs, didx := index derivs,
        vaxis := if bs > 1 then 0 else localC, maxnd := derivs.sum }
    | .plain core => some
      { params := core, gdim := gdim, vs := values core, ndofs := t.funcs, didx := index derivs, vaxis := localC, maxnd := derivs.sum }

/-- A group of tables with the same parameters. codegeneration.py:488-491. -/
abbrev Group (P : Type) := P × List (Table P × Info P)

/-- `groups.setdefault(info["params"], []).append((table, info))`: dictionaries keep the order of insertion. codegeneration.py:491. -/
def insert [DecidableEq P] : List (Group P) → P → Table P × Info P → List (Group P)
  | [], p, x => [(p, [x])]
  | g :: gs, p, x => if g.1 = p then (g.1, g.2 ++ [x]) :: gs else g :: insert gs p x

/-- The groups of the tables that are not constant; `none` if an exception is raised. codegeneration.py:486-491. -/
def groups [DecidableEq P] (values : P → Nat) (tables : List (Table P)) : Option (List (Group P)) :=
  (tables.filter fun t => !t.const).foldl (fun acc t =>
    match acc, info values t with
    | some gs, some i => some (insert gs i.params (t, i))
    | _, _ => none) (some [])

/-- Which points are used: those of the cell in the first side, in the second side, or those in the coordinates of the facet. -/
inductive Pts where
  | cell
  | side1
  | facet
deriving DecidableEq

/-- The statements of the generated code. Offsets and sizes are in the scratch array. -/
inductive Stmt (P : Type) where
  /-- `T* scratch = qugar_get_scratch(total)` -/
  | getScratch (total : Nat)
  /-- `qugar_register_element(params)` and `qugar_tabulate(handle, maxnd, pts, n_pts, gdim, scratch + dst, capacity)` -/
  | tabulate (params : P) (maxnd : Nat) (pts : Pts) (gdim dst capacity : Nat)
  /-- the loops of `_repack_into`: `dst[iq * funcs + kd] = src[didx * n * stride + iq * stride + kd * vs + vaxis]` -/
  | repack (dst src funcs didx stride vs vaxis : Nat)
  /-- `table = scratch + offset`, or `table[side] = scratch + offset` -/
  | point (table side offset : Nat)

/-- Data of a group. codegeneration.py:507-510. -/
structure Meta (P : Type) where
  params : P
  items : List (Table P × Info P)
  gdim : Nat
  ndofs : Nat
  vs : Nat
  maxnd : Nat
  anyPerm : Bool
  blk : Nat

/-- First pass: data of a group. `interior`: integral over interior facets; `n`: number of points. codegeneration.py:497-510. -/
def groupMeta (interior : Bool) (n : Nat) (g : Group P) : Option (Meta P) :=
  match g.2 with
  | [] => none
  | x :: _ =>
    let maxnd := (g.2.map fun i => i.2.maxnd).foldl max 0
    let nderiv := Nat.choose (maxnd + x.2.gdim) x.2.gdim
    some { params := g.1, items := g.2, gdim := x.2.gdim, ndofs := x.2.ndofs, vs := x.2.vs, maxnd := maxnd,
           anyPerm := interior && g.2.any fun i => i.1.perms > 1, blk := nderiv * n * x.2.ndofs * x.2.vs }

/-- First pass: terms of the size of the scratch array for a group. codegeneration.py:511-520. -/
def scratchTerms (interior : Bool) (n : Nat) (m : Meta P) : List Nat :=
  [m.blk] ++ (if m.anyPerm then [m.blk] else []) ++
    m.items.flatMap fun i => if i.2.vs > 1 then
      [n * i.1.funcs] ++ (if interior && i.1.perms > 1 then [n * i.1.funcs] else []) else []

/-- Second pass: statements of a table, from the current offset, and the new offset. codegeneration.py:577-657. -/
def emitItem (interior : Bool) (n : Nat) (m : Meta P) (blk0 blk1 offset : Nat) (i : Table P × Info P) : List (Stmt P) × Nat :=
  let stride := m.ndofs * m.vs
  let twoSided := interior && i.1.perms > 1
  if m.vs = 1 then
    let off := i.2.didx * n * i.1.funcs
    if twoSided then ([.point i.1.name 0 (blk0 + off), .point i.1.name 1 (blk1 + off)], offset)
    else ([.point i.1.name 0 (blk0 + off)], offset)
  else
    let size := n * i.1.funcs
    if twoSided then
      ([.repack offset blk0 i.1.funcs i.2.didx stride m.vs i.2.vaxis,
        .repack (offset + size) blk1 i.1.funcs i.2.didx stride m.vs i.2.vaxis,
        .point i.1.name 0 offset, .point i.1.name 1 (offset + size)], offset + size + size)
    else
      ([.repack offset blk0 i.1.funcs i.2.didx stride m.vs i.2.vaxis, .point i.1.name 0 offset], offset + size)

/-- Second pass: the tables of a group one after the other. codegeneration.py:577-657. -/
def emitItems (interior : Bool) (n : Nat) (m : Meta P) (blk0 blk1 : Nat) : Nat → List (Table P × Info P) → List (Stmt P) × Nat
  | offset, [] => ([], offset)
  | offset, i :: is =>
    let r := emitItem interior n m blk0 blk1 offset i
    let rs := emitItems interior n m blk0 blk1 r.2 is
    (r.1 ++ rs.1, rs.2)

/-- Second pass: a group. codegeneration.py:536-657. -/
def emitGroup (interior mixedDim : Bool) (tdim n offset : Nat) (m : Meta P) : List (Stmt P) × Nat :=
  let pts := if mixedDim && m.gdim != tdim then Pts.facet else Pts.cell
  let blk0 := offset
  let first := Stmt.tabulate m.params m.maxnd pts m.gdim blk0 m.blk
  let offset := offset + m.blk
  let blk1 := offset
  let second := if m.anyPerm then [Stmt.tabulate m.params m.maxnd Pts.side1 m.gdim blk1 m.blk] else []
  let offset := if m.anyPerm then offset + m.blk else offset
  let r := emitItems interior n m blk0 blk1 offset m.items
  (first :: second ++ r.1, r.2)

/-- Second pass: the groups one after the other. codegeneration.py:536-657. -/
def emitGroups (interior mixedDim : Bool) (tdim n : Nat) : Nat → List (Meta P) → List (Stmt P) × Nat
  | offset, [] => ([], offset)
  | offset, m :: ms =>
    let r := emitGroup interior mixedDim tdim n offset m
    let rs := emitGroups interior mixedDim tdim n r.2 ms
    (r.1 ++ rs.1, rs.2)

/-- A quadrature of an integral at an entity: its tables and its points (in the cell, in the cell of the second side and in the facet). -/
structure Quad (P K : Type) where
  tables : List (Table P)
  n : Nat
  pts : Pts → List (List K)

/-- The code for the tables of a quadrature. codegeneration.py:486-657. -/
def emit [DecidableEq P] (values : P → Nat) (interior mixedDim : Bool) (tdim : Nat) (q : Quad P K) : Option (List (Stmt P)) := do
  let gs ← groups values q.tables
  let ms ← gs.mapM (groupMeta interior q.n)
  let terms := ms.flatMap (scratchTerms interior q.n)
  let scratch := if terms.isEmpty then [] else [Stmt.getScratch terms.sum]
  pure (scratch ++ (emitGroups interior mixedDim tdim q.n 0 ms).1)

/-- The state of the thread: the registry of elements and its index, the scratch array (`epoch` changes when it is reallocated), and the
pointers of the tables: the epoch when they were computed and the offset. -/
structure State (P K : Type) where
  registry : List P
  keys : List (P × Nat)
  size : Nat
  epoch : Nat
  data : Nat → K
  base : Nat
  ptr : Nat → Nat → Option (Nat × Nat)

/-- `register_impl`: the handle, or a negative number (`none`), and the new state. The registry contains the elements created with their
parameters, that identify them. qugar_basix_shim.cpp:48-71. -/
def register [DecidableEq P] (valid : P → Bool) (st : State P K) (key : P) : Option Nat × State P K :=
  match st.keys.find? fun k => k.1 = key with
  | some k => (some k.2, st)
  | none =>
    if valid key then
      (some st.registry.length, { st with registry := st.registry ++ [key], keys := (key, st.registry.length) :: st.keys })
    else (none, st)

/-- `qugar_shim_reset`. qugar_basix_shim.cpp:177-183. -/
def reset (st : State P K) : State P K := { st with registry := [], keys := [] }

/-- `get_scratch_impl`. The array is taken to be reallocated whenever it grows (it may be or not). qugar_basix_shim.cpp:116-126. -/
def getScratch (st : State P K) (n : Nat) : State P K :=
  if st.size < n then { st with size := n, epoch := st.epoch + 1, base := st.epoch + 1 } else { st with base := st.epoch }

/-- All the orders of derivation in dimension `g` with orders at most `m`. -/
def orders : Nat → Nat → List (List Nat)
  | 0, _ => [[]]
  | g + 1, m => (List.range (m + 1)).flatMap fun p => (orders g m).map fun ds => p :: ds

/-- The orders of derivation with index `d` (external: inverse of `basix.index`). -/
def unindex (g d : Nat) : List Nat := ((orders g d).find? fun ds => index ds = d).getD []

/-- The entries of the result of `tabulate` (external): an array with indices derivative, point, function and component. -/
def block (B : Basix P K) (core : P) (pts : List (List K)) (e : Nat) : K :=
  let v := e % B.values core
  let dof := e / B.values core % B.dofs core
  let p := e / B.values core / B.dofs core % pts.length
  let d := e / B.values core / B.dofs core / pts.length
  B.eval core (pts.getD p []) (unindex (B.dim core) d) dof v

/-- `tabulate_shape`: number of entries. -/
def need (B : Basix P K) (core : P) (nd n : Nat) : Nat :=
  Nat.choose (nd + B.dim core) (B.dim core) * n * B.dofs core * B.values core

/-- `tabulate_impl`, `none` if it returns an error (then the kernel returns), the dimension is wrong (Basix throws), the points given are
not of that dimension (they would be read with a wrong stride) or it writes out of bounds. qugar_basix_shim.cpp:88-110. -/
def tabulate [DecidableEq P] (B : Basix P K) (st : State P K) (handle nd : Nat) (pts : List (List K)) (gdim dst capacity : Nat) :
    Option (State P K) :=
  match st.registry[handle]? with
  | none => none
  | some core =>
    let need := need B core nd pts.length
    if capacity < need then none
    else if gdim ≠ B.dim core ∨ (pts.all fun p => p.length == gdim) = false then none
    else if st.base ≠ st.epoch ∨ st.size < dst + need then none
    else some { st with data := fun a => if dst ≤ a ∧ a < dst + need then block B core pts (a - dst) else st.data a }

/-- An assignment. -/
def assign (data : Nat → K) (a : Nat) (v : K) : Nat → K := fun i => if i = a then v else data i

/-- Execution of a statement with `n` points; `none` if the kernel returns or the behaviour is undefined.
codegeneration.py:536-657 and qugar_basix_shim.cpp:48-126. -/
def exec [DecidableEq P] (B : Basix P K) (n : Nat) (pts : Pts → List (List K)) (st : State P K) : Stmt P → Option (State P K)
  | .getScratch total => some (getScratch st total)
  | .tabulate params maxnd p gdim dst capacity =>
    match register B.valid st params with
    | (none, _) => none
    | (some h, st') => tabulate B st' h maxnd (pts p) gdim dst capacity
  | .repack dst src funcs didx stride vs vaxis =>
    let its := (List.range n).flatMap fun iq => (List.range funcs).map fun kd => (iq, kd)
    let from' := fun p : Nat × Nat => src + (didx * n * stride + p.1 * stride + p.2 * vs + vaxis)
    let to' := fun p : Nat × Nat => dst + (p.1 * funcs + p.2)
    if st.base ≠ st.epoch ∨ ¬ (∀ p ∈ its, from' p < st.size ∧ to' p < st.size) then none
    else some { st with data := its.foldl (fun data p => assign data (to' p) (data (from' p))) st.data }
  | .point table side offset =>
    some { st with ptr := fun t s => if t = table ∧ s = side then some (st.base, offset) else st.ptr t s }

/-- Execution of statements. -/
def execAll [DecidableEq P] (B : Basix P K) (n : Nat) (pts : Pts → List (List K)) : State P K → List (Stmt P) → Option (State P K)
  | st, [] => some st
  | st, s :: ss => (exec B n pts st s).bind fun st' => execAll B n pts st' ss

/-- The code for the tables of all the quadratures of an integral, executed before the loops over points.
codegeneration.py:431-659, 725-727. -/
def prologue [DecidableEq P] (B : Basix P K) (interior mixedDim : Bool) (tdim : Nat) : State P K → List (Quad P K) → Option (State P K)
  | st, [] => some st
  | st, q :: qs => do
    let code ← emit B.values interior mixedDim tdim q
    let st' ← execAll B q.n q.pts st code
    prologue B interior mixedDim tdim st' qs

/-- A read of a table in the loops, `table[idx]` or `table[side][idx]`: `none` if undefined or the memory was released. -/
def read (st : State P K) (table side idx : Nat) : Option K :=
  match st.ptr table side with
  | some (e, off) => if e = st.epoch then some (st.data (off + idx)) else none
  | none => none

/-! ### Accesses -/

/-- A factor of an index in the text of the code: a literal, a variable or an expression in parentheses (its value). -/
inductive Atom where
  | lit (n : Nat)
  | val (n : Nat)

/-- Value of a factor. -/
def Atom.value : Atom → Nat
  | .lit n => n
  | .val n => n

/-- The text of an index: a sum of products of factors, with the values the variables have. -/
abbrev Text := List (List Atom)

/-- How C evaluates a text. -/
def Text.value (t : Text) : Nat := (t.map fun p => (p.map Atom.value).prod).sum

/-- Text `f * ` followed by the text. -/
def times (f : Nat) : Text → Text
  | [] => []
  | p :: ps => (.lit f :: p) :: ps

/-- The text is the literal 0. fe_table.py:426-432, 440-441. -/
def isZero : Text → Bool
  | [[.lit 0]] => true
  | _ => false

/-- `create_new_access_code`: the text of the new index (`none` if it is empty, which is not valid C). fe_table.py:392-450. -/
def access (funcs : Nat) (iq dof : Text) : Option Text :=
  let terms := (if isZero iq then [] else [times funcs iq]) ++ (if isZero dof then [] else [dof])
  if terms.isEmpty then none else some terms.flatten

end Qugar.Py.Tables
