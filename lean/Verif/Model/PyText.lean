import Verif.Model.PyRegex
/-
Model, at the level of the text, of python/qugar/dolfinx/_kernel_body.py (parsing of the code of FFCx and transformations), fe_table.py
(tables of functions) and the checks of codegeneration.py. `none` is an exception (or a failed assertion).
-/
namespace Qugar.Py.Text
open Regex Kernel

/-! ### _kernel_body.py -/

/-- A loop with the name of its quadrature. _kernel_body.py:73-97. -/
structure TLoop where
  quad : List Char
  loop : TextLoop
deriving DecidableEq

/-- `KernelBody`: the texts. _kernel_body.py:100-127. -/
structure Body where
  before : List Char
  after : List Char
  signature : List Char
  name : List Char
  loops : List TLoop
  post : List Char
  coeffs : DType
deriving DecidableEq

/-- `lm.start()` and `lm.end()` of matches. -/
def spans : List Hit → Nat → List (Nat × Nat)
  | [], _ => []
  | h :: hs, i => (i + h.before.length, i + h.before.length + h.text.length) :: spans hs (i + h.before.length + h.text.length)

/-- The name of the quadrature of a loop. _kernel_body.py:211-216. -/
def quadName (body : List Char) : Option (List Char) :=
  match quadInBody.search body with
  | some (h, _) => h.groups[0]?
  | none => (quadInWeights.search body).bind fun x => x.1.groups[0]?

/-- The body of the function: the loops, and what is after them. _kernel_body.py:182-228. -/
def parseBody (impl : List Char) : Option (List TLoop × List Char) :=
  if impl.take 2 = ['{', '\n'] then
    let inside := impl.drop 2
    match inside.reverse.idxOf? '}' with
    | none => none
    | some k =>
      let text := inside.take (inside.length - 1 - k)
      match parseLoops isSpace text (spans (header.findIter text).1 0) 0 with
      | none => none
      | some (loops, post) =>
        match loops.mapM fun l => (quadName l.body).map fun q => (⟨q, l⟩ : TLoop) with
        | none => none
        | some ls => some (ls, post ++ inside.drop (inside.length - 1 - k))
  else none

/-- `from_ffcx`. _kernel_body.py:133-260. -/
def fromFfcx (code : List Char) : Option Body :=
  match funcSig.search code with
  | none => none
  | some (h, sub) =>
    match h.groups[0]?, sub.idxOf? '{', functionEnd sub, wParam.search h.text with
    | some name, some ob, some cb, some (wm, _) =>
      match (wm.groups[0]?).bind (fun ty => ofC (String.ofList ty)), parseBody (slice sub ob cb) with
      | some d, some (loops, post) => some ⟨h.before, sub.drop cb, h.text, name, loops, post, d⟩
      | _, _ => none
    | _, _, _, _ => none

/-- `render_body`. _kernel_body.py:266-279. -/
def Body.renderBody (b : Body) : List Char := (chars "{\n") ++ renderLoops (b.loops.map (·.loop)) b.post

/-- `render`. _kernel_body.py:281-289. -/
def Body.render (b : Body) (suffix : List Char) : List Char :=
  let sig := if suffix.isEmpty then b.signature else (lit b.name .eps).subFirst (fun _ => b.name ++ suffix) b.signature
  sig ++ b.renderBody ++ (chars "\n\n")

/-- `erase_static_declarations`, of the text before the first loop. _kernel_body.py:353-365. -/
def eraseText (text : List Char) : List Char :=
  match marker.search text with
  | none => text
  | some (m, _) =>
    match (spans (tableDecl.findIter text).1 0).getLast? with
    | none => text
    | some (_, e) => text.take m.before.length ++ text.drop e

/-- What `rewrite_table_accesses` uses of a table. -/
structure TableInfo where
  name : List Char
  /-- `is_constant_for_pts()` -/
  const : Bool
  perms : Nat
  funcs : Nat

/-- `int(text)`. -/
def natOf (ds : List Char) : Nat := ds.foldl (fun n c => 10 * n + (c.toNat - 48)) 0

/-- The index is the number 0. fe_table.py:426-432, 441. -/
def isZeroText (index : List Char) : Bool :=
  let s := index.filter (· ≠ ' ')
  !s.isEmpty && s.all isDigit && natOf s == 0

/-- `create_new_access_code`. fe_table.py:392-450. -/
def newAccess (t : TableInfo) (i0 i2 i3 : List Char) (hasPerms : Bool) : Option (List Char) :=
  let terms := (if isZeroText i2 then [] else [Nat.toDigits 10 t.funcs ++ (chars " * ") ++ i2]) ++ (if isZeroText i3 then [] else [i3])
  let plain := (chars "[") ++ ((chars " + ")).intercalate terms ++ (chars "]")
  if t.const then none
  else if hasPerms && i0 ≠ ['0'] then
    if 1 < t.perms then
      match permIndex.search i0 with
      | some (h, _) => (h.groups[0]?).map fun ds => t.name ++ (chars "[") ++ Nat.toDigits 10 (natOf ds) ++ (chars "]") ++ plain
      | none => none
    else none
  else some (t.name ++ plain)

/-- The new text of one access. _kernel_body.py:382-393. -/
def rewriteHit (tables : List Char → Option TableInfo) (hasPerms : Bool) (h : Hit) : Option (List Char) :=
  match h.groups with
  | [name, i0, _, i2, i3] =>
    match tables ((chars "FE") ++ name) with
    | none => some h.text
    | some t => if t.const then some h.text else newAccess t i0 i2 i3 hasPerms
  | _ => none

/-- `transform` of `rewrite_table_accesses`. _kernel_body.py:379-394. -/
def rewriteText (tables : List Char → Option TableInfo) (hasPerms : Bool) (text : List Char) : Option (List Char) :=
  match (tableAccess.findIter text).1.mapM fun h => (rewriteHit tables hasPerms h).map fun t => h.before ++ t with
  | none => none
  | some ts => some (ts.flatten ++ (tableAccess.findIter text).2)

/-- `dynamic_loop_bounds`, of one loop. _kernel_body.py:410-417. -/
def boundText (quad hd : List Char) : List Char :=
  header.subFirst (fun _ => (chars "for (int iq = 0; iq < n_pts_Q") ++ quad ++ (chars "; ++iq)")) hd

/-- The component `i` of the normal: `normals_q[tdim * iq + i]`. _kernel_body.py:438-439. -/
def normalText (quad : List Char) (tdim i : Nat) : List Char :=
  (chars "normals_") ++ quad ++ (chars "[") ++ Nat.toDigits 10 tdim ++ (chars " * iq") ++
    (if 0 < i then (chars " + ") ++ Nat.toDigits 10 i else []) ++ (chars "]")

/-- One replacement of `substitute_normals`. _kernel_body.py:437-443. -/
def replaceText (quad : List Char) (tdim k i : Nat) (block : List Char) : List Char :=
  (constRef (Nat.toDigits 10 k)).sub (fun h => h.groups.headD [] ++ normalText quad tdim i) block

/-- `substitute_normals`, of one loop. _kernel_body.py:433-444. -/
def normalsText (quad : List Char) (tdim : Nat) (offsets : List Nat) (block : List Char) : List Char :=
  offsets.foldl (fun b off => (List.range tdim).foldl (fun b i => replaceText quad tdim (off + i) i b) b) block

/-! ### fe_table.py -/

/-- Types of entities. -/
inductive Entity where
  | vertex
  | facet
  | cell
deriving DecidableEq

/-- Types of tables of FFCx. -/
inductive TableType where
  | zeros
  | ones
  | quadrature
  | fixed
  | piecewise
  | uniform
  | varying
deriving DecidableEq

/-- `s.split("_")`. -/
def splitUnder : List Char → List (List Char)
  | [] => [[]]
  | c :: s =>
    if c = '_' then [] :: splitUnder s
    else match splitUnder s with
      | [] => [[c]]
      | w :: ws => (c :: w) :: ws

/-- Derivatives and average of a table, as they are set by the options of its name. -/
structure Options where
  derivatives : Option (List Nat) := none
  avg : Option Entity := none
deriving DecidableEq

/-- One option of a name. fe_table.py:350-366. -/
def parseOption (entity : Entity) (o : Options) (opt : List Char) : Option Options :=
  match opt with
  | [] => none
  | 'D' :: ds => if ds.all isDigit then some { o with derivatives := some (ds.map fun c => natOf [c]) } else none
  | _ =>
    if opt = (chars "AC") then if entity = .cell then some { o with avg := some .cell } else none
    else if opt = (chars "AF") then if entity = .facet then some { o with avg := some .facet } else none
    else if opt = (chars "F") then if entity = .facet then some o else none
    else if opt = (chars "V") then if entity = .vertex then some o else none
    else none

/-- `_parse_FE_extra_options`. fe_table.py:307-366. -/
def parseOptions (entity : Entity) (opts : List Char) : Option Options :=
  match opts with
  | [] => some {}
  | c :: s => if c = '_' then (splitUnder s).foldlM (parseOption entity) {} else none

/-- `FETable`, as its constructor leaves it. fe_table.py:84-184. -/
structure Table where
  code : List Char
  name : List Char
  quad : List Char
  dtype : DType
  id : Nat
  component : Nat
  options : Options
  type : TableType
  permutations : Nat
  entities : Nat
  points : Nat
  funcs : Nat
deriving DecidableEq

/-- `_parse_FE_name`. fe_table.py:172-186. -/
def parseName (code : List Char) : Option (List Char) :=
  match feName.search code with
  | some (h, _) => (h.groups[0]?).map fun n => (chars "FE") ++ n
  | none => none

/-- `FETable(code, ...)`: `types` is `table_types`, `quads` the names of the quadratures. fe_table.py:84-170. -/
def parseTable (entity : Entity) (types : List Char → Option TableType) (quads : List (List Char)) (code : List Char) : Option Table :=
  match feTable.search code with
  | none => none
  | some (h, _) =>
    match h.groups with
    | [ty, id, comp, opts, quad, perms, ents, pts, funcs, _] =>
      match parseName h.text, realOfC (String.ofList ty), parseOptions entity opts with
      | some name, some d, some o =>
        match types name with
        | some k =>
          if entity ∈ [Entity.cell, .facet] ∧ k ∈ [TableType.uniform, .varying, .fixed, .piecewise] ∧ quad ∈ quads then
            some ⟨h.text, name, quad, d, natOf id, natOf comp, o, k, natOf perms, natOf ents, natOf pts, natOf funcs⟩
          else none
        | none => none
      | _, _, _ => none
    | _ => none

/-- The tables of the code, in the order of the text: the comprehension of `extract_FE_tables`. fe_table.py:557-567. -/
def parseTables (entity : Entity) (types : List Char → Option TableType) (quads : List (List Char)) (code : List Char) :
    Option (List Table) :=
  (spans (feTable.findIter code).1 0).mapM fun se => parseTable entity types quads (code.drop se.1)

/-- `_set_derivatives`. fe_table.py:382-390. -/
def Options.derivs (o : Options) (dim : Nat) : List Nat :=
  match o.derivatives with
  | none => List.replicate dim 0
  | some ds => if ds.all (· == 0) then List.replicate dim 0 else ds

/-- `is_constant_for_pts`, with the number of points of the quadrature. fe_table.py:197-222. -/
def Table.constForPts (t : Table) (nPts : Nat) : Bool := 1 < nPts && t.type ∈ [TableType.fixed, .piecewise, .zeros, .ones]

/-- A dictionary with the keys in order of first insertion: `d[k] = v`. -/
def dictSet {β : Type} (d : List (Nat × β)) (k : Nat) (v : β) : List (Nat × β) :=
  if d.any (·.1 == k) then d.map fun e => if e.1 = k then (k, v) else e else d ++ [(k, v)]

/-- `_sort_FE_tables`: tables are any type with an id and an element; `argsort` is that of NumPy. fe_table.py:453-483. -/
def sortTables {T E : Type} (id : T → Nat) (element : T → E) (hash : E → Nat) (argsort : List Nat → List Nat) (tables : List T) : List T :=
  let idsToHashes := tables.foldl (fun d t => dictSet d (id t) (hash (element t))) []
  let sortedToId := argsort (idsToHashes.map (·.2))
  let idToSorted : Nat → Nat := fun i => sortedToId.idxOf ((idsToHashes.map (·.1)).idxOf i)
  tables.mergeSort fun a b => idToSorted (id a) ≤ idToSorted (id b)

/-! ### codegeneration.py -/

/-- Types of integrals. -/
inductive IntegralType where
  | cell
  | exterior
  | interior
deriving DecidableEq

/-- `target_indices`. codegeneration.py:217-221. -/
def targetIndices : IntegralType → List Nat
  | .cell => []
  | .exterior => [0]
  | .interior => [0, 1]

/-- `_collected_indices`. codegeneration.py:209-215. -/
def collected (name text : List Char) : Option (List Nat) :=
  ((indexOf name).findIter text).1.mapM fun h =>
    match h.groups with
    | [ds] => if ds.all isDigit then some (natOf ds) else none
    | _ => none

/-- Equality of sets. -/
def sameSet (a b : List Nat) : Bool := a.all (· ∈ b) && b.all (· ∈ a)

/-- `_check_FFCx_input`: `true` if no exception. `tensor`: some rule has tensor factors. codegeneration.py:146-243. -/
def checkInput (entity : Entity) (ity : IntegralType) (mixedDim tensor : Bool) (coeffs dtype : DType) (loops : List TextLoop) : Bool :=
  let text := (match loops with | [] => [] | l :: _ => l.pre) ++ loops.flatMap (·.body)
  (entity = .cell || entity = .facet) && (!mixedDim || ity = .exterior) && !tensor &&
  (match collected (chars "entity_local_index") text with | some idx => sameSet idx (targetIndices ity) | none => false) &&
  (match collected (chars "quadrature_permutation") text with
    | some idx => idx.isEmpty || sameSet idx (targetIndices ity) | none => false) &&
  (match coeffs with
    | .float32 | .complex64 => dtype = .float32
    | .float64 | .complex128 => dtype = .float64)

end Qugar.Py.Text
