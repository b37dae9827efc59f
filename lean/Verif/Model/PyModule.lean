import Verif.Model.PyText
import Verif.Model.PyPacker
/-
Model of the module of C code that python/qugar/dolfinx/codegeneration.py generates for a form: the header, the data of the integrals
(integral_data.py), the functions that are generated for every integral, their names, parameters and arguments, and the calls between them.

The loaders and their calls are programs in a small part of C (assignments through pointers), with their text and their execution.
-/
namespace Qugar.Py.Module

open Regex Kernel Text Pack

/-! ### The header -/

/-- `#include <ufcx.h>`, where the dot is any character. codegeneration.py:57. -/
def ufcx : Rx := lit (chars "#include <ufcx") <| one (· ≠ '\n') <| lit (chars "h>") .eps

/-- `_modify_header`, of the text of the header. codegeneration.py:54-66. -/
def modifyHeader (text : List Char) : Option (List Char) :=
  match ufcx.search text with
  | none => none
  | some (h, rest) => some (h.before ++ chars "#include <stddef.h>\n" ++ (h.text ++ rest))

/-! ### The data of an integral -/

/-- `if quad_data not in d.keys(): d[quad_data] = []; d[quad_data].append(table)`. integral_data.py:184-186. -/
def addTable {Q T : Type} [DecidableEq Q] (d : List (Q × List T)) (q : Q) (t : T) : List (Q × List T) :=
  (if d.any (fun e => e.1 = q) then d else d ++ [(q, [])]).map fun e => if e.1 = q then (e.1, e.2 ++ [t]) else e

/-- The loop over the tables: `quads` is `all_quads_data`; `none` for an unknown quadrature. integral_data.py:180-186. -/
def group {N Q T : Type} [DecidableEq Q] (quads : N → Option Q) (quad : T → N) (tables : List T) : Option (List (Q × List T)) :=
  tables.foldlM (fun d t => (quads (quad t)).map fun q => addTable d q t) []

/-- `is_mixed_dim`. integral_data.py:178, 187-188. -/
def mixedDim {T : Type} (dim : T → Nat) (tdim : Nat) (tables : List T) : Bool :=
  tables.foldl (fun b t => if dim t ≠ tdim then true else b) false

/-- `_get_integral_dimension`: the cells of the geometric quantities of the integrand must be one. integral_data.py:63-102. -/
def dimension {C : Type} [DecidableEq C] (dim : C → Nat) (cells : List C) : Option Nat :=
  match cells.foldl (fun (s : List C) c => if c ∈ s then s else s ++ [c]) [] with
  | [c] => some (dim c)
  | _ => none

/-- `IntegralData`. integral_data.py:105-133. -/
structure Data (Q T : Type) where
  name : List Char
  ids : List Int
  kind : IntegralType
  tdim : Nat
  mixed : Bool
  quads : List (Q × List T)

/-- `extract_integral_data`, with the name of FFCx, the cells, the ids found in the forms and the tables read from the code.
integral_data.py:167-197. -/
def extract {N Q T C : Type} [DecidableEq Q] [DecidableEq C] (quads : N → Option Q) (quad : T → N) (dim : T → Nat) (cdim : C → Nat)
    (name : List Char) (kind : IntegralType) (cells : List C) (ids : List Int) (tables : List T) : Option (Data Q T) :=
  (dimension cdim cells).bind fun tdim =>
    if ids = [] then none
    else (group quads quad tables).map fun g => ⟨name.drop (chars "integral_").length, ids, kind, tdim, mixedDim dim tdim tables, g⟩

/-- `dtype`: that of the first table of the first quadrature. integral_data.py:135-140. -/
def Data.dtype {Q T : Type} (dtype : T → DType) (d : Data Q T) : Option DType :=
  match d.quads with
  | [] => none
  | (_, ts) :: _ => ts.head?.map dtype

/-! ### Names -/

/-- `load_points_{name}_Q{quad}`. codegeneration.py:369, 437. -/
def loaderName (name quad : List Char) : List Char := chars "load_points_" ++ name ++ chars "_Q" ++ quad

/-- `points_{quad}`. codegeneration.py:370, 438. -/
def pointsName (quad : List Char) : List Char := chars "points_" ++ quad

/-- `points_side1_{quad}`. codegeneration.py:371, 439. -/
def side1Name (quad : List Char) : List Char := chars "points_side1_" ++ quad

/-- `points_facet_{quad}`. codegeneration.py:372, 440. -/
def facetName (quad : List Char) : List Char := chars "points_facet_" ++ quad

/-- `weights_{quad}`. codegeneration.py:373, 441. -/
def weightsName (quad : List Char) : List Char := chars "weights_" ++ quad

/-- `normals_{quad}`. codegeneration.py:374, 442. -/
def normalsName (quad : List Char) : List Char := chars "normals_" ++ quad

/-- `n_pts_Q{quad}`. codegeneration.py:375, 443. -/
def nPtsName (quad : List Char) : List Char := chars "n_pts_Q" ++ quad

/-- `tabulate_tensor_integral_{name}{suffix}`. codegeneration.py:675-677, 729, 772-778. -/
def kernelName (name suffix : List Char) : List Char := chars "tabulate_tensor_integral_" ++ name ++ suffix

/-! ### Loaders -/

/-- What is added to `*w_custom`. -/
inductive Amount where
  | one
  | times (g : Nat) (x : List Char)
  | var (x : List Char)

/-- Statements of the loaders. -/
inductive LStmt where
  /-- `const int x = (int) **w_custom;` -/
  | readInt (x : List Char)
  /-- `*w_custom += a;` -/
  | advance (a : Amount)
  /-- `*p = *w_custom;` -/
  | save (p : List Char)
  /-- `return x;` -/
  | ret (x : List Char)

/-- A loader: its name, its parameters after `w_custom` and its body. -/
structure Loader where
  name : List Char
  params : List (List Char)
  body : List LStmt

/-- One field of the data: the pointer is saved and advanced. codegeneration.py:391-404. -/
def field (p : List Char) (a : Amount) : List LStmt := [.save p, .advance a]

/-- The loader of a quadrature. codegeneration.py:366-406. -/
def loader (name : List Char) (s : Pack.Shape) (quad : List Char) : Loader where
  name := loaderName name quad
  params := [pointsName quad] ++ (if s.interior then [side1Name quad] else []) ++ (if s.mixed then [facetName quad] else []) ++
    [weightsName quad] ++ (if s.normals then [normalsName quad] else [])
  body := [.readInt (nPtsName quad), .advance .one] ++ field (pointsName quad) (.times s.tdim (nPtsName quad)) ++
    (if s.interior then field (side1Name quad) (.times s.tdim (nPtsName quad)) else []) ++
    (if s.mixed then field (facetName quad) (.times (s.tdim - 1) (nPtsName quad)) else []) ++
    field (weightsName quad) (.var (nPtsName quad)) ++
    (if s.normals then field (normalsName quad) (.times s.tdim (nPtsName quad)) else []) ++ [.ret (nPtsName quad)]

/-- The text of a statement. codegeneration.py:390-406. -/
def LStmt.text : LStmt → List Char
  | .readInt x => chars "const int " ++ x ++ chars " = (int) **w_custom;\n"
  | .advance .one => chars "*w_custom += 1;\n\n"
  | .advance (.times g x) => chars "*w_custom += " ++ Nat.toDigits 10 g ++ chars " * " ++ x ++ chars ";\n\n"
  | .advance (.var x) => chars "*w_custom += " ++ x ++ chars ";\n\n"
  | .save p => chars "*" ++ p ++ chars " = *w_custom;\n"
  | .ret x => chars "return " ++ x ++ chars ";\n"

/-- The text of a loader. codegeneration.py:379-406. -/
def Loader.text (dtype : List Char) (l : Loader) : List Char :=
  let indent := List.replicate (chars "int " ++ l.name ++ chars "(").length ' '
  chars "\nint " ++ l.name ++ chars "(const " ++ dtype ++ chars "* restrict *w_custom" ++
    (l.params.flatMap fun p => chars ",\n" ++ indent ++ chars "const " ++ dtype ++ chars "* restrict *" ++ p) ++ chars ")\n{\n" ++
    l.body.flatMap LStmt.text ++ chars "}\n\n\n"

/-- The call of a loader: declared pointers, the result, the function, the arguments after `&w_custom`. codegeneration.py:451-471. -/
structure Call where
  decls : List (List Char)
  result : List Char
  func : List Char
  args : List (List Char)

/-- The code that calls the loader of a quadrature. codegeneration.py:434-471. -/
def caller (name : List Char) (s : Pack.Shape) (quad : List Char) : Call where
  decls := [pointsName quad] ++ (if s.interior then [side1Name quad] else []) ++ (if s.mixed then [facetName quad] else []) ++
    [weightsName quad] ++ (if s.normals then [normalsName quad] else [])
  result := nPtsName quad
  func := loaderName name quad
  args := [pointsName quad] ++ (if s.interior then [side1Name quad] else []) ++ (if s.mixed then [facetName quad] else []) ++
    [weightsName quad] ++ (if s.normals then [normalsName quad] else [])

/-- Its text. codegeneration.py:451-471. -/
def Call.text (dtype : List Char) (c : Call) : List Char :=
  let aux := chars "const int " ++ c.result ++ chars " = " ++ c.func ++ chars "("
  let indent := List.replicate aux.length ' '
  (c.decls.flatMap fun d => chars "const " ++ dtype ++ chars "* restrict " ++ d ++ chars ";\n") ++ aux ++ chars "&w_custom" ++
    (c.args.flatMap fun a => chars ",\n" ++ indent ++ chars "&" ++ a) ++ chars ");\n\n"

/-! ### Execution -/

variable {K : Type}

/-- State of a loader: `*w_custom`, its variables and what was stored through its parameters. -/
structure LState where
  w : Nat
  ints : List Char → Option Nat
  outs : List Char → Option Nat

/-- The number of slots. -/
def Amount.val (ints : List Char → Option Nat) : Amount → Option Nat
  | .one => some 1
  | .times g x => (ints x).map fun n => g * n
  | .var x => ints x

/-- Execution of a body: the result and the state. `none`: it does not compile, does not return or reads what is not a number. -/
def execLoader (toNat : K → Nat) (mem : List (Slot K)) (params : List (List Char)) : List LStmt → LState → Option (Nat × LState)
  | [], _ => none
  | s :: ss, st =>
    match s with
    | .readInt x => ((mem[st.w]?).bind Slot.num?).bind fun v =>
        execLoader toNat mem params ss { st with ints := Function.update st.ints x (some (toNat v)) }
    | .advance a => (a.val st.ints).bind fun n => execLoader toNat mem params ss { st with w := st.w + n }
    | .save p => if p ∈ params then execLoader toNat mem params ss { st with outs := Function.update st.outs p (some st.w) } else none
    | .ret x => (st.ints x).map fun n => (n, st)

/-- State of the kernel: `w_custom`, its integer variables, and its pointers (declared or not, and their values). -/
structure CState where
  w : Nat
  ints : List Char → Option Nat
  declared : List (List Char)
  ptrs : List Char → Option Nat

/-- The pointers after a call: the argument in each position gets what was stored through the parameter in that position. -/
def bindOuts : List (List Char) → List (List Char) → (List Char → Option Nat) → (List Char → Option Nat) → List Char → Option Nat
  | p :: ps, a :: as, outs, ptrs => bindOuts ps as outs (Function.update ptrs a (outs p))
  | _, _, _, ptrs => ptrs

/-- Execution of a call: the function is found by its name, has as many parameters as arguments, the pointers are declared. -/
def execCall (toNat : K → Nat) (mem : List (Slot K)) (funcs : List Loader) (c : Call) (st : CState) : Option CState :=
  (funcs.find? fun f => f.name = c.func).bind fun f =>
    if f.params.length = c.args.length ∧ ∀ a ∈ c.args, a ∈ c.decls ++ st.declared then
      (execLoader toNat mem f.params f.body ⟨st.w, fun _ => none, fun _ => none⟩).map fun r =>
        ⟨r.2.w, Function.update st.ints c.result (some r.1), c.decls ++ st.declared, bindOuts f.params c.args r.2.outs st.ptrs⟩
    else none

/-- The calls of all the quadratures. codegeneration.py:434-471. -/
def execCalls (toNat : K → Nat) (mem : List (Slot K)) (funcs : List Loader) (cs : List Call) (st : CState) : Option CState :=
  cs.foldlM (fun st c => execCall toNat mem funcs c st) st

/-- The quadratures of an integral: their names and the shapes of their data. -/
abbrev Quads := List (List Char × Pack.Shape)

/-- `_create_custom_data_loaders`. codegeneration.py:366-408. -/
def loaders (name : List Char) (qs : Quads) : List Loader := qs.map fun q => loader name q.2 q.1

/-- `_create_custom_data_callers`, without the tables. codegeneration.py:434-471. -/
def callers (name : List Char) (qs : Quads) : List Call := qs.map fun q => caller name q.2 q.1

/-! ### The new function -/

/-- An argument of a call of a kernel: a parameter of the new function, or `(void*)w_custom`. -/
inductive Arg where
  | param (x : String)
  | custom
deriving DecidableEq

/-- The arguments of the call of the custom variant. codegeneration.py:771-775. -/
def customArgs : List Arg :=
  [.param "A", .param "w", .param "c", .param "coordinate_dofs", .param "entity_local_index", .param "quadrature_permutation", .custom]

/-- The arguments of the call of the original variant. codegeneration.py:777-780. -/
def originalArgs : List Arg :=
  [.param "A", .param "w", .param "c", .param "coordinate_dofs", .param "entity_local_index", .param "quadrature_permutation",
    .param "custom_data"]

/-- What the new function does with the values `env` of its parameters (memory is `V`, and `shift` adds slots to a pointer) and the offset
that it reads: the called function and the values of its parameters, which are `params`, as those of the new function.
codegeneration.py:745-782. -/
def dispatch {V : Type} (name : List Char) (params : List String) (shift : V → Nat → V) (env : String → V) (off : Int) :
    Option (Option (List Char × List (String × V))) :=
  let pass (args : List Arg) : Option (List (String × V)) :=
    if args.length = params.length then (params.zip args).mapM fun pa =>
      match pa.2 with
      | .param x => if x ∈ params then some (pa.1, env x) else none
      | .custom => some (pa.1, shift (env "w") off.toNat)
    else none
  if 0 < off then (pass customArgs).map fun v => some (kernelName name (chars "_custom"), v)
  else if off < 0 then (pass originalArgs).map fun v => some (kernelName name (chars "_original"), v)
  else some none

/-! ### The text of the module -/

/-- `_shim_suffix`. codegeneration.py:264-266. -/
def shimSuffix : DType → List Char
  | .float64 => chars "f64"
  | _ => chars "f32"

/-- `_create_shim_decls`. codegeneration.py:268-280. -/
def shimDecls (d : DType) : List Char :=
  chars "extern int qugar_register_element_" ++ shimSuffix d ++ chars "(int, int, int, int, int, int);\nextern int qugar_tabulate_" ++
    shimSuffix d ++ chars "(int, int, const " ++ chars (toC d) ++ chars "*, int, int, " ++ chars (toC d) ++ chars "*, long);\nextern " ++
    chars (toC d) ++ chars "* qugar_get_scratch_" ++ shimSuffix d ++ chars "(long);\n\n"

/-- `_create_new_function`. codegeneration.py:743-783. -/
def newFunction (signature name : List Char) (d : DType) (coeffsOffset : Nat) : List Char :=
  signature ++ chars "\n{\nconst ptrdiff_t w_custom_offset = *((const ptrdiff_t *) &w[" ++ Nat.toDigits 10 coeffsOffset ++
    chars "]);\nconst bool is_custom = w_custom_offset > 0;\nconst bool is_full   = w_custom_offset < 0;\n\nif (is_custom)\n{\n  const " ++
    chars (toC d) ++ chars "* restrict w_custom = (const " ++ chars (toC d) ++ chars " *)w + w_custom_offset;\n  " ++
    kernelName name (chars "_custom") ++
    chars "(A, w, c, coordinate_dofs, entity_local_index, quadrature_permutation, (void*)w_custom);\n}\nelse if (is_full)\n{\n  " ++
    kernelName name (chars "_original") ++
    chars "(A, w, c, coordinate_dofs, entity_local_index, quadrature_permutation, custom_data);\n}\n}\n"

/-- `create_new_code`: `original` and `custom` are the texts of the two variants. codegeneration.py:795-805. -/
def newCode (b : Body) (d : DType) (coeffsOffset : Nat) (name : List Char) (qs : Quads) (original custom : List Char) : List Char :=
  b.before ++ shimDecls d ++ original ++ ((loaders name qs).flatMap (Loader.text (chars (toC d)))) ++ custom ++
    newFunction b.signature b.name d coeffsOffset ++ b.after

/-- The names of the functions that the code of an integral defines: `func` is its name in the code of FFCx, `name` the one in its data. -/
def functions (func name : List Char) (qs : Quads) : List (List Char) :=
  [kernelName func (chars "_original")] ++ ((loaders name qs).map fun l => l.name) ++ [kernelName func (chars "_custom"), kernelName func []]

/-- The loop of `generate_code`: `modify` gives the new code and the data of an integral, or an exception. codegeneration.py:855-868. -/
def modifyAll {H T IR D : Type} (modify : T → IR → Option (T × D)) : Nat → Nat → List (H × T) → List IR → List D →
    Option (List (H × T) × List D)
  | 0, _, blocks, _, datas => some (blocks, datas)
  | n + 1, k, blocks, irs, datas =>
    match blocks[k]?, irs[k]? with
    | some (h, impl), some ir => (modify impl ir).bind fun x => modifyAll modify n (k + 1) (blocks.set k (h, x.1)) irs (datas ++ [x.2])
    | _, _ => none

/-- `generate_code`: the header and the blocks of the integrals, and the data. codegeneration.py:843-870. -/
def generate {H IR D : Type} (modify : List Char → IR → Option (List Char × D)) (header : List Char) (blocks : List (H × List Char))
    (irs : List IR) : Option (List Char × List (H × List Char) × List D) :=
  (modifyHeader header).bind fun hd =>
    if blocks.length = irs.length then (modifyAll modify blocks.length 0 blocks irs []).map fun x => (hd, x.1, x.2) else none

end Qugar.Py.Module
