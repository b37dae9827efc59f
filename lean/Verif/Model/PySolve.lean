import Verif.Model.PyPacker
import Mathlib.Algebra.Group.Defs
/-
Model of the solution of problems: python/qugar/dolfinx/petsc.py (LinearProblem, NonlinearProblem), the dictionaries of coefficients of
custom_coefficients.py (CustomCoeffsPacker) and python/qugar/dolfinx/_dolfinx_patches.py.

DOLFINx and PETSc are parameters (`Backend`): what assembling a matrix or a vector adds, the lifting, the boundary conditions, the
solver. `W` is everything that may change between two calls and that DOLFINx reads: values of the coefficients and constants, values of
the boundary conditions. `none`: an exception.
-/
namespace Qugar.Py.Solve
open Qugar.Py.Pack (Slot Input pack update)

variable {K W Bc Mat Vec : Type}

/-! ### Coefficients of a form -/

/-- A `CustomForm`: an identifier (what DOLFINx knows of it), the integrals in the order of the dictionary of DOLFINx, each one with the
data of the packer, and the coefficients that DOLFINx packs for them. The domain does not change. custom_coefficients.py:838-870. -/
structure Form (K W : Type) where
  id : Nat
  integrals : List (Input K)
  dlf : W → List (List (List K))

/-- Coefficients of all the integrals. -/
abbrev Coeffs (K : Type) := List (List (Slot K))

/-- `CustomCoeffsPacker.pack_coefficients`. custom_coefficients.py:931-963. -/
def Form.pack [NatCast K] (f : Form K W) (w : W) : Option (Coeffs K) :=
  (List.zip f.integrals (f.dlf w)).mapM fun p => Pack.pack { p.1 with old := p.2 }

/-- `CustomCoeffsPacker.update_coefficients`. custom_coefficients.py:965-996. -/
def Form.update (f : Form K W) (w : W) (old : Coeffs K) : Option (Coeffs K) :=
  (List.zip (List.zip f.integrals (f.dlf w)) old).mapM fun p => Pack.update p.1.1 p.1.2 p.2

/-- A form or nested lists of forms. -/
inductive Forms (K W : Type)
  | one (f : Form K W)
  | many (l : List (Forms K W))

/-- Coefficients of a form or of nested lists of forms. -/
inductive CoeffsTree (K : Type)
  | one (c : Coeffs K)
  | many (l : List (CoeffsTree K))

mutual
/-- `_pack_coefficients`. petsc.py:51-76. -/
def packAll [NatCast K] (w : W) : Forms K W → Option (CoeffsTree K)
  | .one f => (f.pack w).map .one
  | .many l => (packList w l).map .many
/-- The elements of a list. petsc.py:67-74. -/
def packList [NatCast K] (w : W) : List (Forms K W) → Option (List (CoeffsTree K))
  | [] => some []
  | f :: l => (packAll w f).bind fun c => (packList w l).map (c :: ·)
end

mutual
/-- `_update_coefficients`: every form is given the argument `old_coeffs`; a list has no entry for the key of an integral.
petsc.py:79-108. -/
def updateAll (w : W) (old : CoeffsTree K) : Forms K W → Option (CoeffsTree K)
  | .one f => match old with
    | .one c => (f.update w c).map .one
    | .many _ => if f.integrals = [] ∨ f.dlf w = [] then some (.one []) else none
  | .many l => (updateList w old l).map .many
/-- The elements of a list. petsc.py:99-106. -/
def updateList (w : W) (old : CoeffsTree K) : List (Forms K W) → Option (List (CoeffsTree K))
  | [] => some []
  | f :: l => (updateAll w old f).bind fun c => (updateList w old l).map (c :: ·)
end

/-! ### Problems -/

/-- DOLFINx and PETSc. `matrix`, `vector`: what is added by the assembly of a form with the given coefficients (and boundary
conditions); `lifting`: what `apply_lifting` adds (`x0`, `alpha` for Newton's method); `ghosts`: `ghostUpdate`; `setBc`: the values of
the boundary conditions; `ksp`: the solution of the system with the options of the solver. -/
structure Backend (K W Bc Mat Vec Opts : Type) where
  matrix : Nat → W → CoeffsTree K → List Bc → Mat
  vector : Nat → W → CoeffsTree K → Vec
  lifting : Nat → W → CoeffsTree K → List Bc → Option Vec → Vec
  ghosts : Vec → Vec
  setBc : List Bc → W → Option Vec → Vec → Vec
  ksp : Opts → Mat → Vec → Vec

/-- The attributes of a `LinearProblem`. petsc.py:164-229. -/
structure Linear (K W Bc Mat Vec Opts : Type) where
  a : Form K W
  l : Form K W
  bcs : List Bc
  opts : Opts
  A : Mat
  b : Vec
  u : Vec

/-- `LinearProblem.solve`. petsc.py:231-259. -/
def Linear.solve [NatCast K] [AddMonoid Mat] [AddMonoid Vec] {Opts : Type} (B : Backend K W Bc Mat Vec Opts) (w : W)
    (p : Linear K W Bc Mat Vec Opts) : Option (Linear K W Bc Mat Vec Opts) := do
  let A : Mat := 0                                                              -- 235
  let cA ← packAll w (.one p.a)                                                 -- 237
  let A := A + B.matrix p.a.id w cA p.bcs                                       -- 238-239
  let b : Vec := 0                                                              -- 242-243
  let cb ← packAll w (.one p.l)                                                 -- 244
  let b := b + B.vector p.l.id w cb                                             -- 245
  let b := b + B.lifting p.a.id w cA p.bcs none                                 -- 248-249
  let b := B.ghosts b                                                           -- 250
  let b := B.setBc p.bcs w none b                                               -- 251-252
  some { p with A := A, b := b, u := B.ksp p.opts A b }                         -- 255-258

/-- The attributes of a `NonlinearProblem`. petsc.py:303-330. -/
structure Nonlinear (K W Bc : Type) where
  a : Form K W
  l : Form K W
  bcs : List Bc
  cA : Option (CoeffsTree K) := none
  cb : Option (CoeffsTree K) := none

/-- `_get_b_coeffs` and `_get_A_coeffs`: the coefficients and their copy for the next time. petsc.py:332-356. -/
def getCoeffs [NatCast K] (w : W) (f : Form K W) : Option (CoeffsTree K) → Option (CoeffsTree K)
  | none => packAll w (.one f)
  | some c => updateAll w c (.one f)

/-- `NonlinearProblem.F(x, b)`: the new state and the vector. petsc.py:358-380. -/
def Nonlinear.residual [NatCast K] [AddMonoid Vec] {Opts : Type} (B : Backend K W Bc Mat Vec Opts) (w : W) (x : Vec)
    (p : Nonlinear K W Bc) : Option (Nonlinear K W Bc × Vec) := do
  let b : Vec := 0                                                              -- 366-367
  let cb ← getCoeffs w p.l p.cb                                                 -- 369
  let b := b + B.vector p.l.id w cb                                             -- 370
  let cA ← getCoeffs w p.a p.cA                                                 -- 373
  let b := b + B.lifting p.a.id w cA p.bcs (some x)                             -- 374-377
  let b := B.ghosts b                                                           -- 378
  let b := B.setBc p.bcs w (some x) b                                           -- 379
  some ({ p with cA := some cA, cb := some cb }, b)

/-- `NonlinearProblem.J(x, A)`: the new state and the matrix. petsc.py:382-391. -/
def Nonlinear.jacobian [NatCast K] [AddMonoid Mat] {Opts : Type} (B : Backend K W Bc Mat Vec Opts) (w : W)
    (p : Nonlinear K W Bc) : Option (Nonlinear K W Bc × Mat) := do
  let A : Mat := 0                                                              -- 389
  let cA ← getCoeffs w p.a p.cA                                                 -- 390
  let A := A + B.matrix p.a.id w cA p.bcs                                       -- 391
  some ({ p with cA := some cA }, A)

/-! ### Options and default arguments: what the problems of a program share -/

/-- The state of the program that the constructors use: the database of options of PETSc, the addresses in use, and the list that is
the default value of `bcs` (created once, when the function is defined). -/
structure Shared (Bc : Type) where
  options : List ((Nat × String) × String)
  used : List Nat
  defaultBcs : List Bc

/-- A problem of the program: its address (`id(self)`, in the prefix of its options), its options, and its boundary conditions: its own
list or the shared one. petsc.py:213-229. -/
structure Problem (Bc : Type) where
  addr : Nat
  solverOptions : List (String × String)
  ownBcs : Option (List Bc)

/-- `opts[k] = v` with a prefix: a dictionary. petsc.py:217-221. -/
def setOption (db : List ((Nat × String) × String)) (addr : Nat) (kv : String × String) : List ((Nat × String) × String) :=
  db.filter (fun e => !(e.1 == (addr, kv.1))) ++ [((addr, kv.1), kv.2)]

/-- `setFromOptions`: the options with the prefix of the solver. petsc.py:222. -/
def optionsOf (db : List ((Nat × String) × String)) (addr : Nat) : List (String × String) :=
  (db.filter fun e => e.1.1 == addr).map fun e => (e.1.2, e.2)

/-- `LinearProblem(a, L, bcs, …, petsc_options)` at a free address. petsc.py:124-229. -/
def create (s : Shared Bc) (addr : Nat) (bcs : Option (List Bc)) (petscOptions : Option (List (String × String))) :
    Option (Shared Bc × Problem Bc) :=
  if addr ∈ s.used then none
  else
    let db := (petscOptions.getD []).foldl (fun db kv => setOption db addr kv) s.options
    some ({ s with options := db, used := addr :: s.used }, ⟨addr, optionsOf db addr, bcs⟩)

/-- A problem is deleted: the address is free again; the options remain in the database. -/
def delete (s : Shared Bc) (p : Problem Bc) : Shared Bc := { s with used := s.used.filter (· != p.addr) }

/-- `problem.bcs`. petsc.py:209. -/
def Problem.bcs (s : Shared Bc) (p : Problem Bc) : List Bc := p.ownBcs.getD s.defaultBcs

/-- `problem.bcs.append(bc)`. -/
def Problem.append (s : Shared Bc) (p : Problem Bc) (bc : Bc) : Shared Bc × Problem Bc :=
  match p.ownBcs with
  | some l => (s, { p with ownBcs := some (l ++ [bc]) })
  | none => ({ s with defaultBcs := s.defaultBcs ++ [bc] }, p)

/-! ### Data of the integrals -/

/-- `IntegralData`: name, type and subdomains. integral_data.py:98-128. -/
structure Data where
  name : String
  type : Nat
  ids : List Int
deriving DecidableEq

/-- What FFCx knows of a form: for every type of integral, the names and the subdomains of its integrals, in the order of
`form_integral_ids`. -/
abbrev Ffcx := Nat → List (String × Int)

/-- `_build_position_to_data` for the key `(type, position)`. custom_coefficients.py:893-929. -/
def positionToData (form : Ffcx) (data : List Data) (type position : Nat) : Option Data :=
  (form type)[position]?.bind fun e => data.find? fun d => d.type == type && d.ids.contains e.2

/-! ### assemble_scalar -/

/-- The two functions: the one of DOLFINx 0.10 and the one of the patch. -/
inductive Fn | original | patched
deriving DecidableEq

/-- `assemble_scalar(M, constants, coeffs)`: what is given to C++; `pk`, `pc`: the results of `pack_constants` and `pack_coefficients`.
_dolfinx_patches.py:33-48, 63-66. -/
def Fn.call {C D : Type} (f : Fn) (pk : C) (pc : D) (asCoeffs : C → D) (constants : Option C) (coeffs : Option D) : C × D :=
  let k := constants.getD pk
  match f with
  | .original => (k, match coeffs with | none => pc | some _ => asCoeffs k)
  | .patched => (k, match coeffs with | none => pc | some c => c)

/-- The modules and the names that the program has imported from `dolfinx.fem`. -/
structure Names where
  version : String
  assembleModule : Fn
  fem : Fn
  user : List Fn

/-- `_patch_assemble_scalar`. _dolfinx_patches.py:53-73. -/
def applyPatches (n : Names) : Names :=
  if ¬ n.version.startsWith "0.10." then n
  else if n.assembleModule = .patched then n
  else { n with assembleModule := .patched, fem := .patched }

/-- `from dolfinx.fem import assemble_scalar`. -/
def importName (n : Names) : Names := { n with user := n.user ++ [n.fem] }

end Qugar.Py.Solve
