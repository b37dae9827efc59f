import Verif.Model.PyPacker
import Verif.Model.PyTables
import Verif.Model.PyKernel
/-
Model of a call of the generated function for an entity, from the array of coefficients to the element tensor: the dispatcher and the
loaders (Model/PyPacker.lean), the code that computes the tables (Model/PyTables.lean) and the two variants of the kernel
(Model/PyKernel.lean), put together as in the C code of python/qugar/dolfinx/codegeneration.py.

The slots of the coefficients, the weights, the points, the normals and the tables are of a real type `K`; the scalars of the kernel, `R`,
are real or complex: a coefficient has one or two slots.
-/
namespace Qugar.Py.Assemble

open Pack Kernel Tables

variable {P K R : Type}

/-- The conversions of C: a real number to a scalar, and the slots of a coefficient, which are a scalar. -/
structure Scalars (K R : Type) where
  real : K → R
  scalar : List K → R

/-- The points of a flat array, `d` coordinates each, as the shim reads them. codegeneration.py:391-400, qugar_basix_shim.cpp:96-104. -/
def points (d n : Nat) (l : List K) : List (List K) := (List.range n).map fun i => (l.drop (i * d)).take d

/-- The tables and the loaded points of a quadrature. codegeneration.py:432-471. -/
def quadrature (tdim : Nat) (ts : List (Table P)) (l : Loaded K) : Tables.Quad P K where
  tables := ts
  n := l.n
  pts := fun
    | .cell => points tdim l.n l.points
    | .side1 => points tdim l.n (l.side1.getD [])
    | .facet => points (tdim - 1) l.n (l.facet.getD [])

/-- The value that belongs to a quadrature: the variables of the generated code have the name of the quadrature. -/
def ofQuad {α : Type} (quads : List Nat) (l : List α) (q : Nat) : Option α := ((quads.zip l).find? fun p => p.1 = q).map Prod.snd

/-- The table with a name. -/
def tableOf (tables : List (List (Table P))) (t : Nat) : Option (Table P) := tables.flatten.find? fun x => x.name = t

/-- `FE[funcs * iq + dof]`: number of functions in the accesses to a table. fe_table.py:342-366. -/
def funcs (tables : List (List (Table P))) (t : Nat) : Nat := ((tableOf tables t).map fun x => x.funcs).getD 0

/-- The values that the loops read in memory: the coefficients `w` (input 0), the loaded weights and normals, and the tables. `U` has the
constants, the coordinates, the static arrays, and what is found where nothing is defined. codegeneration.py:705-727. -/
def values (S : Scalars K R) (ratio : Nat) (U : Values R) (I : Kernel.Info) (tables : List (List (Table P))) (mem : List (Slot K)) (w : Nat)
    (loaded : List (Loaded K)) (st : Tables.State P K) : Values R where
  const := U.const
  input a k := if a = 0 then ((readNums mem (w + k * ratio) ratio).map S.scalar).getD (U.input 0 k) else U.input a k
  staticWeight := U.staticWeight
  staticTable := U.staticTable
  weight q iq := ((ofQuad I.quads loaded q).bind fun l => (l.weights[iq]?).map S.real).getD (U.weight q iq)
  table t s iq d := ((read st t (s.getD 0) (funcs tables t * iq + d)).map S.real).getD (U.table t s iq d)
  normals q k := ((ofQuad I.quads loaded q).bind fun l => l.normals.bind fun ns => (ns[k]?).map S.real).getD (U.normals q k)
  points q := ((ofQuad I.quads loaded q).map fun l => l.n).getD (U.points q)

/-- The shapes of the loaders. codegeneration.py:355-380. -/
def shapes (I : Kernel.Info) (mixed : Bool) : List Pack.Shape := I.quads.map fun q => ⟨I.tdim, I.interior, mixed, I.boundary q⟩

/-- A call of the generated function: `cols` is the number of coefficients, `w` the position of the coefficients of the entity, `A` the
element tensor. codegeneration.py:661-783. -/
def call [Add R] [DecidableEq P] (toNat : K → Nat) (S : Scalars K R) (B : Basix P K) (I : Kernel.Info) (mixed : Bool)
    (tables : List (List (Table P))) (ls : List (Loop R)) (types : Types) (cols : Nat) (mem : List (Slot K)) (w : Nat)
    (st : Tables.State P K) (U : Values R) (A : Nat → R) : Option (Nat → R) :=
  (kernel toNat types cols (shapes I mixed) mem w).bind fun
    | .nothing => some A
    | .standard => run { U with input := (values S types.ratio U I tables mem w [] st).input } I.tdim (originalVariant I ls) .empty [] A
    | .custom loaded =>
      (prologue B I.interior mixed I.tdim st (List.zipWith (quadrature I.tdim) tables loaded)).bind fun st' =>
        run (values S types.ratio U I tables mem w loaded st') I.tdim (customVariant I ls) .empty [] A

end Qugar.Py.Assemble
