import Verif.Model.Affine
/-
Model of the implicit functions and their combinators (cpp/qugar/impl_funcs_lib.cpp,
cpp/include/qugar/impl_funcs_lib_macros.hpp).

A function object is the triple of its `operator()`, `grad` and `hessian` (domain_function.hpp:74-107), for real
arguments; the overloads for Algoim intervals are not modelled. The Hessian is stored as the upper triangle, row by row.
-/
namespace Qugar
variable {K : Type} [Field K] [LinearOrder K]

/-- `ImplicitFunc<dim>`. cpp/include/qugar/domain_function.hpp:40-114. -/
structure Func (K : Type) where
  eval : List K → K
  grad : List K → List K
  hess : List K → List K

namespace Func

/-- `FuncWithAffineTransf` with the macro `implement_impl_func_transf`: the evaluations of a function defined by `eval_`,
`grad_`, `hessian_` (here `base`) in the coordinates of the transformation. The constructor stores the inverse of the
given transformation. `none` = failed assertion of `inverse`. impl_funcs_lib.cpp:38-42,
impl_funcs_lib_macros.hpp:172-199. -/
def withTransf (debug : Bool) (eps : K) (dim : Nat) (transf : List K) (base : Func K) : Option (Func K) :=
  (Affine.inverse debug eps dim transf).map fun c =>
    ⟨fun p => base.eval (Affine.transformPoint dim c p),
     fun p => Affine.transformVector dim c (base.grad (Affine.transformPoint dim c p)),
     fun p => Affine.transformTensor dim c (base.hess (Affine.transformPoint dim c p))⟩

/-- `TransformedFunction`. impl_funcs_lib.cpp:180-207: `eval_`, `grad_` and `hessian_` are the ones of the base
function. -/
def transformed (debug : Bool) (eps : K) (dim : Nat) (base : Func K) (transf : List K) : Option (Func K) :=
  withTransf debug eps dim transf base

/-- `Negative`. impl_funcs_lib.cpp:209-229. -/
def neg (f : Func K) : Func K :=
  ⟨fun p => -f.eval p, fun p => (f.grad p).map (- ·), fun p => (f.hess p).map (- ·)⟩

/-- `AddFunctions`. impl_funcs_lib.cpp:231-255. -/
def add (f g : Func K) : Func K :=
  ⟨fun p => f.eval p + g.eval p, fun p => List.zipWith (· + ·) (f.grad p) (g.grad p),
   fun p => List.zipWith (· + ·) (f.hess p) (g.hess p)⟩

/-- `SubtractFunctions`. impl_funcs_lib.cpp:257-283. -/
def sub (f g : Func K) : Func K :=
  ⟨fun p => f.eval p - g.eval p, fun p => List.zipWith (· - ·) (f.grad p) (g.grad p),
   fun p => List.zipWith (· - ·) (f.hess p) (g.hess p)⟩

/-- `DimLinear`, 2D, in its own coordinates. impl_funcs_lib.cpp:107-178. -/
def dimLinear2 (c : List K) : Func K :=
  ⟨fun p => (vat c 0 * (1 - vat p 0) + vat c 1 * vat p 0) * (1 - vat p 1)
      + (vat c 2 * (1 - vat p 0) + vat c 3 * vat p 0) * vat p 1,
   fun p => [(vat c 1 - vat c 0) * (1 - vat p 1) + (vat c 3 - vat c 2) * vat p 1,
      (vat c 2 - vat c 0) * (1 - vat p 0) + (vat c 3 - vat c 1) * vat p 0],
   fun _ => [0, vat c 0 + vat c 3 - vat c 1 - vat c 2, 0]⟩

/-- `DimLinear`, 3D, in its own coordinates. impl_funcs_lib.cpp:107-178. -/
def dimLinear3 (c : List K) : Func K :=
  ⟨fun p => ((vat c 0 * (1 - vat p 0) + vat c 1 * vat p 0) * (1 - vat p 1)
        + (vat c 2 * (1 - vat p 0) + vat c 3 * vat p 0) * vat p 1) * (1 - vat p 2)
      + ((vat c 4 * (1 - vat p 0) + vat c 5 * vat p 0) * (1 - vat p 1)
        + (vat c 6 * (1 - vat p 0) + vat c 7 * vat p 0) * vat p 1) * vat p 2,
   fun p => [((vat c 1 - vat c 0) * (1 - vat p 1) + (vat c 3 - vat c 2) * vat p 1) * (1 - vat p 2)
        + ((vat c 5 - vat c 4) * (1 - vat p 1) + (vat c 7 - vat c 6) * vat p 1) * vat p 2,
      ((vat c 2 - vat c 0) * (1 - vat p 0) + (vat c 3 - vat c 1) * vat p 0) * (1 - vat p 2)
        + ((vat c 6 - vat c 4) * (1 - vat p 0) + (vat c 7 - vat c 5) * vat p 0) * vat p 2,
      ((vat c 4 - vat c 0) * (1 - vat p 0) + (vat c 5 - vat c 1) * vat p 0) * (1 - vat p 1)
        + ((vat c 6 - vat c 2) * (1 - vat p 0) + (vat c 7 - vat c 3) * vat p 0) * vat p 1],
   fun p => [0,
      (vat c 0 + vat c 3 - vat c 1 - vat c 2) * (1 - vat p 2) + (vat c 4 + vat c 7 - vat c 5 - vat c 6) * vat p 2,
      (vat c 0 + vat c 5 - vat c 1 - vat c 4) * (1 - vat p 1) + (vat c 2 + vat c 7 - vat c 3 - vat c 6) * vat p 1,
      0,
      (vat c 0 + vat c 7 - vat c 2 - vat c 5) * (1 - vat p 0) + (vat c 1 + vat c 6 - vat c 3 - vat c 4) * vat p 0,
      0]⟩

/-- `Square::sgn` for real arguments. impl_funcs_lib.cpp:91-98. -/
def sgn (v : K) : K := (if 0 < v then 1 else 0) - (if v < 0 then 1 else 0)

/-- `argmax` of Algoim's vectors: the first index of the largest component (external, vendored; read as such). -/
def argmax (v : List K) : Nat :=
  (List.range v.length).foldl (fun best i => if vat v best < vat v i then i else best) 0

/-- `Square` for real arguments, in its own coordinates. impl_funcs_lib.cpp:45-89. `max(diff)` is the largest
component. The Hessian is not implemented (`assert(false)`): the empty list. -/
def square (dim : Nat) : Func K :=
  let diff := fun p : List K => (List.range dim).map fun i => |vat p i| - 1
  ⟨fun p => vat (diff p) (argmax (diff p)),
   fun p => (List.range dim).map fun i => if i = argmax (diff p) then sgn (vat p (argmax (diff p))) else 0,
   fun _ => []⟩

end Func
end Qugar
