import Verif.Model.BezierPrimitives
import Verif.Model.Tpms
/-
Model of the implicit functions of the Python layer: python/qugar/impl/impl_function.py and the wrappers of
python/nanobind_wrappers/impl_functions.cpp, on top of the models of the C++ functions (Model/Funcs, Model/Primitives,
Model/BezierPrimitives, Model/Poly, Model/Tpms). Floating-point numbers are real numbers; conversions from float32 to float64 are exact,
the conversion of results to float32 is a parameter (`Env.round32`).

nanobind (external) is modelled by `call`: the overloads of a name are tried in the order of their registration, the first one whose
parameters accept the arguments is called, and a TypeError is raised if there is none. Arguments are accepted according to their type;
of nanobind's implicit conversions only the ones between floating-point types are considered. Arguments are positional.
-/
namespace Qugar.Py.Impl
open Poly Prim
noncomputable section

/-- Build type (C++ assertions active or not), the tolerances of the library and its Euclidean norm, and NumPy's rounding to float32. -/
structure Env where
  debug : Bool
  eps : ℝ
  tol : ℝ
  norm : List ℝ → ℝ
  round32 : ℝ → ℝ

/-- What the caller observes instead of a result: Python's AssertionError, TypeError and IndexError; `abort`: a C++ assertion fails and
terminates the process. -/
inductive Err where
  | assertion | type | index | abort
deriving DecidableEq

/-- An `ImplicitFunc<dim>`: a Bezier polynomial (`is_bezier`, bezier_tp.hpp:298-302) or any other function. -/
inductive Rep where
  | gen (f : Func ℝ)
  | bez (p : P ℝ)

/-- A C++ function object with the dimension of its class (`ImplicitFunc_2D`, `ImplicitFunc_3D`). -/
structure CppFunc where
  dim : Nat
  rep : Rep

/-- `func(point)`. -/
def CppFunc.value (f : CppFunc) (p : List ℝ) : ℝ :=
  match f.rep with
  | .gen g => g.eval p
  | .bez q => Bez.eval q p

/-- `func.grad(point)`. -/
def CppFunc.gradient (f : CppFunc) (p : List ℝ) : List ℝ :=
  match f.rep with
  | .gen g => g.grad p
  | .bez q => Bez.grad q p

/-- A NumPy array of floating-point numbers: shape, entries in C order, and whether the type is float32. -/
structure NdArr where
  shape : List Nat
  data : List ℝ
  single : Bool

/-- `a.size`. -/
def NdArr.size (a : NdArr) : Nat := a.shape.foldl (· * ·) 1

/-- An argument of a C++ function: a float, a bool, an array, a reference system (origin and basis), the coefficients of an affine
transformation, or a function. -/
inductive Arg where
  | real (x : ℝ)
  | bool (b : Bool)
  | arr (a : NdArr)
  | sys (dim : Nat) (origin : List ℝ) (basis : List (List ℝ))
  | aff (dim : Nat) (coefs : List ℝ)
  | func (f : CppFunc)

/-- The type of a parameter. `point n`: `npPointConst<n>`, `CoefsArray` and `std::array<real, n>`, which accept one-dimensional arrays of
`n` entries (the latter also other sequences, not modelled). wrapper_utils.hpp:30-33. -/
inductive Kind where
  | real | bool | point (n : Nat) | sys (n : Nat) | aff (n : Nat) | func (n : Nat)

/-- Whether a parameter accepts an argument. -/
def Kind.accepts : Kind → Arg → Bool
  | .real, .real _ => true
  | .bool, .bool _ => true
  | .point n, .arr a => a.shape == [n]
  | .sys n, .sys d _ _ => d == n
  | .aff n, .aff d _ => d == n
  | .func n, .func f => f.dim == n
  | _, _ => false

/-- `module.def(name, function, nb::arg(...) = default, ...)`. -/
structure Overload where
  name : String
  params : List (Kind × Option Arg)
  build : List Arg → Except Err CppFunc

/-- The arguments of the C++ function for the given ones: accepted one by one, the missing ones replaced by their defaults. -/
def fill : List (Kind × Option Arg) → List Arg → Option (List Arg)
  | [], [] => some []
  | (k, _) :: ps, a :: as => if k.accepts a then (fill ps as).map (a :: ·) else none
  | (_, some d) :: ps, [] => (fill ps []).map (d :: ·)
  | _, _ => none

/-- `assert condition`. -/
def check (e : Err) (c : Prop) (k : Except Err CppFunc) : Except Err CppFunc :=
  open Classical in if c then k else .error e

/-- A C++ assertion: only in debug builds. -/
def cppAssert (E : Env) (c : Prop) (k : Except Err CppFunc) : Except Err CppFunc :=
  check .abort (E.debug = true → c) k

/-- `if (use_bzr) return make_shared<...Bzr>(...) else return make_shared<...>(...)`; the Bezier version is the conversion of monomials. -/
def either (dim : Nat) (bzr : Bool) (mon : P ℝ) (f : Func ℝ) : Except Err CppFunc :=
  .ok ⟨dim, if bzr then .bez (ofMonomials ℝ mon) else .gen f⟩

/-- `Sphere`, `SphereBzr`. primitive_funcs_lib.cpp:39-43, 85-93. -/
def sphereOf (E : Env) (dim : Nat) (r : ℝ) (c : List ℝ) (bzr : Bool) : Except Err CppFunc :=
  cppAssert E (0 < r) (either dim bzr (sphereMon dim r c) (sphere dim r c))

/-- `Ellipsoid`, `EllipsoidBzr`. primitive_funcs_lib.cpp:240-274, 314-323. -/
def ellipsoidOf (E : Env) (dim : Nat) (semi o : List ℝ) (basis : List (List ℝ)) (bzr : Bool) : Except Err CppFunc :=
  cppAssert E (∀ s ∈ semi, 0 < s) (either dim bzr (ellipsoidMon dim semi o basis) (ellipsoid dim semi o basis))

/-- `Cylinder`, `CylinderBzr` (which builds a reference system around the axis, and whose assertions are active in debug builds only; in
release builds a failed one leads to undefined behaviour, also `abort` here). primitive_funcs_lib.cpp:115-125, 152-162, 200-208. -/
def cylinderOf (E : Env) (r : ℝ) (o ax : List ℝ) (bzr : Bool) : Except Err CppFunc :=
  cppAssert E (0 < r) (if bzr then
    (match cylinderMon E.norm E.eps E.tol r o ax with
      | some m => .ok ⟨3, .bez (ofMonomials ℝ m)⟩
      | none => .error .abort)
    else .ok ⟨3, .gen (cylinder r o (storedAxis E.norm E.eps ax))⟩)

/-- `Annulus`, `AnnulusBzr`. primitive_funcs_lib.cpp:377-382, 410-416, 474-480. -/
def annulusOf (E : Env) (ri ro : ℝ) (c : List ℝ) (bzr : Bool) : Except Err CppFunc :=
  cppAssert E (0 < ri ∧ ri < ro) (either 2 bzr (annulusMon ri ro c) (annulus ri ro c))

/-- `Torus`, `TorusBzr`. primitive_funcs_lib.cpp:509-518, 550-567, 680-695. -/
def torusOf (E : Env) (R r : ℝ) (c ax : List ℝ) (bzr : Bool) : Except Err CppFunc :=
  cppAssert E (0 < r ∧ r < R) (either 3 bzr (torusMon E.norm R r c ax) (torus R r c (storedAxis E.norm E.eps ax)))

/-- `Plane`, `PlaneBzr`. primitive_funcs_lib.cpp:789-820, 841-851. -/
def planeOf (E : Env) (dim : Nat) (o n : List ℝ) (bzr : Bool) : Except Err CppFunc :=
  either dim bzr (planeMon E.norm dim o n) (plane dim o n)

/-- `Constant`, `ConstantBzr`. primitive_funcs_lib.cpp:758-768. -/
def constantOf (dim : Nat) (v : ℝ) (bzr : Bool) : Except Err CppFunc :=
  .ok ⟨dim, if bzr then .bez (constantBzr dim v) else .gen (constant dim v)⟩

/-- A function with an affine transformation (`FuncWithAffineTransf`). impl_funcs_lib.cpp:38-42. -/
def transfOf (E : Env) (dim : Nat) (base : Func ℝ) (transf : List ℝ) : Except Err CppFunc :=
  match Func.withTransf E.debug E.eps dim transf base with
  | some f => .ok ⟨dim, .gen f⟩
  | none => .error .abort

/-- `AffineTransf<dim>()`. affine_transf.cpp:152-157 (`Point<dim>()`, read as the origin). -/
def identity (dim : Nat) : List ℝ := Affine.ofScale dim (List.replicate dim 0) 1

/-- `DimLinear` in its own coordinates. -/
def dimLinear (dim : Nat) (c : List ℝ) : Func ℝ := if dim = 2 then Func.dimLinear2 c else Func.dimLinear3 c

/-- Origin, axis and normal by default. primitive_funcs_lib.cpp:45-48, 141-149, 400-403, 519-527, 793-801. -/
def zeros (n : Nat) : List ℝ := List.replicate n 0
def axisZ : List ℝ := [0, 0, 1]
def normalX (n : Nat) : List ℝ := (zeros n).set 0 1

/-- The function of a shared pointer as `Func` (the virtual methods). -/
def CppFunc.func (f : CppFunc) : Func ℝ :=
  match f.rep with
  | .gen g => g
  | .bez q => ⟨Bez.eval q, Bez.grad q, Bez.hessian q⟩

/-- `create_negative`. impl_functions.cpp:746-757. -/
def negativeOf (f : CppFunc) : Except Err CppFunc :=
  match f.rep with
  | .bez q => .ok ⟨f.dim, .bez (negate ℝ q)⟩
  | .gen g => .ok ⟨f.dim, .gen g.neg⟩

/-- `create_functions_addition`. impl_functions.cpp:771-783. (`none` of the sum of polynomials: a failed assertion.) -/
def additionOf (f g : CppFunc) : Except Err CppFunc :=
  match f.rep, g.rep with
  | .bez p, .bez q =>
    match addSub ℝ (fun a b => a + b) p q with
    | some s => .ok ⟨f.dim, .bez s⟩
    | none => .error .abort
  | _, _ => .ok ⟨f.dim, .gen (f.func.add g.func)⟩

/-- `create_functions_subtraction`. impl_functions.cpp:796-808. -/
def subtractionOf (f g : CppFunc) : Except Err CppFunc :=
  match f.rep, g.rep with
  | .bez p, .bez q =>
    match addSub ℝ (fun a b => a - b) p q with
    | some s => .ok ⟨f.dim, .bez s⟩
    | none => .error .abort
  | _, _ => .ok ⟨f.dim, .gen (f.func.sub g.func)⟩

/-- `nb::arg("use_bzr") = true`. -/
def useBzr : Kind × Option Arg := (.bool, some (.bool true))

/-- The calls with arguments of other types do not take place: `call` passes the ones accepted. -/
def bad : Except Err CppFunc := .error .type

/-- impl_functions.cpp:144-190. -/
def declareDisk (E : Env) : List Overload :=
  [⟨"create_disk", [(.real, none), useBzr], fun
      | [.real r, .bool b] => sphereOf E 2 r (zeros 2) b
      | _ => bad⟩,
   ⟨"create_disk", [(.real, none), (.point 2, none), useBzr], fun
      | [.real r, .arr c, .bool b] => sphereOf E 2 r c.data b
      | _ => bad⟩]

/-- impl_functions.cpp:98-141. -/
def declareSphere (E : Env) : List Overload :=
  [⟨"create_sphere", [(.real, none), useBzr], fun
      | [.real r, .bool b] => sphereOf E 3 r (zeros 3) b
      | _ => bad⟩,
   ⟨"create_sphere", [(.real, none), (.point 3, none), useBzr], fun
      | [.real r, .arr c, .bool b] => sphereOf E 3 r c.data b
      | _ => bad⟩]

/-- impl_functions.cpp:245-297. -/
def declareEllipse (E : Env) : List Overload :=
  [⟨"create_ellipse", [(.point 2, none), useBzr], fun
      | [.arr s, .bool b] => ellipsoidOf E 2 s.data (zeros 2) (RefSystem.cartesian 2) b
      | _ => bad⟩,
   ⟨"create_ellipse", [(.point 2, none), (.sys 2, none), useBzr], fun
      | [.arr s, .sys _ o basis, .bool b] => ellipsoidOf E 2 s.data o basis b
      | _ => bad⟩]

/-- impl_functions.cpp:192-243. -/
def declareEllipsoid (E : Env) : List Overload :=
  [⟨"create_ellipsoid", [(.point 3, none), useBzr], fun
      | [.arr s, .bool b] => ellipsoidOf E 3 s.data (zeros 3) (RefSystem.cartesian 3) b
      | _ => bad⟩,
   ⟨"create_ellipsoid", [(.point 3, none), (.sys 3, none), useBzr], fun
      | [.arr s, .sys _ o basis, .bool b] => ellipsoidOf E 3 s.data o basis b
      | _ => bad⟩]

/-- impl_functions.cpp:299-363. -/
def declareCylinder (E : Env) : List Overload :=
  [⟨"create_cylinder", [(.real, none), (.point 3, none), useBzr], fun
      | [.real r, .arr o, .bool b] => cylinderOf E r o.data axisZ b
      | _ => bad⟩,
   ⟨"create_cylinder", [(.real, none), (.point 3, none), (.point 3, none), useBzr], fun
      | [.real r, .arr o, .arr ax, .bool b] => cylinderOf E r o.data ax.data b
      | _ => bad⟩]

/-- impl_functions.cpp:365-422. -/
def declareAnnulus (E : Env) : List Overload :=
  [⟨"create_annulus", [(.real, none), (.real, none), useBzr], fun
      | [.real ri, .real ro, .bool b] => annulusOf E ri ro (zeros 2) b
      | _ => bad⟩,
   ⟨"create_annulus", [(.real, none), (.real, none), (.point 2, none), useBzr], fun
      | [.real ri, .real ro, .arr c, .bool b] => annulusOf E ri ro c.data b
      | _ => bad⟩]

/-- impl_functions.cpp:424-511. -/
def declareTorus (E : Env) : List Overload :=
  [⟨"create_torus", [(.real, none), (.real, none), useBzr], fun
      | [.real R, .real r, .bool b] => torusOf E R r (zeros 3) axisZ b
      | _ => bad⟩,
   ⟨"create_torus", [(.real, none), (.real, none), (.point 3, none), useBzr], fun
      | [.real R, .real r, .arr c, .bool b] => torusOf E R r c.data axisZ b
      | _ => bad⟩,
   ⟨"create_torus", [(.real, none), (.real, none), (.point 3, none), (.point 3, none), useBzr], fun
      | [.real R, .real r, .arr c, .arr ax, .bool b] => torusOf E R r c.data ax.data b
      | _ => bad⟩]

/-- impl_functions.cpp:513-532. -/
def declareSquare (E : Env) (dim : Nat) : List Overload :=
  [⟨"create_square_" ++ toString dim ++ "D", [], fun _ => transfOf E dim (Func.square dim) (identity dim)⟩,
   ⟨"create_square", [(.aff dim, none)], fun
      | [.aff _ c] => transfOf E dim (Func.square dim) c
      | _ => bad⟩]

/-- impl_functions.cpp:534-588 (`dim = 3`: "create_plane"), 591-645 (`dim = 2`: "create_line"). -/
def declarePlane (E : Env) (dim : Nat) (name : String) : List Overload :=
  [⟨name, [useBzr], fun
      | [.bool b] => planeOf E dim (zeros dim) (normalX dim) b
      | _ => bad⟩,
   ⟨name, [(.point dim, none), (.point dim, none), useBzr], fun
      | [.arr o, .arr n, .bool b] => planeOf E dim o.data n.data b
      | _ => bad⟩]

/-- impl_functions.cpp:647-675. -/
def declareConstant (dim : Nat) : List Overload :=
  [⟨"create_constant_" ++ toString dim ++ "D", [(.real, none), useBzr], fun
      | [.real v, .bool b] => constantOf dim v b
      | _ => bad⟩]

/-- impl_functions.cpp:677-723: the overloads with `std::array` and with NumPy arrays do the same. -/
def declareDimLinear (E : Env) (dim : Nat) : List Overload :=
  [⟨"create_dim_linear", [(.point (2 ^ dim), none)], fun
      | [.arr c] => transfOf E dim (dimLinear dim c.data) (identity dim)
      | _ => bad⟩,
   ⟨"create_dim_linear", [(.point (2 ^ dim), none), (.aff dim, none)], fun
      | [.arr c, .aff _ t] => transfOf E dim (dimLinear dim c.data) t
      | _ => bad⟩]

/-- impl_functions.cpp:725-742. -/
def declareTransformed (E : Env) (dim : Nat) : List Overload :=
  [⟨"create_affinely_transformed", [(.func dim, none), (.aff dim, none)], fun
      | [.func f, .aff _ t] => transfOf E dim f.func t
      | _ => bad⟩]

/-- impl_functions.cpp:744-809. -/
def declareArithmetic (dim : Nat) : List Overload :=
  [⟨"create_negative", [(.func dim, none)], fun
      | [.func f] => negativeOf f
      | _ => bad⟩,
   ⟨"create_functions_addition", [(.func dim, none), (.func dim, none)], fun
      | [.func f, .func g] => additionOf f g
      | _ => bad⟩,
   ⟨"create_functions_subtraction", [(.func dim, none), (.func dim, none)], fun
      | [.func f, .func g] => subtractionOf f g
      | _ => bad⟩]

/-- impl_functions.cpp:811-834. -/
def declareGeneral (E : Env) (dim : Nat) : List Overload :=
  (if dim = 2 then declareDisk E ++ declareAnnulus E ++ declarePlane E 2 "create_line" ++ declareEllipse E else []) ++
  (if dim = 3 then declareSphere E ++ declareCylinder E ++ declareTorus E ++ declarePlane E 3 "create_plane" ++ declareEllipsoid E
    else []) ++
  declareSquare E dim ++ declareConstant dim ++ declareDimLinear E dim ++ declareTransformed E dim ++ declareArithmetic dim

/-- One of the two classes of a surface. impl_functions.cpp:836-890. -/
def declareTpms (dim : Nat) (prefix' : String) (s : Tpms.Surface) : List Overload :=
  if dim = 2 then
    [⟨"create_" ++ prefix', [(.point 2, none), (.real, some (.real 0))], fun
        | [.arr m, .real z] => .ok ⟨2, .gen (s.func2 m.data z)⟩
        | _ => bad⟩]
  else
    [⟨"create_" ++ prefix', [(.point 3, none)], fun
        | [.arr m] => .ok ⟨3, .gen (s.func3 m.data)⟩
        | _ => bad⟩]

/-- impl_functions.cpp:892-901. -/
def declareSurfaces (dim : Nat) : List Overload :=
  declareTpms dim "Schoen" Tpms.schoen ++ declareTpms dim "SchoenIWP" Tpms.schoenIWP ++
  declareTpms dim "SchoenFRD" Tpms.schoenFRD ++ declareTpms dim "FischerKochS" Tpms.fischerKochS ++
  declareTpms dim "SchwarzPrimitive" Tpms.schwarzPrimitive ++ declareTpms dim "SchwarzDiamond" Tpms.schwarzDiamond

/-- `impl_functions(module)`. impl_functions.cpp:906-913. -/
def registry (E : Env) : List Overload :=
  declareGeneral E 2 ++ declareGeneral E 3 ++ declareSurfaces 2 ++ declareSurfaces 3

/-- `qugar.cpp.name(*args)`. -/
def call (E : Env) (name : String) (args : List Arg) : Except Err CppFunc :=
  match ((registry E).filter (·.name = name)).findSome? fun o => (fill o.params args).map o.build with
  | some r => r
  | none => .error .type

/-! ### impl_function.py -/

/-- `create_disk`. impl_function.py:93-124. -/
def createDisk (E : Env) (radius : ℝ) (center : Option NdArr) (bzr : Bool) : Except Err CppFunc :=
  check .assertion (0 < radius) (match center with
    | none => call E "create_disk" [.real radius, .bool bzr]
    | some c => check .assertion (c.size = 2) (call E "create_disk" [.real radius, .arr c, .bool bzr]))

/-- `create_sphere`. impl_function.py:127-158. -/
def createSphere (E : Env) (radius : ℝ) (center : Option NdArr) (bzr : Bool) : Except Err CppFunc :=
  check .assertion (0 < radius) (match center with
    | none => call E "create_sphere" [.real radius, .bool bzr]
    | some c => check .assertion (c.size = 3) (call E "create_sphere" [.real radius, .arr c, .bool bzr]))

/-- A reference system given to a factory: dimension, origin, basis. -/
structure Sys where
  dim : Nat
  origin : List ℝ
  basis : List (List ℝ)

/-- `create_ellipse`. impl_function.py:161-193. -/
def createEllipse (E : Env) (semi : NdArr) (sys : Option Sys) (bzr : Bool) : Except Err CppFunc :=
  check .assertion (semi.size = 2) (check .assertion (∀ s ∈ semi.data, 0 < s) (match sys with
    | none => call E "create_ellipse" [.arr semi, .bool bzr]
    | some s => call E "create_ellipse" [.arr semi, .sys s.dim s.origin s.basis, .bool bzr]))

/-- `create_ellipsoid`. impl_function.py:196-228. (No assertion about the signs of the semi-axes.) -/
def createEllipsoid (E : Env) (semi : NdArr) (sys : Option Sys) (bzr : Bool) : Except Err CppFunc :=
  check .assertion (semi.size = 3) (match sys with
    | none => call E "create_ellipsoid" [.arr semi, .bool bzr]
    | some s => call E "create_ellipsoid" [.arr semi, .sys s.dim s.origin s.basis, .bool bzr])

/-- `create_cylinder`. impl_function.py:231-266. -/
def createCylinder (E : Env) (radius : ℝ) (origin : NdArr) (axis : Option NdArr) (bzr : Bool) : Except Err CppFunc :=
  check .assertion (origin.size = 3) (check .assertion (0 < radius) (match axis with
    | none => call E "create_cylinder" [.real radius, .arr origin, .bool bzr]
    | some ax => call E "create_cylinder" [.real radius, .arr origin, .arr ax, .bool bzr]))

/-- `create_annulus`. impl_function.py:269-309. -/
def createAnnulus (E : Env) (inner outer : ℝ) (center : Option NdArr) (bzr : Bool) : Except Err CppFunc :=
  check .assertion (0 < inner) (check .assertion (0 < outer) (match center with
    | none => call E "create_annulus" [.real inner, .real outer, .bool bzr]
    | some c => check .assertion (c.size = 2) (call E "create_annulus" [.real inner, .real outer, .arr c, .bool bzr])))

/-- `create_torus`. impl_function.py:312-366. -/
def createTorus (E : Env) (major minor : ℝ) (center axis : Option NdArr) (bzr : Bool) : Except Err CppFunc :=
  check .assertion (0 < major) (check .assertion (0 < minor) (match center, axis with
    | none, none => call E "create_torus" [.real major, .real minor, .bool bzr]
    | none, some ax => call E "create_torus" [.real major, .real minor, .arr ⟨[3], zeros 3, false⟩, .arr ax, .bool bzr]
    | some c, none => call E "create_torus" [.real major, .real minor, .arr c, .bool bzr]
    | some c, some ax => call E "create_torus" [.real major, .real minor, .arr c, .arr ax, .bool bzr]))

/-- `create_constant`. impl_function.py:369-399. -/
def createConstant (E : Env) (value : ℝ) (dim : Nat) (bzr : Bool) : Except Err CppFunc :=
  check .assertion (dim = 2 ∨ dim = 3)
    (if dim = 2 then call E "create_constant_2D" [.real value, .bool bzr] else call E "create_constant_3D" [.real value, .bool bzr])

/-- `create_plane` (`name = "create_plane"`, `n = 3`) and `create_line` (`"create_line"`, 2). impl_function.py:402-441, 444-483. -/
def createPlaneLine (E : Env) (name : String) (n : Nat) (origin normal : Option NdArr) (bzr : Bool) :
    Except Err CppFunc :=
  match origin, normal with
  | none, none => call E name [.bool bzr]
  | none, some v => check .assertion (v.size = n) (call E name [.arr ⟨[n], zeros n, false⟩, .arr v, .bool bzr])
  | some o, none => check .assertion (o.size = n) (call E name [.arr o, .arr ⟨[n], normalX n, false⟩, .bool bzr])
  | some o, some v => check .assertion (o.size = n) (check .assertion (v.size = n) (call E name [.arr o, .arr v, .bool bzr]))

def createPlane (E : Env) := createPlaneLine E "create_plane" 3
def createLine (E : Env) := createPlaneLine E "create_line" 2

/-- An affine transformation given to a factory: dimension and coefficients. -/
structure Aff where
  dim : Nat
  coefs : List ℝ

/-- `create_dim_linear` (the coefficients as an array). impl_function.py:486-529. -/
def createDimLinear (E : Env) (coefs : NdArr) (transf : Option Aff) : Except Err CppFunc :=
  check .assertion (coefs.size = 4 ∨ coefs.size = 8) (match transf with
    | none => call E "create_dim_linear" [.arr coefs]
    | some t =>
      let dim := if t.dim = 2 then 2 else 3
      check .assertion (coefs.size = 2 ^ dim) (call E "create_dim_linear" [.arr coefs, .aff t.dim t.coefs]))

/-- `create_box`. impl_function.py:532-573. -/
def createBox (E : Env) (transf : Option Aff) (dim : Option Nat) : Except Err CppFunc :=
  match transf with
  | none =>
    let dim := dim.getD 2
    check .assertion (dim = 2 ∨ dim = 3)
      (if dim = 2 then call E "create_square_2D" [] else call E "create_square_3D" [])
  | some t =>
    check .assertion (dim = some (if t.dim = 2 then 2 else 3))
      (if dim = some 2 then call E "create_square_2D" [.aff t.dim t.coefs] else call E "create_square_3D" [.aff t.dim t.coefs])

/-- `create_negative`. impl_function.py:576-586. -/
def createNegative (E : Env) (f : CppFunc) : Except Err CppFunc := call E "create_negative" [.func f]

/-- `create_functions_addition`. impl_function.py:589-602. -/
def createAddition (E : Env) (f g : CppFunc) : Except Err CppFunc :=
  call E "create_functions_addition" [.func f, .func g]

/-- `create_functions_subtraction`. impl_function.py:605-619. -/
def createSubtraction (E : Env) (f g : CppFunc) : Except Err CppFunc :=
  call E "create_functions_subtraction" [.func f, .func g]

/-- `create_affinely_transformed_functions`. impl_function.py:622-639. -/
def createTransformed (E : Env) (f : CppFunc) (t : Aff) : Except Err CppFunc :=
  call E "create_affinely_transformed" [.func f, .aff t.dim t.coefs]

/-- `_create_tpms` with `_process_tpms_periods`. impl_function.py:642-684. -/
def createTpms (E : Env) (name : String) (periods : NdArr) (z : Option ℝ) : Except Err CppFunc :=
  check .assertion (periods.size = 2 ∨ periods.size = 3) (check .assertion (periods.size = 2 ∨ z = none) (match z with
    | none => call E name [.arr periods]
    | some z => call E name [.arr periods, .real z]))

/-- impl_function.py:687-869. -/
def createSchoen (E : Env) := createTpms E "create_Schoen"
def createSchoenIWP (E : Env) := createTpms E "create_SchoenIWP"
def createSchoenFRD (E : Env) := createTpms E "create_SchoenFRD"
def createFischerKochS (E : Env) := createTpms E "create_FischerKochS"
def createSchwarzPrimitive (E : Env) := createTpms E "create_SchwarzPrimitive"
def createSchwarzDiamond (E : Env) := createTpms E "create_SchwarzDiamond"

/-- The `i`-th row of an array of `n` columns. impl_functions.cpp:65-67, 87-89. -/
def NdArr.row (a : NdArr) (n i : Nat) : List ℝ := (List.range n).map fun d => a.data.getD (i * n + d) 0

/-- The checks of `eval` and `grad`: `points.shape[1] == dim` in Python, the type `npPointConstArray<dim>` in C++.
impl_function.py:64-66, 84-86. -/
def withPoints (f : CppFunc) (pts : NdArr) (k : Nat → NdArr) : Except Err NdArr :=
  match pts.shape with
  | n :: d :: rest => if d = f.dim then (if rest = [] then .ok (k n) else .error .type) else .error .assertion
  | _ => .error .index

/-- The result, converted to float32 if the points are. impl_function.py:68-70, 88-90. -/
def result (E : Env) (single : Bool) (shape : List Nat) (vals : List ℝ) : NdArr :=
  ⟨shape, if single then vals.map E.round32 else vals, single⟩

/-- `ImplicitFunc.eval`. impl_function.py:51-70, impl_functions.cpp:57-74. -/
def eval (E : Env) (f : CppFunc) (pts : NdArr) : Except Err NdArr :=
  withPoints f pts fun n => result E pts.single [n] ((List.range n).map fun i => f.value (pts.row f.dim i))

/-- `ImplicitFunc.grad`. impl_function.py:72-90, impl_functions.cpp:75-97. -/
def grad (E : Env) (f : CppFunc) (pts : NdArr) : Except Err NdArr :=
  withPoints f pts fun n =>
    result E pts.single [n, f.dim] ((List.range n).flatMap fun i =>
      (List.range f.dim).map fun d => (f.gradient (pts.row f.dim i)).getD d 0)

end
end Qugar.Py.Impl
