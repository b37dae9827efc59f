import Verif.Model.PyImpl
/-
Model of the functions `create_affine_transformation` and `create_ref_system` of the Python module
(python/nanobind_wrappers/common.cpp:186-370), called with positional and keyword arguments, on top of the models of the constructors of
`AffineTransf` and `RefSystem` (Model/Affine). Floating-point numbers are real numbers.

nanobind (external) is modelled as documented: overloads are tried in the order of their registration; an overload is called if the
positional arguments, in order, and then the keyword arguments, by name, give a value of the right type to each of its parameters and no
argument is left over; a TypeError is raised if there is none. Of nanobind's conversions only those between floating-point types are
considered (as in Model/PyImpl).
-/
namespace Qugar.Py.Systems
open Impl
noncomputable section

/-- `module.def(name, function, nb::arg("…"), …)`. -/
structure Def where
  params : List (String × Kind)
  build : List Arg → Except Err Arg

/-- The arguments of the C++ function for a call with the positional arguments `pos` and the keyword arguments `kw`. -/
def bindArgs : List (String × Kind) → List Arg → List (String × Arg) → Option (List Arg)
  | [], [], [] => some []
  | (_, k) :: ps, a :: pos, kw => if k.accepts a then (bindArgs ps pos kw).map (a :: ·) else none
  | (n, k) :: ps, [], kw =>
    match kw.lookup n with
    | some a => if k.accepts a then (bindArgs ps [] (kw.filter fun x => x.1 != n)).map (a :: ·) else none
    | none => none
  | _, _, _ => none

/-- A call of a function with the overloads `ds`. -/
def callKw (ds : List Def) (pos : List Arg) (kw : List (String × Arg)) : Except Err Arg :=
  match ds.findSome? fun d => (bindArgs d.params pos kw).map d.build with
  | some r => r
  | none => .error .type

/-- A constructor with assertions. In release builds a failed assertion leads to divisions by zero (or to a transformation with negative
scales); it is also `abort` here. -/
def orAbort (f : List ℝ → Arg) : Option (List ℝ) → Except Err Arg
  | some c => .ok (f c)
  | none => .error .abort

/-- `declare_affine_transf<2>`. common.cpp:197-294; affine_transf.cpp:152-197. -/
def affine2 (E : Env) : List Def :=
  [⟨[], fun _ => .ok (.aff 2 (identity 2))⟩,
   ⟨[("origin", .point 2)], fun
      | [.arr o] => .ok (.aff 2 (Affine.ofScale 2 o.data 1))
      | _ => .error .type⟩,
   ⟨[("origin", .point 2), ("scale", .real)], fun
      | [.arr o, .real s] => .ok (.aff 2 (Affine.ofScale 2 o.data s))
      | _ => .error .type⟩,
   ⟨[("origin", .point 2), ("axis_x", .point 2)], fun
      | [.arr o, .arr ax] => orAbort (.aff 2) (Affine.ofAxes2 E.norm o.data ax.data 1 1)
      | _ => .error .type⟩,
   ⟨[("origin", .point 2), ("axis_x", .point 2), ("scale_x", .real), ("scale_y", .real)], fun
      | [.arr o, .arr ax, .real sx, .real sy] => orAbort (.aff 2) (Affine.ofAxes2 E.norm o.data ax.data sx sy)
      | _ => .error .type⟩,
   ⟨[("coefs", .point 6)], fun
      | [.arr c] => .ok (.aff 2 c.data)
      | _ => .error .type⟩]

/-- `declare_affine_transf<3>`. common.cpp:197-294; affine_transf.cpp:152-197. -/
def affine3 (E : Env) : List Def :=
  [⟨[], fun _ => .ok (.aff 3 (identity 3))⟩,
   ⟨[("origin", .point 3)], fun
      | [.arr o] => .ok (.aff 3 (Affine.ofScale 3 o.data 1))
      | _ => .error .type⟩,
   ⟨[("origin", .point 3), ("scale", .real)], fun
      | [.arr o, .real s] => .ok (.aff 3 (Affine.ofScale 3 o.data s))
      | _ => .error .type⟩,
   ⟨[("origin", .point 3), ("axis_x", .point 3), ("axis_y", .point 3)], fun
      | [.arr o, .arr ax, .arr ay] => orAbort (.aff 3) (Affine.ofAxes3 E.norm o.data ax.data ay.data 1 1 1)
      | _ => .error .type⟩,
   ⟨[("origin", .point 3), ("axis_x", .point 3), ("axis_y", .point 3), ("scale_x", .real), ("scale_y", .real), ("scale_z", .real)], fun
      | [.arr o, .arr ax, .arr ay, .real sx, .real sy, .real sz] =>
        orAbort (.aff 3) (Affine.ofAxes3 E.norm o.data ax.data ay.data sx sy sz)
      | _ => .error .type⟩,
   ⟨[("coefs", .point 12)], fun
      | [.arr c] => .ok (.aff 3 c.data)
      | _ => .error .type⟩]

/-- `create_affine_transformation`. The overloads of 2D are registered first. common.cpp:353-362. -/
def createAffine (E : Env) (pos : List Arg) (kw : List (String × Arg)) : Except Err Arg := callKw (affine2 E ++ affine3 E) pos kw

/-- A reference system built by a constructor with assertions (as `orAbort`). -/
def sysOrAbort (dim : Nat) (o : List ℝ) : Option (List (List ℝ)) → Except Err Arg
  | some b => .ok (.sys dim o b)
  | none => .error .abort

/-- `declare_ref_system<2>`. common.cpp:296-345; ref_system.cpp:91-98, 149-184. A zero axis gives divisions by zero: `abort` here. -/
def system2 (E : Env) : List Def :=
  [⟨[], fun _ => .ok (.sys 2 (zeros 2) (RefSystem.cartesian 2))⟩,
   ⟨[("origin", .point 2)], fun
      | [.arr o] => .ok (.sys 2 o.data (RefSystem.cartesian 2))
      | _ => .error .type⟩,
   ⟨[("origin", .point 2), ("axis", .point 2)], fun
      | [.arr o, .arr ax] => sysOrAbort 2 o.data (if E.norm ax.data = 0 then none else some (RefSystem.ofAxis2 E.norm ax.data))
      | _ => .error .type⟩]

/-- `declare_ref_system<3>`. common.cpp:296-345; ref_system.cpp:56-68, 113-143, 149-184. The tolerance of the assertion is only used in
debug builds; in release builds only a zero axis gives divisions by zero. -/
def system3 (E : Env) : List Def :=
  [⟨[], fun _ => .ok (.sys 3 (zeros 3) (RefSystem.cartesian 3))⟩,
   ⟨[("origin", .point 3)], fun
      | [.arr o] => .ok (.sys 3 o.data (RefSystem.cartesian 3))
      | _ => .error .type⟩,
   ⟨[("origin", .point 3), ("axis", .point 3)], fun
      | [.arr o, .arr ax] => sysOrAbort 3 o.data (RefSystem.ofAxis3 E.norm (if E.debug then E.eps else 0) (1 / 10) ax.data)
      | _ => .error .type⟩,
   ⟨[("origin", .point 3), ("axis_x", .point 3), ("axis_y", .point 3)], fun
      | [.arr o, .arr ax, .arr ay] => sysOrAbort 3 o.data (RefSystem.ofXY E.norm ax.data ay.data)
      | _ => .error .type⟩]

/-- `create_ref_system`. common.cpp:353-365. -/
def createSystem (E : Env) (pos : List Arg) (kw : List (String × Arg)) : Except Err Arg := callKw (system2 E ++ system3 E) pos kw

end
end Qugar.Py.Systems
