import Verif.Model.Tolerance
/-
Model of `qugar::impl::AffineTransf` (cpp/qugar/affine_transf.cpp) and `qugar::impl::RefSystem`
(cpp/qugar/ref_system.cpp). A `Vector<real, N>` is a list; `v(i)` is `v.at i`. `norm` is Algoim's Euclidean norm
(external, a parameter).
-/
namespace Qugar
variable {K : Type} [Field K] [LinearOrder K]

/-- `v(i)`. -/
def vat (v : List K) (i : Nat) : K := v.getD i 0

/-- Sum over `k = 0, …, n-1`, in that order. -/
def sumTo (n : Nat) (f : Nat → K) : K := (List.range n).foldl (fun s k => s + f k) 0

/-- `cross_product`. affine_transf.cpp:37-41, ref_system.cpp:37-42. -/
def crossProduct (l r : List K) : List K :=
  [vat l 1 * vat r 2 - vat l 2 * vat r 1, vat l 2 * vat r 0 - vat l 0 * vat r 2, vat l 0 * vat r 1 - vat l 1 * vat r 0]

/-- `det` in `invert_matrix`, 2D. affine_transf.cpp:47. -/
def det2 (m : List K) : K := vat m 0 * vat m 3 - vat m 1 * vat m 2

/-- `invert_matrix`, 2D, after the assertion. affine_transf.cpp:52-60. -/
def invertMatrix2 (m : List K) : List K :=
  let invDet := 1 / det2 m
  [invDet * vat m 3, -invDet * vat m 1, -invDet * vat m 2, invDet * vat m 0]

/-- `det` in `invert_matrix`, 3D. affine_transf.cpp:68-69. -/
def det3 (m : List K) : K :=
  vat m 0 * (vat m 4 * vat m 8 - vat m 7 * vat m 5) - vat m 1 * (vat m 3 * vat m 8 - vat m 5 * vat m 6)
    + vat m 2 * (vat m 3 * vat m 7 - vat m 4 * vat m 6)

/-- `invert_matrix`, 3D, after the assertion. affine_transf.cpp:74-86. -/
def invertMatrix3 (m : List K) : List K :=
  let invDet := 1 / det3 m
  [(vat m 4 * vat m 8 - vat m 7 * vat m 5) * invDet,
   (vat m 2 * vat m 7 - vat m 1 * vat m 8) * invDet,
   (vat m 1 * vat m 5 - vat m 2 * vat m 4) * invDet,
   (vat m 5 * vat m 6 - vat m 3 * vat m 8) * invDet,
   (vat m 0 * vat m 8 - vat m 2 * vat m 6) * invDet,
   (vat m 3 * vat m 2 - vat m 0 * vat m 5) * invDet,
   (vat m 3 * vat m 7 - vat m 6 * vat m 4) * invDet,
   (vat m 6 * vat m 1 - vat m 0 * vat m 7) * invDet,
   (vat m 0 * vat m 4 - vat m 3 * vat m 1) * invDet]

/-- `create_orthonormal_system(axis_x, axis_y)` of the affine transformations (`v /= norm(v)`).
affine_transf.cpp:101-117. `none` = failed assertion. -/
def orthonormalXY (norm : List K → K) (ax ay : List K) : Option (List K × List K × List K) :=
  if 0 < norm ax then
    let e0 := ax.map (· / norm ax)
    let e2 := crossProduct e0 ay
    if 0 < norm e2 then
      let e2' := e2.map (· / norm e2)
      some (e0, crossProduct e2' e0, e2')
    else none
  else none

/-- `create_reference_system_around_axis`. affine_transf.cpp:122-150. `eps` is the default tolerance of the assertion,
`tol` the constant `1.0e-4`. -/
def refSystemAroundAxis (norm : List K → K) (eps tol : K) (axisZ : List K) : Option (List K × List K) :=
  if Tol.isZero eps (norm axisZ) then none
  else
    let z := axisZ.map (· / norm axisZ)
    let y := crossProduct z [1, 0, 0]
    if tol < norm y then
      let y' := y.map (· / norm y)
      some (crossProduct y' z, y')
    else
      let x := crossProduct [0, 1, 0] z
      some (x.map (· / norm x), crossProduct z y)

namespace Affine

/-- `compute_coefs(origin, scale)`. affine_transf.cpp:199-218. -/
def ofScale (dim : Nat) (origin : List K) (s : K) : List K :=
  if dim = 2 then [s, 0, 0, s, vat origin 0, vat origin 1]
  else [s, 0, 0, 0, s, 0, 0, 0, s, vat origin 0, vat origin 1, vat origin 2]

/-- `compute_coefs(origin, axis_x, axis_y, scales)`, 3D. affine_transf.cpp:224-257. -/
def ofAxes3 (norm : List K → K) (origin ax ay : List K) (sx sy sz : K) : Option (List K) :=
  if 0 < sx ∧ 0 < sy ∧ 0 < sz then
    (orthonormalXY norm ax ay).map fun e =>
      [sx * vat e.1 0, sy * vat e.2.1 0, sz * vat e.2.2 0,
       sx * vat e.1 1, sy * vat e.2.1 1, sz * vat e.2.2 1,
       sx * vat e.1 2, sy * vat e.2.1 2, sz * vat e.2.2 2,
       vat origin 0, vat origin 1, vat origin 2]
  else none

/-- `compute_coefs(origin, axis_x, scales)`, 2D. affine_transf.cpp:264-289. -/
def ofAxes2 (norm : List K → K) (origin ax : List K) (sx sy : K) : Option (List K) :=
  if 0 < sx ∧ 0 < sy ∧ 0 < norm ax then
    let e0 := ax.map (· / norm ax)
    let e1 := [-vat e0 1, vat e0 0]
    some [sx * vat e0 0, sy * vat e1 0, sx * vat e0 1, sy * vat e1 1, vat origin 0, vat origin 1]
  else none

/-- `operator*`. affine_transf.cpp:291-316. -/
def mul (dim : Nat) (l r : List K) : List K :=
  ((List.range dim).flatMap fun i => (List.range dim).map fun j =>
    sumTo dim fun k => vat l (i * dim + k) * vat r (k * dim + j)) ++
  (List.range dim).map fun i =>
    (List.range dim).foldl (fun s k => s + vat l (i * dim + k) * vat r (dim * dim + k)) (vat l (dim * dim + i))

/-- The determinant computed by `invert_matrix`. -/
def det (dim : Nat) (c : List K) : K := if dim = 2 then det2 c else det3 c

/-- The part of `inverse` after the assertion. affine_transf.cpp:318-341. -/
def inverseCoefs (dim : Nat) (c : List K) : List K :=
  let inv := if dim = 2 then invertMatrix2 c else invertMatrix3 c
  inv ++ (List.range dim).map fun i =>
    (List.range dim).foldl (fun s k => s - vat inv (dim * i + k) * vat c (dim * dim + k)) 0

/-- `inverse`. In debug builds the determinant is asserted not to be zero up to the default tolerance.
affine_transf.cpp:48-51, 70-73, 318-341. -/
def inverse (debug : Bool) (eps : K) (dim : Nat) (c : List K) : Option (List K) :=
  if debug && Tol.isZero eps (det dim c) then none else some (inverseCoefs dim c)

/-- `transform_point`. affine_transf.cpp:343-358. -/
def transformPoint (dim : Nat) (c p : List K) : List K :=
  if dim = 2 then
    [vat c 0 * vat p 0 + vat c 1 * vat p 1 + vat c 4, vat c 2 * vat p 0 + vat c 3 * vat p 1 + vat c 5]
  else
    [vat c 0 * vat p 0 + vat c 1 * vat p 1 + vat c 2 * vat p 2 + vat c 9,
     vat c 3 * vat p 0 + vat c 4 * vat p 1 + vat c 5 * vat p 2 + vat c 10,
     vat c 6 * vat p 0 + vat c 7 * vat p 1 + vat c 8 * vat p 2 + vat c 11]

/-- `transform_vector`. affine_transf.cpp:361-377. -/
def transformVector (dim : Nat) (c v : List K) : List K :=
  if dim = 2 then [vat c 0 * vat v 0 + vat c 2 * vat v 1, vat c 1 * vat v 0 + vat c 3 * vat v 1]
  else
    [vat c 0 * vat v 0 + vat c 3 * vat v 1 + vat c 6 * vat v 2,
     vat c 1 * vat v 0 + vat c 4 * vat v 1 + vat c 7 * vat v 2,
     vat c 2 * vat v 0 + vat c 5 * vat v 1 + vat c 8 * vat v 2]

/-- `transform_tensor`. affine_transf.cpp:379-421. -/
def transformTensor (dim : Nat) (c t : List K) : List K :=
  if dim = 2 then
    [vat t 0 * vat c 0 * vat c 0 + 2 * vat t 1 * vat c 0 * vat c 2 + vat t 2 * vat c 2 * vat c 2,
     vat t 0 * vat c 0 * vat c 1 + vat t 1 * (vat c 0 * vat c 3 + vat c 1 * vat c 2) + vat t 2 * vat c 2 * vat c 3,
     vat t 0 * vat c 1 * vat c 1 + 2 * vat t 1 * vat c 1 * vat c 3 + vat t 2 * vat c 3 * vat c 3]
  else
    [vat t 0 * vat c 0 * vat c 0 + 2 * vat t 1 * vat c 0 * vat c 3 + 2 * vat t 2 * vat c 0 * vat c 6
       + vat t 3 * vat c 3 * vat c 3 + 2 * vat t 4 * vat c 3 * vat c 6 + vat t 5 * vat c 6 * vat c 6,
     vat t 0 * vat c 0 * vat c 1 + vat t 1 * (vat c 0 * vat c 4 + vat c 1 * vat c 3)
       + vat t 2 * (vat c 0 * vat c 7 + vat c 1 * vat c 6) + vat t 3 * vat c 3 * vat c 4
       + vat t 4 * (vat c 3 * vat c 7 + vat c 4 * vat c 6) + vat t 5 * vat c 6 * vat c 7,
     vat t 0 * vat c 0 * vat c 2 + vat t 1 * (vat c 0 * vat c 5 + vat c 2 * vat c 3)
       + vat t 2 * (vat c 0 * vat c 8 + vat c 2 * vat c 6) + vat t 3 * vat c 3 * vat c 5
       + vat t 4 * (vat c 3 * vat c 8 + vat c 5 * vat c 6) + vat t 5 * vat c 6 * vat c 8,
     vat t 0 * vat c 1 * vat c 1 + 2 * vat t 1 * vat c 1 * vat c 4 + 2 * vat t 2 * vat c 1 * vat c 7
       + vat t 3 * vat c 4 * vat c 4 + 2 * vat t 4 * vat c 4 * vat c 7 + vat t 5 * vat c 7 * vat c 7,
     vat t 0 * vat c 1 * vat c 2 + vat t 1 * (vat c 1 * vat c 5 + vat c 2 * vat c 4)
       + vat t 2 * (vat c 1 * vat c 8 + vat c 2 * vat c 7) + vat t 3 * vat c 4 * vat c 5
       + vat t 4 * (vat c 4 * vat c 8 + vat c 5 * vat c 7) + vat t 5 * vat c 7 * vat c 8,
     vat t 0 * vat c 2 * vat c 2 + 2 * vat t 1 * vat c 2 * vat c 5 + 2 * vat t 2 * vat c 2 * vat c 8
       + vat t 3 * vat c 5 * vat c 5 + 2 * vat t 4 * vat c 5 * vat c 8 + vat t 5 * vat c 8 * vat c 8]

end Affine

namespace RefSystem

/-- `create_orthonormal_system(axis_x, axis_y)`. ref_system.cpp:56-68. -/
def ofXY (norm : List K → K) (ax ay : List K) : Option (List (List K)) :=
  let x := ax.map fun a => (1 / norm ax) * a
  let z := crossProduct x ay
  if 0 < norm z then
    let z' := z.map fun a => (1 / norm z) * a
    some [x, crossProduct z' x, z']
  else none

/-- `create_orthonormal_system(Point<1>)`. ref_system.cpp:76-80. -/
def ofAxis1 (norm : List K → K) (ax : List K) : List (List K) := [ax.map fun a => (1 / norm ax) * a]

/-- `create_orthonormal_system(Point<2>)`. ref_system.cpp:91-98. -/
def ofAxis2 (norm : List K → K) (ax : List K) : List (List K) :=
  let x := ax.map fun a => (1 / norm ax) * a
  [x, [-vat x 1, vat x 0]]

/-- `create_orthonormal_system(Point<3> axis_z)`. ref_system.cpp:113-143. `eps`: default tolerance of the assertion,
`tol`: the constant `1.0e-1`. -/
def ofAxis3 (norm : List K → K) (eps tol : K) (axisZ : List K) : Option (List (List K)) :=
  if Tol.isZero eps (norm axisZ) then none
  else
    let z := axisZ.map fun a => (1 / norm axisZ) * a
    let y := crossProduct z [1, 0, 0]
    if tol < norm y then
      let y' := y.map fun a => (1 / norm y) * a
      some [crossProduct y' z, y', z]
    else
      let x := crossProduct [0, 1, 0] z
      let x' := x.map fun a => (1 / norm x) * a
      some [x', crossProduct z x', z]

/-- The basis of `RefSystem(origin)`. ref_system.cpp:156-173. -/
def cartesian (dim : Nat) : List (List K) :=
  (List.range dim).map fun i => (List.range dim).map fun j => if i = j then 1 else 0

/-- `is_Cartesian_oriented`. ref_system.cpp:193-202. -/
def isCartesianOriented (eps : K) (basis : List (List K)) : Bool :=
  (List.range basis.length).all fun i => Tol.equal eps (vat (basis.getD i []) i) 1

end RefSystem
end Qugar
