import Verif.Model.Funcs
/-
Model of the primitive functions (cpp/qugar/primitive_funcs_lib.cpp). The Bezier versions are in
`Verif.Model.BezierPrimitives`. `norm` is Algoim's Euclidean norm (external, a parameter).
-/
namespace Qugar.Prim
variable {K : Type} [Field K] [LinearOrder K]

/-- `dot(u, v)` (Algoim). -/
def dotp (u v : List K) : K := (List.zipWith (· * ·) u v).foldl (· + ·) 0
/-- `u - v` (Algoim). -/
def vsub (u v : List K) : List K := List.zipWith (· - ·) u v

/-- `Sphere`. primitive_funcs_lib.cpp:57-83; `sqrnorm(d)` is `dot(d, d)`. -/
def sphere (dim : Nat) (radius : K) (center : List K) : Func K :=
  ⟨fun p => dotp (vsub p center) (vsub p center) - radius * radius,
   fun p => (vsub p center).map (2 * ·),
   fun _ => if dim = 2 then [2, 0, 2] else [2, 0, 0, 2, 0, 2]⟩

/-- The axis stored by `CylinderBase` and by `TorusBase`. primitive_funcs_lib.cpp:115-123, 499-507. -/
def storedAxis (norm : List K → K) (eps : K) (axis : List K) : List K :=
  if Tol.isZero eps (norm axis) then axis else axis.map (· / norm axis)

/-- `Cylinder` with the stored axis. primitive_funcs_lib.cpp:193-231 (the statements after the first `return` of
`hessian_` are not reached). -/
def cylinder (radius : K) (origin axis : List K) : Func K :=
  ⟨fun p =>
      let diff := vsub p origin
      let proj := dotp diff axis
      dotp diff diff - proj * proj - radius * radius,
   fun p =>
      let diff := vsub p origin
      let proj := dotp diff axis
      vsub (diff.map (2 * ·)) (axis.map (2 * proj * ·)),
   fun _ => [2, 0, 0, 2, 0, 2]⟩

/-- `Ellipsoid`. primitive_funcs_lib.cpp:318-383. -/
def ellipsoid (dim : Nat) (semi origin : List K) (basis : List (List K)) : Func K :=
  ⟨fun p =>
      let diff := vsub p origin
      (List.range dim).foldl (fun val dir =>
        let proj := dotp (basis.getD dir []) diff / vat semi dir
        val + proj * proj) (-1),
   fun p =>
      let diff := vsub p origin
      (List.range dim).foldl (fun grad dir =>
        let coef := 2 / vat semi dir / vat semi dir
        let axis := basis.getD dir []
        List.zipWith (· + ·) grad (axis.map ((coef * dotp axis diff) * ·))) (List.replicate dim 0),
   fun _ => (List.range dim).foldl (fun hess dir =>
        let coef := 2 / vat semi dir / vat semi dir
        let axis := basis.getD dir []
        if dim = 2 then
          [vat hess 0 + coef * vat axis 0 * vat axis 0, vat hess 1 + coef * vat axis 0 * vat axis 1,
           vat hess 2 + coef * vat axis 1 * vat axis 1]
        else
          [vat hess 0 + coef * vat axis 0 * vat axis 0, vat hess 1 + coef * vat axis 0 * vat axis 1,
           vat hess 2 + coef * vat axis 0 * vat axis 2, vat hess 3 + coef * vat axis 1 * vat axis 1,
           vat hess 4 + coef * vat axis 1 * vat axis 2, vat hess 5 + coef * vat axis 2 * vat axis 2])
      (List.replicate (dim * (dim + 1) / 2) 0)⟩

/-- `Annulus`. primitive_funcs_lib.cpp:469-496. -/
def annulus (ri ro : K) (center : List K) : Func K :=
  ⟨fun p =>
      let dist2 := dotp (vsub p center) (vsub p center)
      ((dist2 - ri * ri - ro * ro) * dist2) + (ri * ri) * (ro * ro),
   fun p =>
      let diff := vsub p center
      diff.map ((4 * dotp diff diff - ri * ri - ro * ro) * ·),
   fun p =>
      let diff := vsub p center
      let aux := 4 * dotp diff diff
      [aux + 8 * vat diff 0 * vat diff 0, 8 * vat diff 0 * vat diff 1, aux + 8 * vat diff 1 * vat diff 1]⟩

/-- `Torus` with the stored axis. primitive_funcs_lib.cpp:684-753. -/
def torus (R r : K) (center axis : List K) : Func K :=
  ⟨fun p =>
      let diff := vsub p center
      let dist2 := dotp diff diff
      let proj := dotp diff axis
      dist2 * dist2 - 2 * (R * R + r * r) * dist2 + 4 * (R * R) * proj * proj + (R * R - r * r) * (R * R - r * r),
   fun p =>
      let diff := vsub p center
      let dist2 := dotp diff diff
      let proj := dotp diff axis
      List.zipWith (· + ·) (diff.map (4 * (dist2 - R * R - r * r) * ·)) (axis.map (8 * (R * R) * proj * ·)),
   fun p =>
      let diff := vsub p center
      let dist2 := dotp diff diff
      let aux0 := 4 * (dist2 - R * R - r * r)
      let aux1 := 8 * (R * R)
      (List.range 3).flatMap fun i => (List.range' i (3 - i)).map fun j =>
        aux0 * (if i = j then 1 else 0) + 8 * vat diff i * vat diff j + aux1 * vat axis i * vat axis j⟩

/-- `Constant`. primitive_funcs_lib.cpp:755-784. -/
def constant (dim : Nat) (value : K) : Func K :=
  ⟨fun _ => value, fun _ => List.replicate dim 0, fun _ => List.replicate (dim * (dim + 1) / 2) 0⟩

/-- `Plane`. primitive_funcs_lib.cpp:842-866. -/
def plane (dim : Nat) (origin normal : List K) : Func K :=
  ⟨fun p => dotp (vsub p origin) normal, fun _ => normal, fun _ => List.replicate (dim * (dim + 1) / 2) 0⟩

end Qugar.Prim
