import Verif.Model.Poly
import Verif.Model.Primitives
import Verif.Model.Affine
/-
Model of the Bezier versions of the primitive functions (cpp/qugar/primitive_funcs_lib.cpp): each one is the conversion
(`ofMonomials`, bezier_tp.cpp) of a polynomial in monomials whose coefficients start at zero (polynomial_tp.cpp:34-40)
and are written by `create_monomials`. The assertions on the radii and semi-axes are not modelled (the statements hold
without them). The two coefficient tables were transcribed from the source by a script.
-/
namespace Qugar.Prim
open Poly
variable {K : Type} [Field K] [LinearOrder K]

/-- `std::make_shared<MonomialsTP>(order)`: all coefficients zero. polynomial_tp.cpp:34-40. -/
def zeroMon (order : List Nat) : P K := ⟨order, List.replicate (order.foldl (· * ·) 1) 0⟩
/-- `monomials->get_coef(tid) = v`. polynomial_tp.cpp (`get_coef`). -/
def setCoef (p : P K) (tid : List Nat) (v : K) : P K :=
  match flat tid p.order with
  | some k => ⟨p.order, p.coefs.set k v⟩
  | none => p
/-- `monomials->get_coef(tid) += v`. -/
def addCoef (p : P K) (tid : List Nat) (v : K) : P K :=
  match flat tid p.order with
  | some k => ⟨p.order, p.coefs.modify k (· + v)⟩
  | none => p
/-- `TensorIndexTP<dim> tid{ 0 }`. -/
def tid0 (dim : Nat) : List Nat := List.replicate dim 0
/-- `++tid(dir)`. -/
def incr (tid : List Nat) (dir : Nat) : List Nat := tid.modify dir (· + 1)
/-- A sequence of assignments `monomials->get_coef(tid) = v`. -/
def setAll (p : P K) (l : List (List Nat × K)) : P K := l.foldl (fun p e => setCoef p e.1 e.2) p

/-- `SphereBzr::create_monomials`. primitive_funcs_lib.cpp:95-113. (`get_coef(0)` is the coefficient of flat index 0, that
is of the tensor index 0.) -/
def sphereMon (dim : Nat) (radius : K) (center : List K) : P K :=
  (List.range dim).foldl (fun p dir =>
      let p := addCoef p (tid0 dim) (vat center dir * vat center dir)
      let p := setCoef p ((tid0 dim).set dir 1) (-2 * vat center dir)
      setCoef p ((tid0 dim).set dir 2) 1)
    (setCoef (zeroMon (List.replicate dim 3)) (tid0 dim) (-radius * radius))

/-- `CylinderBzr::create_monomials` once the basis of `RefSystem<3>(origin, axis)` is known.
primitive_funcs_lib.cpp:162-192. -/
def cylinderMonOf (radius : K) (origin : List K) (basis : List (List K)) : P K :=
  (List.range 2).foldl (fun p dir =>
      let vec := basis.getD dir []
      let proj := dotp vec origin
      let p := addCoef p (tid0 3) (proj * proj)
      (List.range 3).foldl (fun p dir2 =>
          let p := addCoef p (incr (tid0 3) dir2) (-2 * vat vec dir2 * proj)
          (List.range 3).foldl (fun p dir3 =>
              addCoef p (incr (incr (tid0 3) dir2) dir3) (vat vec dir2 * vat vec dir3)) p) p)
    (setCoef (zeroMon [3, 3, 3]) (tid0 3) (-radius * radius))

/-- `CylinderBzr::create_monomials`; `none`: the assertion of the reference system fails.
primitive_funcs_lib.cpp:162-192. -/
def cylinderMon (norm : List K → K) (eps tol radius : K) (origin axis : List K) : Option (P K) :=
  (RefSystem.ofAxis3 norm eps tol axis).map fun basis => cylinderMonOf radius origin basis

/-- `EllipsoidBzr::create_monomials`. primitive_funcs_lib.cpp:276-312. -/
def ellipsoidMon (dim : Nat) (semi origin : List K) (basis : List (List K)) : P K :=
  (List.range dim).foldl (fun p dir =>
      let coef := 1 / vat semi dir / vat semi dir
      let vec := basis.getD dir []
      let proj := dotp vec origin
      let p := addCoef p (tid0 dim) (proj * proj * coef)
      (List.range dim).foldl (fun p dir2 =>
          let p := addCoef p (incr (tid0 dim) dir2) (-2 * vat vec dir2 * proj * coef)
          (List.range dim).foldl (fun p dir3 =>
              addCoef p (incr (incr (tid0 dim) dir2) dir3) (vat vec dir2 * vat vec dir3 * coef)) p) p)
    (setCoef (zeroMon (List.replicate dim 3)) (tid0 dim) (-1))

/-- `AnnulusBzr::create_monomials`. primitive_funcs_lib.cpp:418-472. -/
def annulusMon (ri ro : K) (center : List K) : P K :=
  let Ri_2 := ri * ri
  let Ro_2 := ro * ro
  let o0 := vat center 0
  let o1 := vat center 1
  let o0_2 := o0 * o0
  let o1_2 := o1 * o1
  setAll (zeroMon [5, 5]) [
     ([0, 0], -Ro_2 * o0_2 - Ro_2 * o1_2 + Ro_2 * Ri_2 + o0_2 * o0_2 + 2 * o0_2 * o1_2 - o0_2 * Ri_2 + o1_2 *
       o1_2 - o1_2 * Ri_2),
     ([1, 0], 2 * Ro_2 * o0 - 4 * o0_2 * o0 - 4 * o0 * o1_2 + 2 * o0 * Ri_2),
     ([0, 1], 2 * Ro_2 * o1 - 4 * o0_2 * o1 - 4 * o1_2 * o1 + 2 * o1 * Ri_2),
     ([1, 1], 8 * o0 * o1),
     ([2, 0], -Ro_2 + 6 * o0_2 + 2 * o1_2 - Ri_2),
     ([0, 2], -Ro_2 + 2 * o0_2 + 6 * o1_2 - Ri_2),
     ([1, 2], -4 * o0),
     ([2, 1], -4 * o1),
     ([3, 0], -4 * o0),
     ([0, 3], -4 * o1),
     ([2, 2], 2),
     ([4, 0], 1),
     ([0, 4], 1)]

/-- `TorusBzr::create_monomials`. primitive_funcs_lib.cpp:562-677. -/
def torusMon (norm : List K → K) (R r : K) (center axis : List K) : P K :=
  let unit_axis := axis.map (· / norm axis)
  let o0 := vat center 0
  let o1 := vat center 1
  let o2 := vat center 2
  let o0_2 := o0 * o0
  let o1_2 := o1 * o1
  let o2_2 := o2 * o2
  let a0 := vat unit_axis 0
  let a1 := vat unit_axis 1
  let a2 := vat unit_axis 2
  let a0_2 := a0 * a0
  let a1_2 := a1 * a1
  let a2_2 := a2 * a2
  let R_2 := R * R
  let r_2 := r * r
  setAll (zeroMon [5, 5, 5]) [
     ([0, 0, 0], R_2 * R_2 + 4 * R_2 * a0_2 * o0_2 + 8 * R_2 * a0 * a1 * o0 * o1 + 8 * R_2 * a0 * a2 * o0 *
       o2 + 4 * R_2 * a1_2 * o1_2 + 8 * R_2 * a1 * a2 * o1 * o2 + 4 * R_2 * a2_2 * o2_2 - 2 * R_2 * o0_2 - 2
       * R_2 * o1_2 - 2 * R_2 * o2_2 - 2 * R_2 * r_2 + o0_2 * o0_2 + 2 * o0_2 * o1_2 + 2 * o0_2 * o2_2 - 2 *
       o0_2 * r_2 + o1_2 * o1_2 + 2 * o1_2 * o2_2 - 2 * o1_2 * r_2 + o2_2 * o2_2 - 2 * o2_2 * r_2 + r_2 *
       r_2),
     ([1, 0, 0], -8 * R_2 * a0_2 * o0 - 8 * R_2 * a0 * a1 * o1 - 8 * R_2 * a0 * a2 * o2 + 4 * R_2 * o0 - 4 *
       o0_2 * o0 - 4 * o0 * o1_2 - 4 * o0 * o2_2 + 4 * o0 * r_2),
     ([0, 1, 0], -8 * R_2 * a0 * a1 * o0 - 8 * R_2 * a1_2 * o1 - 8 * R_2 * a1 * a2 * o2 + 4 * R_2 * o1 - 4 *
       o0_2 * o1 - 4 * o1_2 * o1 - 4 * o1 * o2_2 + 4 * o1 * r_2),
     ([0, 0, 1], -8 * R_2 * a0 * a2 * o0 - 8 * R_2 * a1 * a2 * o1 - 8 * R_2 * a2_2 * o2 + 4 * R_2 * o2 - 4 *
       o0_2 * o2 - 4 * o1_2 * o2 - 4 * o2_2 * o2 + 4 * o2 * r_2),
     ([1, 1, 0], 8 * R_2 * a0 * a1 + 8 * o0 * o1),
     ([1, 0, 1], 8 * o0 * o2 + 8 * R_2 * a0 * a2),
     ([0, 1, 1], 8 * R_2 * a1 * a2 + 8 * o1 * o2),
     ([2, 0, 0], 4 * R_2 * a0_2 - 2 * R_2 + 6 * o0_2 + 2 * o1_2 + 2 * o2_2 - 2 * r_2),
     ([0, 2, 0], 4 * R_2 * a1_2 - 2 * R_2 + 2 * o0_2 + 6 * o1_2 + 2 * o2_2 - 2 * r_2),
     ([0, 0, 2], 4 * R_2 * a2_2 - 2 * R_2 + 2 * o0_2 + 6 * o2_2 - 2 * r_2 + 2 * o1_2),
     ([3, 0, 0], -4 * o0),
     ([0, 3, 0], -4 * o1),
     ([0, 0, 3], -4 * o2),
     ([1, 2, 0], -4 * o0),
     ([1, 0, 2], -4 * o0),
     ([0, 1, 2], -4 * o1),
     ([2, 1, 0], -4 * o1),
     ([2, 0, 1], -4 * o2),
     ([0, 2, 1], -4 * o2),
     ([2, 2, 0], 2),
     ([2, 0, 2], 2),
     ([0, 2, 2], 2),
     ([4, 0, 0], 1),
     ([0, 4, 0], 1),
     ([0, 0, 4], 1)]

/-- `ConstantBzr`: the only coefficient is the value. primitive_funcs_lib.cpp:761-764. -/
def constantBzr (dim : Nat) (value : K) : P K := ⟨List.replicate dim 1, [value]⟩

/-- `PlaneBzr::create_monomials`. primitive_funcs_lib.cpp:822-838. -/
def planeMon (norm : List K → K) (dim : Nat) (origin normal : List K) : P K :=
  let unit_normal := normal.map (· / norm normal)
  (List.range dim).foldl (fun p dir =>
      let p := addCoef p (tid0 dim) (-(vat origin dir * vat unit_normal dir))
      setCoef p ((tid0 dim).set dir 1) (vat unit_normal dir))
    (zeroMon (List.replicate dim 2))

end Qugar.Prim
