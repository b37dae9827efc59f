import Verif.Spec.Poly
import Mathlib.LinearAlgebra.Lagrange
import Mathlib.LinearAlgebra.Matrix.Determinant.Basic
import Mathlib.Analysis.Calculus.Deriv.Basic
/-
Specification vocabulary for high-order meshes: the vertices of a cell, the map that interpolates them, its derivatives.
-/
namespace Qugar.Spec

/-- The vertex with tensor index `t` of a cell of a mesh whose cells have `order` points per direction. -/
def vertex {K : Type} (dim order : Nat) (points : List (List K)) (conn : List Nat) (cell : Nat) (t : List Nat) : List K :=
  points.getD (conn.getD (cell * order ^ dim + flatIndex t (List.replicate dim order)) 0) []

/-- Coordinate `c`, at the parameter `u`, of the map that interpolates the vertices `vert` at the tensor-product nodes `ν`
(Lagrange interpolation in every direction). -/
noncomputable def cellMap (ν : Nat → ℝ) (dim order : Nat) (vert : List Nat → List ℝ) (u : List ℝ) (c : Nat) : ℝ :=
  ((indices (List.replicate dim order)).map fun t =>
    (vert t).getD c 0 * basisProd (u.map fun x i => (Lagrange.basis (Finset.range order) ν i).eval x) t).sum

/-- The centre of the parametric cell. -/
noncomputable def centre (dim : Nat) : List ℝ := List.replicate dim (1 / 2)

/-- Partial derivative in direction `d`, at the centre, of coordinate `c` of that map. -/
noncomputable def cellDeriv (ν : Nat → ℝ) (dim order : Nat) (vert : List Nat → List ℝ) (d c : Nat) : ℝ :=
  deriv (fun s => cellMap ν dim order vert ((centre dim).set d s) c) (1 / 2)

/-- Jacobian determinant of that map at the centre of the cell. -/
noncomputable def jacobian (ν : Nat → ℝ) (dim order : Nat) (vert : List Nat → List ℝ) : ℝ :=
  Matrix.det (Matrix.of fun d c : Fin dim => cellDeriv ν dim order vert d c)

/-- The vertices of the cell with its directions permuted: directions 0 and 1 exchanged, a curve reversed. -/
def flipped {α : Type} (dim order : Nat) (vert : List Nat → α) (t : List Nat) : α :=
  if dim = 1 then vert [order - 1 - t.getD 0 0] else vert ((t.set 0 (t.getD 1 0)).set 1 (t.getD 0 0))

/-- Normal at the centre of the map: the tangent of a plane curve turned by -90 degrees, or the cross product of the
derivatives in the two directions of a surface. -/
noncomputable def cellNormalAt (ν : Nat → ℝ) (dim order : Nat) (vert : List Nat → List ℝ) : List ℝ :=
  let a := cellDeriv ν dim order vert 0
  let b := cellDeriv ν dim order vert 1
  if dim = 1 then [a 1, -a 0] else [a 1 * b 2 - a 2 * b 1, a 2 * b 0 - a 0 * b 2, a 0 * b 1 - a 1 * b 0]

/-- Image of the centre of the parametric cell. -/
noncomputable def centrePoint (ν : Nat → ℝ) (dim range order : Nat) (vert : List Nat → List ℝ) : List ℝ :=
  (List.range range).map fun c => cellMap ν dim order vert (centre dim) c

/-- Tensor index of point `i` of the local edge `edge` of a cell. In 2D the edges 0 and 1 lie on the two sides of direction 0,
the edges 2 and 3 on those of direction 1. In 3D the edges 0-3 run along direction 2, 4-7 along direction 1, 8-11 along
direction 0; the lowest bit of the edge gives the side in the first of the two other directions, the next bit the side in
the second. -/
def edgeIndex (dim order edge i : Nat) : List Nat :=
  let a := if edge % 2 = 0 then 0 else order - 1
  let b := if edge / 2 % 2 = 0 then 0 else order - 1
  if dim = 2 then if edge < 2 then [a, i] else [i, a]
  else if edge < 4 then [a, b, i] else if edge < 8 then [a, i, b] else [i, a, b]

end Qugar.Spec
