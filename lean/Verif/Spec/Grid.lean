import Mathlib.Algebra.Order.Field.Basic
import Mathlib.Data.List.Forall2
/-
Specification vocabulary for grids and boxes: a box is a list of intervals, a point a list of coordinates.
-/
namespace Qugar.Spec
variable {K : Type} [Field K] [LinearOrder K]

/-- The point is in the closed box enlarged by `tol` on every side. -/
def InClosedBox (tol : K) (box : List (K × K)) (p : List K) : Prop :=
  List.Forall₂ (fun iv x => iv.1 - tol ≤ x ∧ x ≤ iv.2 + tol) box p

/-- The point is in the box, at a distance greater than `tol` from the upper faces. -/
def InLowerBox (tol : K) (box : List (K × K)) (p : List K) : Prop :=
  List.Forall₂ (fun iv x => iv.1 ≤ x ∧ x + tol < iv.2) box p

/-- The interiors of two boxes are disjoint: in some direction one interval ends before the other starts. -/
def InteriorsDisjoint (a b : List (K × K)) : Prop :=
  ∃ (k : Nat) (iv jv : K × K), a[k]? = some iv ∧ b[k]? = some jv ∧ (iv.2 ≤ jv.1 ∨ jv.2 ≤ iv.1)

/-- Volume of a box: product of the side lengths. -/
def boxVolume : List (K × K) → K
  | [] => 1
  | iv :: ivs => (iv.2 - iv.1) * boxVolume ivs

end Qugar.Spec
