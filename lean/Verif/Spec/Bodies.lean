import Verif.Spec.Calculus
/-
Specification vocabulary for the bodies described by the primitive functions: points are lists of coordinates.
-/
namespace Qugar.Spec

/-- Squared Euclidean distance of two points. -/
def dist2 {K : Type} [Ring K] (p q : List K) : K := dot (List.zipWith (· - ·) p q) (List.zipWith (· - ·) p q)

/-- The point at parameter `t` of the line through `o` with direction `a`. -/
def linePoint {K : Type} [Ring K] (o a : List K) (t : K) : List K := List.zipWith (fun x y => x + t * y) o a

/-- The circle of radius `R` around `c` in the plane orthogonal to `a`. -/
def OnCircle {K : Type} [Ring K] (R : K) (c a q : List K) : Prop :=
  q.length = c.length ∧ dist2 q c = R * R ∧ dot (List.zipWith (· - ·) q c) a = 0

/-- The point with coordinates `u` (in units of the semi-axes `s`) in the frame `b` (given by its axes) around `o`. -/
def framePoint {K : Type} [Ring K] (o s : List K) (b : List (List K)) (u : List K) : List K :=
  (List.range o.length).map fun j =>
    o.getD j 0 + ((List.range b.length).map fun i => s.getD i 0 * u.getD i 0 * (b.getD i []).getD j 0).sum

end Qugar.Spec
