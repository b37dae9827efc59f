import Verif.Spec.Tensor
import Mathlib.Algebra.Module.Defs
import Mathlib.Algebra.Field.Basic
import Mathlib.Data.Nat.Choose.Basic
/-
Specification vocabulary for tensor-product polynomials: a polynomial of orders `size` (order = degree + 1 in each
direction) is given by its list of coefficients, the coefficient of the tensor index `i` being at position
`flatIndex i size`. Coefficients are elements of a `K`-module (numbers, or points for vector-valued polynomials).
-/
namespace Qugar.Spec

/-- All the tensor indices below the sizes, direction 0 fastest. -/
def indices : List Nat → List (List Nat)
  | [] => [[]]
  | n :: ns => (indices ns).flatMap fun t => (List.range n).map (· :: t)

/-- Product over the directions of one function of the index per direction. -/
def basisProd {K : Type} [CommSemiring K] : List (Nat → K) → List Nat → K
  | f :: fs, i :: is => f i * basisProd fs is
  | _, _ => 1

/-- The combination of the coefficients with the products of the basis values `f` (one function per direction). -/
def tensorSum {K V : Type} [CommSemiring K] [AddCommMonoid V] [Module K V] (f : List (Nat → K)) (size : List Nat)
    (c : List V) : V :=
  ((indices size).map fun i => basisProd f i • c.getD (flatIndex i size) 0).sum

/-- Values of the monomials `t^i` at the coordinates of `x`. -/
def monomialBasis {K : Type} [CommSemiring K] (x : List K) : List (Nat → K) := x.map fun t i => t ^ i

/-- Bernstein polynomial `i` of degree `d`. -/
def bernstein {K : Type} [CommRing K] (d i : Nat) (t : K) : K := (d.choose i : K) * t ^ i * (1 - t) ^ (d - i)

/-- Values of the Bernstein polynomials at the coordinates of `x`, for the orders `size`. -/
def bernsteinBasis {K : Type} [CommRing K] (size : List Nat) (x : List K) : List (Nat → K) :=
  List.zipWith (fun n t i => bernstein (n - 1) i t) size x

/-- A well-formed polynomial: orders positive, one coefficient per index. -/
def WellFormed {V : Type} (size : List Nat) (c : List V) : Prop :=
  size ≠ [] ∧ (∀ n ∈ size, 0 < n) ∧ c.length = listProd size

/-- `x` lies in the unit cube. -/
def InUnitCube {K : Type} [Zero K] [One K] [LE K] (x : List K) : Prop := ∀ t ∈ x, 0 ≤ t ∧ t ≤ 1

end Qugar.Spec
