import Mathlib.Analysis.Calculus.Deriv.Basic
/-
Specification vocabulary for vectors and derivatives of functions of several real variables (points are lists).
-/
namespace Qugar.Spec

/-- Scalar product. -/
def dot {K : Type} [Semiring K] (u v : List K) : K := (List.zipWith (· * ·) u v).sum

/-- `b` is an orthonormal family. -/
def Orthonormal {K : Type} [Semiring K] (b : List (List K)) : Prop :=
  ∀ i (hi : i < b.length) j (hj : j < b.length), dot b[i] b[j] = if i = j then 1 else 0

/-- Determinant of three vectors (positive: right-handed). -/
def triple {K : Type} [Ring K] : List K → List K → List K → K
  | [a, b, c], [d, e, f], [g, h, i] => a * (e * i - f * h) - b * (d * i - f * g) + c * (d * h - e * g)
  | _, _, _ => 0

/-- `f` is the Euclidean norm. -/
def EuclideanNorm {K : Type} [Semiring K] [LE K] (f : List K → K) : Prop :=
  ∀ v, 0 ≤ f v ∧ f v * f v = dot v v

/-- The point reached from `x` in the direction `v` at parameter `t`. -/
def along (x v : List ℝ) (t : ℝ) : List ℝ := List.zipWith (fun a b => a + t * b) x v

/-- `g` is the gradient of `F` at `x`: the derivative along every direction `v` exists and is `g · v`. -/
def IsGradient (F : List ℝ → ℝ) (x g : List ℝ) : Prop :=
  g.length = x.length ∧ ∀ v, v.length = x.length → HasDerivAt (fun t => F (along x v t)) (dot g v) 0

/-- The symmetric matrix stored as its upper triangle, row by row. -/
def symMatrix {K : Type} [Zero K] (dim : Nat) (h : List K) : List (List K) :=
  (List.range dim).map fun i => (List.range dim).map fun j =>
    h.getD (min i j * dim - min i j * (min i j + 1) / 2 + max i j) 0

/-- `h` (upper triangle) is the Hessian at `x` of the function whose gradient is `G`: row `i` is the gradient of the
`i`-th partial derivative. -/
def IsHessian (G : List ℝ → List ℝ) (x h : List ℝ) : Prop :=
  ∀ i, i < x.length → IsGradient (fun y => (G y).getD i 0) x ((symMatrix x.length h).getD i [])

/-- `G` and `H` are the gradient and the Hessian of `f` at every point. -/
def ExactDerivatives (dim : Nat) (f : List ℝ → ℝ) (G H : List ℝ → List ℝ) : Prop :=
  ∀ x, x.length = dim → IsGradient f x (G x) ∧ IsHessian G x (H x) ∧ (H x).length = dim * (dim + 1) / 2

end Qugar.Spec
