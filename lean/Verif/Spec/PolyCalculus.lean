import Verif.Spec.Calculus
import Verif.Spec.Poly
/-
Derivatives of functions of several real variables with values in a normed space (numbers for scalar polynomials, points
for vector-valued ones). For `V = ℝ` these are `IsGradient` and `IsHessian` of `Spec/Calculus.lean`.
-/
namespace Qugar.Spec

variable {V : Type} [NormedAddCommGroup V] [NormedSpace ℝ V]

/-- `g` is the list of partial derivatives of `F` at `x`: the derivative along every direction `v` exists and is the sum of
the `v_i g_i`. -/
def IsGradientV (F : List ℝ → V) (x : List ℝ) (g : List V) : Prop :=
  g.length = x.length ∧
    ∀ v, v.length = x.length → HasDerivAt (fun t => F (along x v t)) (List.zipWith (fun a b => a • b) v g).sum 0

/-- `h` (upper triangle, row by row) is the Hessian at `x` of the function whose gradient is `G`. -/
def IsHessianV (G : List ℝ → List V) (x : List ℝ) (h : List V) : Prop :=
  ∀ i, i < x.length → IsGradientV (fun y => (G y).getD i 0) x ((symMatrix x.length h).getD i [])

end Qugar.Spec
