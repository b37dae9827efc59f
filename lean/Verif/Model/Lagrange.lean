import Verif.Model.Poly
/-
Model of cpp/qugar/lagrange_tp_utils.cpp. `real` is a field `K`. `algoim::bernstein::modifiedChebyshevNode(ind, order)` is
external: a parameter `cheb`.
-/
namespace Qugar.Lagrange
open Poly
variable {K : Type} [Field K]

/-- `get_coord`. lagrange_tp_utils.cpp:45-50, 71-76. (The branches are as in the code: `chebyshev` selects the equidistant
nodes.) -/
def getCoord (cheb : Nat → Nat → K) (order : Nat) (chebyshev : Bool) (ind : Nat) : K :=
  if chebyshev then (ind : K) / ((order - 1 : Nat) : K) else cheb ind order

/-- The loops of `evaluate_Lagrange_basis_1D`, for the nodes `node`. lagrange_tp_utils.cpp:52-60. -/
def values (node : Nat → K) (order : Nat) (point : K) : List K :=
  (List.range order).map fun i => (List.range order).foldl (fun product j =>
    if i ≠ j then product * ((point - node j) / (node i - node j)) else product) 1

/-- The loops of `evaluate_Lagrange_basis_der_1D`. lagrange_tp_utils.cpp:78-92. -/
def derivatives (node : Nat → K) (order : Nat) (point : K) : List K :=
  (List.range order).map fun i => (List.range order).foldl (fun product j =>
    if i ≠ j then
      product + (List.range order).foldl (fun term k =>
        if k ≠ i ∧ k ≠ j then term * ((point - node k) / (node i - node k)) else term) (1 / (node i - node j))
    else product) 0

/-- `evaluate_Lagrange_basis_1D`. lagrange_tp_utils.cpp:37-61. `none`: `assert(1 < order)` fails. -/
def basis1D (cheb : Nat → Nat → K) (point : K) (order : Nat) (chebyshev : Bool) : Option (List K) :=
  if 1 < order then some (values (getCoord cheb order chebyshev) order point) else none

/-- `evaluate_Lagrange_basis_der_1D`. lagrange_tp_utils.cpp:63-93. -/
def basisDer1D (cheb : Nat → Nat → K) (point : K) (order : Nat) (chebyshev : Bool) : Option (List K) :=
  if 1 < order then some (derivatives (getCoord cheb order chebyshev) order point) else none

/-- The loop over the tensor indices: products of the 1D values. lagrange_tp_utils.cpp:107-118, 136-154. -/
def tensorValues (order : List Nat) (dirs : List (List K)) : List K :=
  (visitAll (Range.ofUpper order)).foldl (fun out tid =>
    match flat tid order with
    | some k => out.set k ((List.range order.length).foldl (fun val dir => val * (dirs.getD dir []).getD (tid.getD dir 0) 0) 1)
    | none => out) (List.replicate (tsize order) 0)

/-- `evaluate_Lagrange_basis`. lagrange_tp_utils.cpp:96-119. -/
def basis (cheb : Nat → Nat → K) (point : List K) (order : List Nat) (chebyshev : Bool) : Option (List K) := do
  let dirs ← (List.zip point order).mapM fun xn => basis1D cheb xn.1 xn.2 chebyshev
  some (tensorValues order dirs)

/-- `evaluate_Lagrange_derivative`: one list per direction. lagrange_tp_utils.cpp:121-156. -/
def derivative (cheb : Nat → Nat → K) (point : List K) (order : List Nat) (chebyshev : Bool) : Option (List (List K)) := do
  let dirs ← (List.zip point order).mapM fun xn => basis1D cheb xn.1 xn.2 chebyshev
  let ders ← (List.zip point order).mapM fun xn => basisDer1D cheb xn.1 xn.2 chebyshev
  some ((List.range order.length).map fun d => tensorValues order (dirs.set d (ders.getD d [])))

end Qugar.Lagrange
