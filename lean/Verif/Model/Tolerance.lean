import Mathlib.Algebra.Order.Field.Basic
import Mathlib.Algebra.Order.Group.Abs
/-
Model of `qugar::Tolerance` (cpp/include/qugar/tolerance.hpp, cpp/qugar/tolerance.cpp).
`qugar::real` (double) is replaced by a linearly ordered field `K`; rounding is not modelled.
A `Tolerance` object is its value `tol` (asserted non-negative: tolerance.cpp:32-35).
-/
namespace Qugar.Tol
variable {K : Type} [Field K] [LinearOrder K]

/-- `Tolerance(tol_0, tol_1)` and `update`: maximum. tolerance.cpp:37-57. -/
def update (tol other : K) : K := max tol other

/-- `Tolerance::is_zero`. tolerance.cpp:64-67. -/
def isZero (tol val : K) : Bool := decide (|val| ≤ tol)

/-- `Tolerance::is_negative`. tolerance.cpp:69-72. -/
def isNegative (tol val : K) : Bool := decide (val < -tol)

/-- `Tolerance::is_positive`. tolerance.cpp:74-77. -/
def isPositive (tol val : K) : Bool := decide (tol < val)

/-- `Tolerance::equal`. tolerance.cpp:79-82. -/
def equal (tol lhs rhs : K) : Bool := decide (|lhs - rhs| ≤ tol)

/-- `Tolerance::equal_rel(lhs, rhs)`. tolerance.cpp:84-87. -/
def equalRel (tol lhs rhs : K) : Bool :=
  decide (|lhs - rhs| ≤ (if |lhs| < |rhs| then |rhs| else |lhs|) * tol)

/-- `Tolerance::equal_rel(lhs, rhs, rel_tolerance)`. tolerance.cpp:89-93. -/
def equalAbsRel (tol relTol lhs rhs : K) : Bool :=
  decide (|lhs - rhs| ≤ tol + relTol * (if |lhs| < |rhs| then |rhs| else |lhs|))

/-- `Tolerance::greater_than`. tolerance.cpp:95-98. -/
def greaterThan (tol lhs rhs : K) : Bool := decide (lhs - rhs > tol)

/-- `Tolerance::greater_equal_than`. tolerance.cpp:100-103. -/
def greaterEqualThan (tol lhs rhs : K) : Bool := equal tol lhs rhs || greaterThan tol lhs rhs

/-- `Tolerance::greater_than_rel`. tolerance.cpp:105-108. -/
def greaterThanRel (tol lhs rhs : K) : Bool :=
  decide (lhs - rhs > (if |lhs| < |rhs| then |rhs| else |lhs|) * tol)

/-- `Tolerance::smaller_than`. tolerance.cpp:110-114. -/
def smallerThan (tol lhs rhs : K) : Bool := greaterThan tol rhs lhs

/-- `Tolerance::smaller_equal_than`. tolerance.cpp:116-120. -/
def smallerEqualThan (tol lhs rhs : K) : Bool := greaterEqualThan tol rhs lhs

/-- `Tolerance::smaller_than_rel`. tolerance.cpp:122-126. -/
def smallerThanRel (tol lhs rhs : K) : Bool := greaterThanRel tol rhs lhs

/-- Loop of `std::ranges::unique`: an element is dropped when it is tolerance-equal to the last kept one. -/
def uniqueLoop (tol : K) (last : K) : List K → List K
  | [] => []
  | x :: xs => if equal tol last x then uniqueLoop tol last xs else x :: uniqueLoop tol x xs

/-- `std::ranges::unique` with `Tolerance::equal` followed by `erase`. tolerance.cpp:132-134. -/
def uniqueSorted (tol : K) : List K → List K
  | [] => []
  | x :: xs => x :: uniqueLoop tol x xs

/-- `Tolerance::unique`: sort, then `std::unique`. tolerance.cpp:128-135. `std::ranges::sort` is modelled by merge
sort (any sorting function gives the same list here: the sorted permutation of a list over a linear order is
unique). -/
def unique (tol : K) (values : List K) : List K :=
  uniqueSorted tol (values.mergeSort (fun a b => decide (a ≤ b)))

/-- `Tolerance::coincident`: loop over the directions. tolerance.hpp:200-209. -/
def coincident (tol : K) : List K → List K → Bool
  | a :: as, b :: bs => if equal tol a b then coincident tol as bs else false
  | _, _ => true

end Qugar.Tol
