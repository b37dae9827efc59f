/-
Model of `qugar::TensorSizeTP`, `qugar::TensorIndexTP`, `qugar::TensorIndexRangeTP`
(cpp/include/qugar/tensor_index_tp.hpp, cpp/qugar/tensor_index_tp.cpp).

A `dim`-dimensional index is a list of `dim` naturals, direction 0 first (the C++ components are `int`s that the
constructors assert to be non-negative: tensor_index_tp.cpp:38-41, 79-84). All the functions are generic in the
dimension (the C++ classes are instantiated for 0..3 only). Integer overflow is not modelled.
`none` stands for a failed `assert`.
-/

namespace Qugar

/-- `TensorSizeTP::size` : product of the sizes. tensor_index_tp.cpp:56-63. -/
def tsize (s : List Nat) : Nat := s.foldl (fun acc n => acc * n) 1

/-- Loop of `TensorIndexTP::flat`, with `accum_size` and `flat_index` as accumulators.
tensor_index_tp.cpp:130-144. `none`: the assertion of line 138 fails (or the lengths differ, which is
ill-typed in C++). -/
def flatLoop : (idx size : List Nat) → (accum flat : Nat) → Option Nat
  | [], [], _, fl => some fl
  | i :: is, s :: ss, acc, fl => if i < s then flatLoop is ss (acc * s) (fl + i * acc) else none
  | _, _, _, _ => none

/-- `TensorIndexTP::flat`. tensor_index_tp.cpp:130-144. -/
def flat (idx size : List Nat) : Option Nat := flatLoop idx size 1 0

/-- Loop of the constructor `TensorIndexTP(flat_index, size)`; the first argument holds the sizes of directions
`dir, dir-1, ..., 0`, the result the components in the same (descending) order.
tensor_index_tp.hpp:145-151. -/
def unflatLoop : (revSizes : List Nat) → (total fl : Nat) → List Nat
  | [], _, _ => []
  | s :: ss, total, fl =>
    let total' := total / s
    let ind := fl / total'
    ind :: unflatLoop ss total' (fl - ind * total')

/-- Constructor `TensorIndexTP(flat_index, size)`. tensor_index_tp.hpp:136-152.
`none`: the assertion of line 143 fails. -/
def unflat (fl : Nat) (size : List Nat) : Option (List Nat) :=
  if fl < tsize size then some (unflatLoop size.reverse (tsize size) fl).reverse else none

/-- `TensorIndexTP::operator<`, the loop over `dir = dim-1, ..., 1` followed by the comparison of component 0.
Arguments: components of `this` and `rhs`, last direction first. tensor_index_tp.cpp:116-128. -/
def ltLoop : List Nat → List Nat → Bool
  | [a], [b] => a < b
  | a :: as, b :: bs => if b < a then false else ltLoop as bs
  | _, _ => false

/-- `TensorIndexTP::operator<`. tensor_index_tp.cpp:116-128. -/
def tidxLt (a b : List Nat) : Bool := ltLoop a.reverse b.reverse

/-- `TensorIndexTP::remove_component`. tensor_index_tp.cpp:146-158. -/
def removeComponent (idx : List Nat) (comp : Nat) : List Nat :=
  ((List.range idx.length).filter fun dir => dir != comp).map fun dir => idx.getD dir 0

/-- `TensorIndexRangeTP`: lower and upper bounds. tensor_index_tp.hpp:245-380. -/
structure Range where
  lo : List Nat
  up : List Nat
deriving DecidableEq, Repr

/-- The assertion of the constructor `TensorIndexRangeTP(lower, upper)`, with equal dimensions (a type
constraint in C++). tensor_index_tp.cpp:172-183. -/
def Range.Valid (r : Range) : Prop :=
  r.lo.length = r.up.length ∧ ∀ k, r.lo.getD k 0 ≤ r.up.getD k 0

/-- Constructor `TensorIndexRangeTP(upper_bound)`: lower bound zero. tensor_index_tp.cpp:185-193. -/
def Range.ofUpper (up : List Nat) : Range := ⟨up.map (fun _ => 0), up⟩

/-- `TensorIndexRangeTP::get_sizes`. tensor_index_tp.cpp:200-203. -/
def Range.sizes (r : Range) : List Nat := List.zipWith (fun u l => u - l) r.up r.lo

/-- `TensorIndexRangeTP::size`. tensor_index_tp.cpp:205-208. -/
def Range.size (r : Range) : Nat := tsize r.sizes

/-- `TensorIndexRangeTP::is_in_range(index)`: `all(lower <= index) && all(index < upper)`.
tensor_index_tp.cpp:240-244. -/
def Range.isInRange (r : Range) (idx : List Nat) : Bool :=
  (List.zipWith (fun l i => decide (l ≤ i)) r.lo idx).all id
    && (List.zipWith (fun i u => decide (i < u)) idx r.up).all id

/-- `TensorIndexRangeTP::is_in_range(flat, total_size)`. tensor_index_tp.cpp:246-255. -/
def Range.isInRangeFlat (r : Range) (fl : Nat) (total : List Nat) : Bool :=
  if tsize total ≤ fl then false
  else match unflat fl total with
    | some idx => r.isInRange idx
    | none => false

/-- Loop of `algoim::argmax` (external; first position of the largest entry): position scanned, best position
and best value so far. -/
def argmaxLoop : List Nat → (pos best val : Nat) → Nat
  | [], _, best, _ => best
  | x :: xs, pos, best, val =>
    if val < x then argmaxLoop xs (pos + 1) pos x else argmaxLoop xs (pos + 1) best val

/-- `algoim::argmax` (external). -/
def argmax : List Nat → Nat
  | [] => 0
  | x :: xs => argmaxLoop xs 1 0 x

/-- `TensorIndexRangeTP::split`. tensor_index_tp.cpp:258-273. `none`: the assertion `size() > 1` fails. -/
def Range.split (r : Range) : Option (Range × Range) :=
  if 1 < r.size then
    let d := argmax r.sizes
    let m := (r.lo.getD d 0 + r.up.getD d 0) / 2
    some (⟨r.lo, r.up.set d m⟩, ⟨r.lo.set d m, r.up⟩)
  else none

/-- The carry loop of `Iterator::operator++`: `none` when the loop runs off the last direction.
tensor_index_tp.cpp:308-314. -/
def incr : (idx lo up : List Nat) → Option (List Nat)
  | i :: is, l :: ls, u :: us => if i + 1 < u then some ((i + 1) :: is) else (incr is ls us).map (l :: ·)
  | _, _, _ => none

/-- `Iterator::operator++`. tensor_index_tp.cpp:306-320. -/
def Range.next (r : Range) (idx : List Nat) : List Nat := (incr idx r.lo r.up).getD r.up

/-- `for (it = range.begin(); it != range.end(); ++it) visit(*it)`, started at an arbitrary index; the fuel bounds
the number of steps, `none` means that the fuel ran out before `end()` was met.
tensor_index_tp.cpp:210-228 (begin/end), 306-340 (++, ==, !=). -/
def Range.loop (r : Range) : (fuel : Nat) → (idx : List Nat) → Option (List (List Nat))
  | 0, idx => if idx = r.up then some [] else none
  | fuel + 1, idx => if idx = r.up then some [] else (r.loop fuel (r.next idx)).map (idx :: ·)

/-- The indices visited by `for (const auto &idx : range)` (at most `fuel` steps). -/
def Range.visit (r : Range) (fuel : Nat) : Option (List (List Nat)) := r.loop fuel r.lo

/-- `Iterator::flat`: flat index of the current index with respect to the upper bound.
tensor_index_tp.cpp:301-304. -/
def Range.iterFlat (r : Range) (idx : List Nat) : Option Nat := flat idx r.up

end Qugar
