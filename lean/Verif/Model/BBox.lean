import Mathlib.Algebra.Order.Field.Basic
/-
Model of `qugar::BoundBox` (cpp/qugar/bbox.cpp, cpp/include/qugar/bbox.hpp).
A box is a list with one interval `(min, max)` per direction (the C++ class stores the two corners).
`qugar::real` is replaced by a linearly ordered field `K`.
-/
namespace Qugar
variable {K : Type} [Field K] [LinearOrder K]

/-- `BoundBox<dim>`: `(min_(dir), max_(dir))` for each direction. bbox.hpp:37-80. -/
abbrev Box (K : Type) := List (K × K)

namespace Box

/-- The assertion of `BoundBox::set`. bbox.cpp:70-77. -/
def Valid (b : Box K) : Prop := ∀ iv ∈ b, iv.1 ≤ iv.2

/-- `BoundBox(min, max)` corners / `set`. bbox.cpp:54-57, 70-77. -/
def ofCorners (mn mx : List K) : Box K := List.zip mn mx

/-- `BoundBox::extend(point)`. bbox.cpp:79-85. -/
def extendPoint (b : Box K) (p : List K) : Box K :=
  List.zipWith (fun iv x => (min iv.1 x, max iv.2 x)) b p

/-- `BoundBox::extend(delta)`. bbox.cpp:136-147. -/
def extendDelta (b : Box K) (delta : K) : Box K := b.map fun iv => (iv.1 - delta, iv.2 + delta)

/-- `BoundBox::length(dir)` for all the directions (`get_lengths`). bbox.cpp:150-162. -/
def lengths (b : Box K) : List K := b.map fun iv => iv.2 - iv.1

/-- `BoundBox::volume`. bbox.cpp:172-179. -/
def volume (b : Box K) : K := b.foldl (fun v iv => v * (iv.2 - iv.1)) 1

/-- `BoundBox::mid_point`. bbox.cpp:181-184. -/
def midPoint (b : Box K) : List K := b.map fun iv => (1 / 2) * (iv.1 + iv.2)

/-- `BoundBox::scale_to_new_domain`. bbox.cpp:186-195. -/
def scaleToNewDomain (b new : Box K) (p : List K) : List K :=
  List.zipWith (fun (ivs : (K × K) × (K × K)) x =>
    (x - ivs.1.1) * (ivs.2.2 - ivs.2.1) / (ivs.1.2 - ivs.1.1) + ivs.2.1) (List.zip b new) p

/-- `BoundBox::scale_to_0_1`. bbox.cpp:197-204. -/
def scaleTo01 (b : Box K) (p : List K) : List K :=
  List.zipWith (fun iv x => (x - iv.1) / (iv.2 - iv.1)) b p

/-- `BoundBox::scale_from_0_1`. bbox.cpp:206-213. -/
def scaleFrom01 (b : Box K) (p : List K) : List K :=
  List.zipWith (fun iv x => x * (iv.2 - iv.1) + iv.1) b p

/-- `BoundBox::slice`. bbox.hpp:182-198. -/
def slice (b : Box K) (constDir : Nat) : Box K := b.eraseIdx constDir

end Box
end Qugar
