/-
Specification vocabulary for tensor indices and index ranges (independent of the model's loops).
-/
namespace Qugar.Spec

/-- `i` is a tensor index with as many components as `size`, each below the corresponding size. -/
def InSize (size i : List Nat) : Prop :=
  i.length = size.length ∧ ∀ k, k < size.length → i.getD k 0 < size.getD k 0

/-- `i` lies in the box `[lo, up)` in every direction. -/
def InBox (lo up i : List Nat) : Prop :=
  i.length = lo.length ∧ i.length = up.length ∧
    ∀ k, k < i.length → lo.getD k 0 ≤ i.getD k 0 ∧ i.getD k 0 < up.getD k 0

/-- Product of the entries of a list. -/
def listProd : List Nat → Nat
  | [] => 1
  | n :: ns => n * listProd ns

/-- The mathematical flat index with direction 0 fastest: `i0 + s0 * (i1 + s1 * (i2 + ...))`. -/
def flatIndex : (i size : List Nat) → Nat
  | i :: is, s :: ss => i + s * flatIndex is ss
  | _, _ => 0

/-- Order in which a nested loop (last direction outermost, direction 0 innermost) meets indices. -/
def Before (a b : List Nat) : Prop :=
  ∃ k, k < a.length ∧ a.getD k 0 < b.getD k 0 ∧ ∀ j, k < j → a.getD j 0 = b.getD j 0

end Qugar.Spec
