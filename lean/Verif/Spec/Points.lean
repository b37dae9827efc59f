import Mathlib.Logic.Relation
import Mathlib.Algebra.Order.Field.Basic
import Mathlib.Algebra.Order.Group.Abs
/-
Specification vocabulary for the identification of coincident points. Points are referred to by their positions in a list
of points; `x k i` is coordinate `k` of point `i`.
-/
namespace Qugar.Spec

/-- `srt` sorts by increasing key: a sorted permutation (no stability is assumed). -/
def IsSort {K : Type} [LE K] (srt : (Nat → K) → List Nat → List Nat) : Prop :=
  ∀ key l, (srt key l).Perm l ∧ (srt key l).Pairwise fun a b => key a ≤ key b

/-- `i` and `j` are joined by a chain of members of `S`, consecutive ones differing by at most `tol`. -/
def Linked {K : Type} [Field K] [LinearOrder K] (tol : K) (S : Nat → Prop) (x : Nat → K) : Nat → Nat → Prop :=
  Relation.ReflTransGen fun a b => S a ∧ S b ∧ |x a - x b| ≤ tol

/-- `i` and `j` are joined in coordinate `k` within `S`, then in coordinate `k - 1` within the members of `S` joined to
`i` in coordinate `k`, and so on down to coordinate 0. -/
def Identified {K : Type} [Field K] [LinearOrder K] (tol : K) (x : Nat → Nat → K) :
    Nat → (Nat → Prop) → Nat → Nat → Prop
  | 0, S, i, j => Linked tol S (x 0) i j
  | k + 1, S, i, j =>
    Linked tol S (x (k + 1)) i j ∧ Identified tol x k (fun s => S s ∧ Linked tol S (x (k + 1)) i s) i j

end Qugar.Spec
