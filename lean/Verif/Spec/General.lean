import Verif.Model.ReparamGeneral
/-
Specification of the parameters of the reparameterization of general functions.
-/
namespace Qugar.General
open Roots Mesh Poly Reparam
variable {K : Type} [Field K] [LinearOrder K]

/-- The interval evaluations bound the function and (in mean value form) its partial derivatives on boxes, and the root finder returns
exactly the zeros on the lines where the function is not zero everywhere; the signs are those of Algoim
(`algoim::detail::determineSigns`). -/
structure Sound (n : Nat) (F : Fn K) : Prop where
  value : ∀ (box : Box K) (x : List K), box.length = n → x.length = n →
    (∀ d, d < n → (box.getD d (0, 0)).1 ≤ vat x d ∧ vat x d ≤ (box.getD d (0, 0)).2) →
    |F.val x - (F.ivl box).alpha| ≤ (F.ivl box).dev
  gradient : ∀ (box : Box K) (x : List K) (d : Nat) (t : K), box.length = n → x.length = n → d < n →
    (∀ k, k < n → (box.getD k (0, 0)).1 ≤ vat x k ∧ vat x k ≤ (box.getD k (0, 0)).2) →
    (box.getD d (0, 0)).1 ≤ t ∧ t ≤ (box.getD d (0, 0)).2 →
    |F.val (x.set d t) - F.val x - ((F.grad box).getD d ⟨0, 0⟩).alpha * (t - vat x d)| ≤ ((F.grad box).getD d ⟨0, 0⟩).dev * |t - vat x d|
  roots : ∀ (x : List K) (d : Nat) (a b : K) (flag : Bool) (r : K), x.length = n → d < n → (∃ t, F.val (x.set d t) ≠ 0) →
    (r ∈ F.rootFind x d a b flag ↔ a ≤ r ∧ r ≤ b ∧ F.val (x.set d r) = 0)
  signs : ∀ (S up : Bool) (s : Int), F.signs S up s =
    if S then (if up then (-1, 1) else (1, -1))
    else if s = 1 then (if up then (0, 1) else (1, 0)) else if s = -1 then (if up then (-1, 0) else (0, -1)) else (0, 0)

/-- The intermediate value property on the lines parallel to the axes (true of every continuous real function). -/
def Intermediate (n : Nat) (F : Fn K) : Prop := ∀ (x : List K) (d : Nat) (a b : K), x.length = n → d < n → a ≤ b →
  F.val (x.set d a) * F.val (x.set d b) ≤ 0 → ∃ t, a ≤ t ∧ t ≤ b ∧ F.val (x.set d t) = 0

/-- The sign of the function is determined by its interval evaluation on the box, or one of its derivatives is bounded away from zero
there. -/
def Resolved (F : Fn K) (box : Box K) : Prop :=
  (F.ivl box).dev < |(F.ivl box).alpha| ∨ ∃ k, k < box.length ∧ 1001 / 1000 * ((F.grad box).getD k ⟨0, 0⟩).dev < |((F.grad box).getD k ⟨0, 0⟩).alpha|

/-- The boxes made by `n` successive halvings of the box, in any directions, are resolved (or the ones they are parts of). -/
def Resolves (F : Fn K) : Nat → Box K → Prop
  | 0, box => Resolved F box
  | n + 1, box => Resolved F box ∨ ∀ d, d < box.length → Resolves F n (lowerHalf box d) ∧ Resolves F n (upperHalf box d)

end Qugar.General
