import Verif.Spec.General
import Verif.Spec.Mesh
/-
Specification of the parts of the plane that the cells of a reparameterization stand for.
-/
namespace Qugar.General
open Poly Reparam
variable {K : Type} [Field K] [LinearOrder K]

/-- A part of the plane: over the base interval `[a, b]` (of the other coordinate), the coordinate `dir` is between `lower` and
`upper`. -/
structure Column (K : Type) where
  dir : Nat
  a : K
  b : K
  lower : K → K
  upper : K → K

/-- The point with base coordinate `s` and height `t`. -/
def Column.place (c : Column K) (s t : K) : List K := if c.dir = 0 then [t, s] else [s, t]

/-- The points of the column. -/
def Column.Mem (c : Column K) (x : List K) : Prop := ∃ s t, x = c.place s t ∧ (c.a ≤ s ∧ s ≤ c.b) ∧ c.lower s ≤ t ∧ t ≤ c.upper s

/-- The interior points of the column. -/
def Column.Inside (c : Column K) (x : List K) : Prop := ∃ s t, x = c.place s t ∧ (c.a < s ∧ s < c.b) ∧ c.lower s < t ∧ t < c.upper s

/-- The base is an interval, and the height is not negative. -/
def Column.Proper (c : Column K) : Prop := c.dir < 2 ∧ c.a < c.b ∧ ∀ s, c.a ≤ s → s ≤ c.b → c.lower s ≤ c.upper s

/-- The point of the column with tensor index `t`, for the nodes `ν` of the interval `[0, 1]`: index `t_k` is that of
coordinate `k`. -/
def Column.lattice (c : Column K) (ν : Nat → K) (t : List Nat) : List K :=
  let s := c.a + (c.b - c.a) * ν (t.getD (1 - c.dir) 0)
  c.place s (c.lower s + (c.upper s - c.lower s) * ν (t.getD c.dir 0))

/-- The columns are in the box, the function is not positive in them, they cover the points of the box where it is negative, and they do
not overlap. -/
structure Covers (f : List K → K) (box : Box K) (cols : List (Column K)) : Prop where
  proper : ∀ c ∈ cols, c.Proper
  sub : ∀ c ∈ cols, ∀ x, c.Mem x → List.Forall₂ (fun (iv : K × K) x => iv.1 ≤ x ∧ x ≤ iv.2) box x
  neg : ∀ c ∈ cols, ∀ x, c.Mem x → f x ≤ 0
  all : ∀ x, List.Forall₂ (fun (iv : K × K) x => iv.1 ≤ x ∧ x ≤ iv.2) box x → f x < 0 → ∃ c ∈ cols, c.Mem x
  apart : cols.Pairwise fun c c' => ∀ x, ¬ (c.Inside x ∧ c'.Inside x)

end Qugar.General
