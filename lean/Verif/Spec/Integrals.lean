import Verif.Spec.Quadrature
import Verif.Spec.Grid
import Mathlib.MeasureTheory.Integral.Bochner.Set
import Mathlib.MeasureTheory.Measure.Lebesgue.Basic
/-
Specification vocabulary for integrals over implicitly described domains: Lebesgue integrals over the part of a box in which the level set
function is negative, and what a user computes with the arrays of a quadrature.
-/
namespace Qugar.Spec
open MeasureTheory

/-- The points of the closed box, in `d` dimensions. -/
def region (d : Nat) (b : List (ℝ × ℝ)) : Set (Fin d → ℝ) := {x | InClosedBox 0 b (List.ofFn x)}

/-- The points in which the function is negative. -/
def inside (d : Nat) (phi : List ℝ → ℝ) : Set (Fin d → ℝ) := {x | phi (List.ofFn x) < 0}

/-- The (Lebesgue) integral of `F` over a set of points. -/
noncomputable def integralOver {d : Nat} (S : Set (Fin d → ℝ)) (F : List ℝ → ℝ) : ℝ := ∫ x in S, F (List.ofFn x)

/-- The measure of a set of points. -/
noncomputable def measureOf {d : Nat} (S : Set (Fin d → ℝ)) : ℝ := (volume S).toReal

/-- What a rule in the unit cube gives for `F` in the box `b`. -/
noncomputable def ruleSum (b : List (ℝ × ℝ)) (points : List (List ℝ)) (weights : List ℝ) (F : List ℝ → ℝ) : ℝ :=
  boxVolume b * integral points weights fun p => F (List.zipWith (fun iv x => iv.1 + x * (iv.2 - iv.1)) b p)

/-- What the user computes with the arrays of a quadrature, reading them cell after cell; `boxes` gives the box of a cell. -/
noncomputable def arraysSum (boxes : Nat → List (ℝ × ℝ)) (F : List ℝ → ℝ) : List Nat → List Int → List (List ℝ) → List ℝ → ℝ
  | c :: cs, n :: ns, ps, ws =>
    ruleSum (boxes c) (ps.take n.toNat) (ws.take n.toNat) F + arraysSum boxes F cs ns (ps.drop n.toNat) (ws.drop n.toNat)
  | _, _, _, _ => 0

/-- What the points that Algoim generates for the negative part of the box `b` give for `F`: in the box for general functions; in the unit
cube, with the directions reversed and only the points where the (rescaled) polynomial is negative, for polynomials. -/
noncomputable def algoimSum (o : QOracle ℝ) (b : List (ℝ × ℝ)) (n : Nat) (F : List ℝ → ℝ) : ℝ :=
  if o.isBezier then
    boxVolume b * ((o.volBzr b n).map fun x => if o.bzrVal b x.1.reverse < 0 then
      x.2 * F (List.zipWith (fun iv x => iv.1 + x * (iv.2 - iv.1)) b x.1.reverse) else 0).sum
  else ((o.volGen b n).map fun x => x.2 * F x.1).sum

end Qugar.Spec
