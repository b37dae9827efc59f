import Mathlib.LinearAlgebra.Matrix.NonsingularInverse
import Mathlib.Analysis.Real.Sqrt
/-
Model of python/qugar/dolfinx/boundary.py (normals and measure of unfitted boundaries) and of the comparison of versions of
python/qugar/utils.py.
-/
namespace Qugar.Py.Boundary

open Matrix

/-- `_compute_vector_norm`. boundary.py:58-67. -/
noncomputable def norm {n : Nat} (v : Fin n → ℝ) : ℝ := Real.sqrt (v ⬝ᵥ v)

/-- `mapped_normal` without normalization: `jac` is the Jacobian of the geometry of a cell (at a point) and `normal` the one in the
reference cell. UFL expressions are evaluated. boundary.py:87-99. -/
noncomputable def mapped {g t : Nat} (jac : Matrix (Fin g) (Fin t) ℝ) (normal : Fin t → ℝ) : Fin g → ℝ :=
  if h : g = t then
    let df : Matrix (Fin g) (Fin g) ℝ := jac.submatrix id (Fin.cast h)
    (df⁻¹)ᵀ *ᵥ (normal ∘ Fin.cast h)
  else jac *ᵥ ((jacᵀ * jac)⁻¹ *ᵥ normal)

/-- `mapped_normal`. boundary.py:70-103. -/
noncomputable def mappedNormal {g t : Nat} (jac : Matrix (Fin g) (Fin t) ℝ) (normal : Fin t → ℝ) (normalize : Bool) : Fin g → ℝ :=
  if normalize then fun i => mapped jac normal i / norm (mapped jac normal) else mapped jac normal

/-- The scale factor of `dx` in UFL (not part of the code): the determinant or pseudo-determinant of the Jacobian, positive. -/
noncomputable def scale {g t : Nat} (jac : Matrix (Fin g) (Fin t) ℝ) : ℝ := Real.sqrt (jacᵀ * jac).det

/-- `subdomain_id` of a measure: "everywhere" or one number, or a tuple of them. boundary.py:129. -/
inductive Ids where
  | one (d : Option Nat)
  | tuple (ds : List Nat)

/-- An integral of a form at a point of an unfitted boundary: the value of its integrand and its subdomain. -/
abbrev Integral := ℝ × Option Nat

/-- `ufl.Measure.__rmul__` (UFL 2025.2, a dependency, modelled as it is): one integral, or for a tuple those of
`integrand * self.reconstruct(subdomain_id=d)` for every `d` in it. `times` is the product by the reconstructed measure. -/
def uflRmul (times : ℝ → Nat → List Integral) (ids : Ids) (integrand : ℝ) : List Integral :=
  match ids with
  | .one d => [(integrand, d)]
  | .tuple ds => ds.flatMap fun d => times integrand d

/-- `ds_bdry_unf.__rmul__` for one subdomain, where the class of the measure matters no more. boundary.py:204-215. -/
def rmulOne (complement integrand : ℝ) (d : Option Nat) : List Integral :=
  uflRmul (fun _ _ => []) (.one d) (integrand * complement)

/-- `ds_bdry_unf.__rmul__`, where `ds_bdry_unf.reconstruct` gives a measure of the same class and with the same complement.
boundary.py:204-215, 217-244. -/
def rmul (complement : ℝ) (ids : Ids) (integrand : ℝ) : List Integral :=
  uflRmul (fun i d => rmulOne complement i (some d)) ids (integrand * complement)

/-- The form `integrand * ds_bdry_unf(domain, subdomain_id=ids)` evaluated at a point with a weight in subdomain `tag`: the complement
is the norm of the mapped normal, and the scale factor is that of the integrals over cells. boundary.py:157-172, 204-215. -/
noncomputable def measure {g t : Nat} (jac : Matrix (Fin g) (Fin t) ℝ) (normal : Fin t → ℝ) (ids : Ids) (tag : Nat)
    (weight integrand : ℝ) : ℝ :=
  ((((rmul (norm (mappedNormal jac normal false)) ids integrand).filter fun i => i.2.all (· == tag)).map fun i => i.1).sum)
    * (weight * scale jac)

end Qugar.Py.Boundary

namespace Qugar.Py.Version

/-- A version: its three numbers. utils.py:55-69. -/
abbrev Version := Nat × Nat × Nat

/-- `_extract_version`: the parts of the string between dots, each of them a number or (`none`) not; `none` if it raises an exception.
utils.py:55-69. -/
def extract (parts : List (Option Nat)) : Option Version :=
  match parts with
  | [some a, some b, some c] => some (a, b, c)
  | _ => none

/-- `_compare_version_lt`. utils.py:72-91. -/
def lt (l r : Version) : Bool :=
  if l.1 ≠ r.1 then l.1 < r.1 else if l.2.1 ≠ r.2.1 then l.2.1 < r.2.1 else l.2.2 < r.2.2

/-- `_compare_version_le`. utils.py:94-113. -/
def le (l r : Version) : Bool :=
  if r.1 < l.1 then false else if r.2.1 < l.2.1 then false else l.2.2 ≤ r.2.2

/-- `check_version_in_range`. utils.py:116-128. -/
def inRange (v lower upper : Version) : Bool := le lower v && lt v upper

/-- Minimum versions of DOLFINx, Basix, FFCx and UFL. utils.py:14-44. -/
def minima : List Version := [(0, 10, 0), (0, 10, 0), (0, 10, 0), (2025, 2, 0)]

/-- Maximum versions of DOLFINx, Basix, FFCx and UFL. utils.py:19-52. -/
def maxima : List Version := [(0, 11, 0), (0, 11, 0), (0, 11, 0), (2025, 3, 0)]

/-- `check_DOLFINx`, `check_Basix`, `check_FFCx` and `check_UFL` for an installed version or (`none`) a package not installed. The
result is `none` if the exception is not an `ImportError`. utils.py:131-146, 164-219. -/
def check (installed : Option (List (Option Nat))) (lower upper : Version) : Option Bool :=
  match installed with
  | none => some false
  | some parts => (extract parts).map fun v => inRange v lower upper

/-- `has_FEniCSx` for the installed versions of the four packages: the checks are done until one fails. utils.py:222-223. -/
def hasFenicsx : List (Option (List (Option Nat)) × Version × Version) → Option Bool
  | [] => some true
  | p :: rest =>
    match check p.1 p.2.1 p.2.2 with
    | some true => hasFenicsx rest
    | r => r

/-- `has_FEniCSx` with the constants of the module. utils.py:14-52, 222-223. -/
def enabled (dolfinx basix ffcx ufl : Option (List (Option Nat))) : Option Bool :=
  hasFenicsx ([dolfinx, basix, ffcx, ufl].zip (minima.zip maxima))

end Qugar.Py.Version
