import Verif.Model.GaussTable0
import Verif.Model.GaussTable1
import Verif.Model.GaussTable2
import Verif.Model.GaussTable3
import Verif.Model.TanhSinhTable0
import Verif.Model.TanhSinhTable1
import Verif.Model.TanhSinhTable2
import Verif.Model.TanhSinhTable3
import Mathlib.Data.Rat.Defs
/-
Model of the tabulated 1D rules `qugar::Gauss` and `qugar::TanhSinh` (cpp/qugar/quadrature.cpp:35-106,
cpp/qugar/quadrature_lib.cpp, cpp/include/qugar/quadrature.hpp:37-130).
-/
namespace Qugar

/-- The flat array of a table: for each number of points, abscissa and weight of each point in turn. -/
def flatTable (blocks : List (List (Nat × Nat))) : List Nat := blocks.flatMap fun b => b.flatMap fun p => [p.1, p.2]

/-- `get_abscissa_<N>`; `none` = failed assertion. quadrature.cpp:48-59. -/
def tableAbscissa (N : Nat) (data : List Nat) (n pt : Nat) : Option Nat :=
  if 0 < n ∧ n ≤ N ∧ pt < n then data[(n - 1) * n + pt * 2]? else none

/-- `get_weight_<N>`. quadrature.cpp:75-86. -/
def tableWeight (N : Nat) (data : List Nat) (n pt : Nat) : Option Nat :=
  if 0 < n ∧ n ≤ N ∧ pt < n then data[(n - 1) * n + 1 + pt * 2]? else none

namespace GaussTable

/-- All the blocks. quadrature_lib.cpp:31-5090. -/
def blocks : List (List (Nat × Nat)) := blocks0 ++ blocks1 ++ blocks2 ++ blocks3

/-- Denominator of the integer representation of the literals. -/
def scale : Nat := 10 ^ 40

/-- `Gauss::get_abscissa` (`n_max = 100`). quadrature.cpp:91-94. -/
def abscissa (n pt : Nat) : Option ℚ :=
  (tableAbscissa 100 (flatTable blocks) n pt).map fun v => (v : ℚ) / (scale : ℚ)

/-- `Gauss::get_weight`. quadrature.cpp:96-99. -/
def weight (n pt : Nat) : Option ℚ :=
  (tableWeight 100 (flatTable blocks) n pt).map fun v => (v : ℚ) / (scale : ℚ)

end GaussTable

namespace TanhSinhTable

/-- All the blocks. quadrature_lib.cpp:5092-10150. -/
def blocks : List (List (Nat × Nat)) := blocks0 ++ blocks1 ++ blocks2 ++ blocks3

/-- Denominator of the integer representation of the literals. -/
def scale : Nat := 10 ^ 66

/-- `TanhSinh::get_abscissa` (`n_max = 100`). quadrature.cpp:101-104. -/
def abscissa (n pt : Nat) : Option ℚ :=
  (tableAbscissa 100 (flatTable blocks) n pt).map fun v => (v : ℚ) / (scale : ℚ)

/-- `TanhSinh::get_weight`. quadrature.cpp:106-109. -/
def weight (n pt : Nat) : Option ℚ :=
  (tableWeight 100 (flatTable blocks) n pt).map fun v => (v : ℚ) / (scale : ℚ)

end TanhSinhTable
end Qugar
