import Verif.Model.Funcs
import Mathlib.Analysis.SpecialFunctions.Trigonometric.Basic
/-
Model of the triply periodic surfaces (cpp/qugar/tpms_lib.cpp, cpp/include/qugar/tpms_lib.hpp), over the reals with
the exact sine, cosine and pi. The overloads for Algoim intervals are not modelled.
-/
namespace Qugar.Tpms
open Real

/-- The private members `eval_`, `grad_` (three components) and `hessian_` (six components) of a surface, as functions
of the wave numbers `mnq_` and of the three-dimensional point. In 2D the code computes the components that do not refer
to the last direction with the same formulas. -/
structure Surface where
  eval : List ℝ → List ℝ → ℝ
  grad : List ℝ → List ℝ → List ℝ
  hess : List ℝ → List ℝ → List ℝ

/-- The function in 3D. tpms_lib.hpp:47-51, tpms_lib.cpp:47-74. -/
noncomputable def Surface.func3 (s : Surface) (m : List ℝ) : Func ℝ := ⟨s.eval m, s.grad m, s.hess m⟩

/-- The function in 2D: wave number one and coordinate `z` in the last direction. tpms_lib.hpp:37-43, 56-59,
tpms_lib.cpp:33-43, 47-74. -/
noncomputable def Surface.func2 (s : Surface) (m : List ℝ) (z : ℝ) : Func ℝ :=
  let m3 := [vat m 0, vat m 1, 1]
  let ext := fun p : List ℝ => [vat p 0, vat p 1, z]
  ⟨fun p => s.eval m3 (ext p),
   fun p => [vat (s.grad m3 (ext p)) 0, vat (s.grad m3 (ext p)) 1],
   fun p => [vat (s.hess m3 (ext p)) 0, vat (s.hess m3 (ext p)) 1, vat (s.hess m3 (ext p)) 3]⟩

/-- `pi_2_m(i)`. -/
noncomputable def p2 (m : List ℝ) (i : Nat) : ℝ := (2 * π) * vat m i
/-- `pi_4_m(i)`. -/
noncomputable def p4 (m : List ℝ) (i : Nat) : ℝ := 2 * p2 m i
/-- `pi_2_m_point(i)`. -/
noncomputable def x2 (m p : List ℝ) (i : Nat) : ℝ := p2 m i * vat p i
/-- `pi_4_m_point(i)`. -/
noncomputable def x4 (m p : List ℝ) (i : Nat) : ℝ := 2 * x2 m p i

/-- `Schoen`. tpms_lib.cpp:80-135. -/
noncomputable def schoen : Surface :=
  ⟨fun m p => sin (x2 m p 0) * cos (x2 m p 1) + sin (x2 m p 1) * cos (x2 m p 2) + sin (x2 m p 2) * cos (x2 m p 0),
   fun m p => [(cos (x2 m p 0) * cos (x2 m p 1) - sin (x2 m p 0) * sin (x2 m p 2)) * p2 m 0,
     (cos (x2 m p 1) * cos (x2 m p 2) - sin (x2 m p 1) * sin (x2 m p 0)) * p2 m 1,
     (cos (x2 m p 2) * cos (x2 m p 0) - sin (x2 m p 2) * sin (x2 m p 1)) * p2 m 2],
   fun m p => [p2 m 0 * p2 m 0 * (-sin (x2 m p 0) * cos (x2 m p 1) - sin (x2 m p 2) * cos (x2 m p 0)),
     p2 m 0 * p2 m 1 * (-cos (x2 m p 0) * sin (x2 m p 1)),
     p2 m 0 * p2 m 2 * (-cos (x2 m p 2) * sin (x2 m p 2)),
     p2 m 1 * p2 m 1 * (-sin (x2 m p 1) * cos (x2 m p 2) - sin (x2 m p 0) * cos (x2 m p 1)),
     p2 m 1 * p2 m 2 * (-cos (x2 m p 1) * sin (x2 m p 2)),
     p2 m 2 * p2 m 2 * (-sin (x2 m p 2) * cos (x2 m p 0) - sin (x2 m p 1) * cos (x2 m p 2))]⟩

/-- `SchoenIWP`. tpms_lib.cpp:138-203. -/
noncomputable def schoenIWP : Surface :=
  ⟨fun m p => 2 * (cos (x2 m p 0) * cos (x2 m p 1) + cos (x2 m p 1) * cos (x2 m p 2) + cos (x2 m p 2) * cos (x2 m p 0))
      - cos (x4 m p 0) - cos (x4 m p 1) - cos (x4 m p 2),
   fun m p => [(sin (x4 m p 0) - sin (x2 m p 0) * (cos (x2 m p 1) + cos (x2 m p 2))) * p4 m 0,
     (sin (x4 m p 1) - sin (x2 m p 1) * (cos (x2 m p 0) + cos (x2 m p 2))) * p4 m 0,
     (sin (x4 m p 2) - sin (x2 m p 2) * (cos (x2 m p 0) + cos (x2 m p 1))) * p4 m 2],
   fun m p => [-p2 m 0 * p4 m 0 * (cos (x2 m p 0) * cos (x2 m p 1) + cos (x2 m p 2) * cos (x2 m p 0) - 2 * cos (x4 m p 0)),
     p2 m 0 * p4 m 1 * sin (x2 m p 0) * sin (x2 m p 1),
     p2 m 0 * p4 m 2 * sin (x2 m p 2) * sin (x2 m p 0),
     -p2 m 1 * p4 m 1 * (cos (x2 m p 0) * cos (x2 m p 1) + cos (x2 m p 1) * cos (x2 m p 2) - 2 * cos (x4 m p 1)),
     p2 m 1 * p4 m 2 * sin (x2 m p 1) * sin (x2 m p 2),
     -p2 m 2 * p4 m 2 * (cos (x2 m p 1) * cos (x2 m p 2) + cos (x2 m p 2) * cos (x2 m p 0) - 2 * cos (x4 m p 2))]⟩

/-- `SchoenFRD`. tpms_lib.cpp:205-286. -/
noncomputable def schoenFRD : Surface :=
  ⟨fun m p => 4 * cos (x2 m p 0) * cos (x2 m p 1) * cos (x2 m p 2) - cos (x4 m p 0) * cos (x4 m p 1)
      - cos (x4 m p 1) * cos (x4 m p 2) - cos (x4 m p 2) * cos (x4 m p 0),
   fun m p => [(-2 * sin (x2 m p 0) * cos (x2 m p 1) * cos (x2 m p 2) + sin (x4 m p 0) * cos (x4 m p 1)
        + cos (x4 m p 2) * sin (x4 m p 0)) * p4 m 0,
     (-2 * cos (x2 m p 0) * sin (x2 m p 1) * cos (x2 m p 2) + cos (x4 m p 0) * sin (x4 m p 1)
        + sin (x4 m p 1) * cos (x4 m p 2)) * p4 m 1,
     (-2 * cos (x2 m p 0) * cos (x2 m p 1) * sin (x2 m p 2) + cos (x4 m p 1) * sin (x4 m p 2)
        + sin (x4 m p 2) * cos (x4 m p 0)) * p4 m 2],
   fun m p => [p2 m 0 * p4 m 0 * (-2 * cos (x2 m p 0) * cos (x2 m p 1) * cos (x2 m p 2)
        + 2 * cos (x4 m p 0) * cos (x4 m p 1) + 2 * cos (x4 m p 2) * cos (x4 m p 0)),
     p2 m 0 * p4 m 1 * (2 * sin (x2 m p 0) * sin (x2 m p 1) * cos (x2 m p 2) - 2 * sin (x4 m p 0) * sin (x4 m p 1)),
     p2 m 0 * p4 m 2 * (2 * sin (x2 m p 0) * cos (x2 m p 1) * sin (x2 m p 2) - 2 * sin (x4 m p 2) * sin (x4 m p 0)),
     p2 m 1 * p4 m 1 * (-2 * cos (x2 m p 0) * cos (x2 m p 1) * cos (x2 m p 2)
        + 2 * cos (x4 m p 0) * cos (x4 m p 1) + 2 * cos (x4 m p 1) * cos (x4 m p 2)),
     p2 m 1 * p4 m 2 * (2 * cos (x2 m p 0) * sin (x2 m p 1) * sin (x2 m p 2) - 2 * sin (x4 m p 1) * sin (x4 m p 2)),
     p2 m 2 * p4 m 2 * (-2 * cos (x2 m p 0) * cos (x2 m p 1) * cos (x2 m p 2)
        + 2 * cos (x4 m p 1) * cos (x4 m p 2) + 2 * cos (x4 m p 2) * cos (x4 m p 0))]⟩

/-- `FischerKochS`. tpms_lib.cpp:288-363. -/
noncomputable def fischerKochS : Surface :=
  ⟨fun m p => cos (x4 m p 0) * sin (x2 m p 1) * cos (x2 m p 2) + cos (x2 m p 0) * cos (x4 m p 1) * sin (x2 m p 2)
      + sin (x2 m p 0) * cos (x2 m p 1) * cos (x4 m p 2),
   fun m p => [(-2 * sin (x4 m p 0) * sin (x2 m p 1) * cos (x2 m p 2) - sin (x2 m p 0) * cos (x4 m p 1) * sin (x2 m p 2)
        + cos (x2 m p 0) * cos (x2 m p 1) * cos (x4 m p 2)) * p2 m 0,
     (cos (x4 m p 0) * cos (x2 m p 1) * cos (x2 m p 2) - 2 * cos (x2 m p 0) * sin (x4 m p 1) * sin (x2 m p 2)
        - sin (x2 m p 0) * sin (x2 m p 1) * cos (x4 m p 2)) * p2 m 1,
     (-cos (x4 m p 0) * sin (x2 m p 1) * sin (x2 m p 2) + cos (x2 m p 0) * cos (x4 m p 1) * cos (x2 m p 2)
        - 2 * sin (x2 m p 0) * cos (x2 m p 1) * sin (x4 m p 2)) * p2 m 2],
   fun m p => [-p4 m 0 * p4 m 0 * cos (x4 m p 0) * sin (x2 m p 1) * cos (x2 m p 2)
        - p2 m 0 * p2 m 0 * cos (x2 m p 0) * cos (x4 m p 1) * sin (x2 m p 2)
        - p2 m 0 * p2 m 0 * sin (x2 m p 0) * cos (x2 m p 1) * cos (x4 m p 2),
     -p4 m 0 * p2 m 1 * sin (x4 m p 0) * cos (x2 m p 1) * cos (x2 m p 2)
        + p2 m 0 * p4 m 1 * sin (x2 m p 0) * sin (x4 m p 1) * sin (x2 m p 2)
        - p2 m 0 * p2 m 1 * cos (x2 m p 0) * sin (x2 m p 1) * cos (x4 m p 2),
     p4 m 0 * p2 m 2 * sin (x4 m p 0) * sin (x2 m p 1) * sin (x2 m p 2)
        - p2 m 0 * p2 m 2 * sin (x2 m p 0) * cos (x4 m p 1) * cos (x2 m p 2)
        - p2 m 0 * p4 m 2 * cos (x2 m p 0) * cos (x2 m p 1) * sin (x4 m p 2),
     -p2 m 1 * p2 m 1 * cos (x4 m p 0) * sin (x2 m p 1) * cos (x2 m p 2)
        - p4 m 1 * p4 m 1 * cos (x2 m p 0) * cos (x4 m p 1) * sin (x2 m p 2)
        - p2 m 1 * p2 m 1 * sin (x2 m p 0) * cos (x2 m p 1) * cos (x4 m p 2),
     -p2 m 1 * p2 m 2 * cos (x4 m p 0) * cos (x2 m p 1) * sin (x2 m p 2)
        - p4 m 1 * p2 m 2 * cos (x2 m p 0) * sin (x4 m p 1) * cos (x2 m p 2)
        + p2 m 1 * p4 m 2 * sin (x2 m p 0) * sin (x2 m p 1) * sin (x4 m p 2),
     -p2 m 2 * p2 m 2 * cos (x4 m p 0) * sin (x2 m p 1) * cos (x2 m p 2)
        - p2 m 2 * p2 m 2 * cos (x2 m p 0) * cos (x4 m p 1) * sin (x2 m p 2)
        - p4 m 2 * p4 m 2 * sin (x2 m p 0) * cos (x2 m p 1) * cos (x4 m p 2)]⟩

/-- `SchwarzDiamond`. tpms_lib.cpp:365-426. -/
noncomputable def schwarzDiamond : Surface :=
  ⟨fun m p => cos (x2 m p 0) * cos (x2 m p 1) * cos (x2 m p 2) - sin (x2 m p 0) * sin (x2 m p 1) * sin (x2 m p 2),
   fun m p => [-(sin (x2 m p 0) * cos (x2 m p 1) * cos (x2 m p 2) + cos (x2 m p 0) * sin (x2 m p 1) * sin (x2 m p 2)) * p2 m 0,
     -(cos (x2 m p 0) * sin (x2 m p 1) * cos (x2 m p 2) + sin (x2 m p 0) * cos (x2 m p 1) * sin (x2 m p 2)) * p2 m 1,
     -(cos (x2 m p 0) * cos (x2 m p 1) * sin (x2 m p 2) + sin (x2 m p 0) * sin (x2 m p 1) * cos (x2 m p 2)) * p2 m 2],
   fun m p => [-p2 m 0 * p2 m 0 * (cos (x2 m p 0) * cos (x2 m p 1) * cos (x2 m p 2) - sin (x2 m p 0) * sin (x2 m p 1) * sin (x2 m p 2)),
     -p2 m 0 * p2 m 1 * (-sin (x2 m p 0) * sin (x2 m p 1) * cos (x2 m p 2) + cos (x2 m p 0) * cos (x2 m p 1) * sin (x2 m p 2)),
     -p2 m 0 * p2 m 2 * (-sin (x2 m p 0) * cos (x2 m p 1) * sin (x2 m p 2) + cos (x2 m p 0) * sin (x2 m p 1) * cos (x2 m p 2)),
     -p2 m 1 * p2 m 1 * (cos (x2 m p 0) * cos (x2 m p 1) * cos (x2 m p 2) - sin (x2 m p 0) * sin (x2 m p 1) * sin (x2 m p 2)),
     -p2 m 1 * p2 m 2 * (-cos (x2 m p 0) * sin (x2 m p 1) * sin (x2 m p 2) + sin (x2 m p 0) * cos (x2 m p 1) * cos (x2 m p 2)),
     -p2 m 2 * p2 m 2 * (cos (x2 m p 0) * cos (x2 m p 1) * cos (x2 m p 2) - sin (x2 m p 0) * sin (x2 m p 1) * sin (x2 m p 2))]⟩

/-- `SchwarzPrimitive`. tpms_lib.cpp:428-477. -/
noncomputable def schwarzPrimitive : Surface :=
  ⟨fun m p => cos (x2 m p 0) + cos (x2 m p 1) + cos (x2 m p 2),
   fun m p => [-sin (x2 m p 0) * p2 m 0, -sin (x2 m p 1) * p2 m 1, -sin (x2 m p 2) * p2 m 2],
   fun m p => [-(p2 m 0 * p2 m 0) * cos (x2 m p 0), 0, 0, -(p2 m 1 * p2 m 1) * cos (x2 m p 1), 0,
     -(p2 m 2 * p2 m 2) * cos (x2 m p 2)]⟩

end Qugar.Tpms
