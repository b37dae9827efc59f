import Verif.Props.PySolve
/-
C79: examples.
-/
namespace Qugar.Py.Solve

example : ((exLinear 100 200 300).history exBackend [5, 8, 1]).map (fun q => (q.A, q.b, q.u)) = some (210, 401, 592) ∧
    ((exLinear 0 0 0).solve exBackend 1).map (fun q => (q.A, q.b, q.u)) = some (210, 401, 592) := by decide +kernel

example : (exNonlinear.run exBackend [.residual 5 1, .jacobian 4, .residual 2 9]).map (fun l => l.map exShow) = some [1270, 222, 618] := by
  decide +kernel

end Qugar.Py.Solve
