import Verif.Model.Affine
import Mathlib.Data.List.SplitBy
/-
Model of cpp/qugar/point.cpp. Points are lists of coordinates in an ordered field `K` (rounding is not modelled).
`std::ranges::sort` is external (and not stable): it is a parameter `srt`, of which the theorems only assume that it
returns a sorted permutation. `std::size_t` is `Nat`.
-/
namespace Qugar.Points
variable {K : Type} [Field K] [LinearOrder K]

/-- `points[i](k)`. -/
def coord (points : List (List K)) (k i : Nat) : K := vat (points.getD i []) k

/-- Body of `find_coincident_points<dim, sub_dim>` (`sub` is `sub_dim`), `step` being what is done with a run of at least
two indices. point.cpp:33-79. The loop over `i` (lines 50-77) treats the maximal runs of consecutive indices (in the
sorted order) whose coordinates are equal up to the tolerance: these runs are `List.splitBy` (the last run, when it is a
single index, is not visited by the code, but runs of one index are not treated anyway). The span `points_indices` is
only sorted in place, inside each run. -/
def runsLoop (srt : (Nat → K) → List Nat → List Nat) (points : List (List K)) (tol : K) (sub : Nat)
    (step : List Nat → List Nat → List Nat) (indices pointsMap : List Nat) : List Nat :=
  if indices.length < 2 then pointsMap
  else
    ((srt (coord points sub) indices).splitBy
        fun a b => Tol.equal tol (coord points sub a) (coord points sub b)).foldl
      (fun pointsMap run => if 2 ≤ run.length then step run pointsMap else pointsMap) pointsMap

/-- `find_coincident_points<dim, sub_dim>`: for `sub_dim == 0` all the indices of a run take the first one as image
(lines 65-69), otherwise the next coordinate is treated inside the run (lines 71-72). -/
def findSub (srt : (Nat → K) → List Nat → List Nat) (points : List (List K)) (tol : K) :
    Nat → List Nat → List Nat → List Nat
  | 0 => runsLoop srt points tol 0 fun run pointsMap => run.tail.foldl (fun m i => m.set i (run.headD 0)) pointsMap
  | sub + 1 => runsLoop srt points tol (sub + 1) (findSub srt points tol sub)

/-- `find_coincident_points`. point.cpp:83-103. -/
def findCoincident (srt : (Nat → K) → List Nat → List Nat) (dim : Nat) (points : List (List K)) (tol : K) : List Nat :=
  let pointsMap := List.range points.length
  if 1 < points.length then findSub srt points tol (dim - 1) pointsMap pointsMap else pointsMap

/-- First loop of `make_points_unique`: the map (of the representatives), the number of points and the points written
(the vector is then cut to that size). point.cpp:112-125. -/
def uniqueLoop (points : List (List K)) (oldToUnique : List Nat) : List Nat × Nat × List (List K) :=
  (List.range points.length).foldl (fun (s : List Nat × Nat × List (List K)) i =>
      if oldToUnique.getD i 0 = i then (s.1.set i s.2.1, s.2.1 + 1, s.2.2 ++ [points.getD i []]) else s)
    (List.replicate points.length 0, 0, [])

/-- `make_points_unique`: the new points and `old_to_new`. point.cpp:103-128. (The entries of `old_to_new` left by
`resize` are overwritten by the last loop.) -/
def makeUnique (srt : (Nat → K) → List Nat → List Nat) (dim : Nat) (points : List (List K)) (tol : K) :
    List (List K) × List Nat :=
  let oldToUnique := findCoincident srt dim points tol
  let s := uniqueLoop points oldToUnique
  (s.2.2, (List.range points.length).foldl (fun otn i => otn.set i (otn.getD (oldToUnique.getD i 0) 0)) s.1)

end Qugar.Points
