/-
VTK's node ordering of Lagrange segments, quadrilaterals and hexahedra with `n` nodes per direction (files of version 0.1):
corners, then edges, then faces, then the interior. Nodes are tensor indices; inside an edge, a face or the interior,
direction 0 runs fastest.
-/
namespace Qugar.Spec.Vtk

/-- The corners, as sides (0 or 1) per direction, counter-clockwise, bottom first. -/
def corners : Nat → List (List Nat)
  | 1 => [[0], [1]]
  | 2 => [[0, 0], [1, 0], [1, 1], [0, 1]]
  | _ => [[0, 0, 0], [1, 0, 0], [1, 1, 0], [0, 1, 0], [0, 0, 1], [1, 0, 1], [1, 1, 1], [0, 1, 1]]

/-- The edges, as pairs of corner numbers. -/
def edges : Nat → List (Nat × Nat)
  | 1 => []
  | 2 => [(0, 1), (1, 2), (3, 2), (0, 3)]
  | _ => [(0, 1), (1, 2), (3, 2), (0, 3), (4, 5), (5, 6), (7, 6), (4, 7), (0, 4), (1, 5), (3, 7), (2, 6)]

/-- The faces of the hexahedron, as pairs of opposite corner numbers. -/
def faces : Nat → List (Nat × Nat)
  | 1 => []
  | 2 => []
  | _ => [(0, 7), (1, 6), (0, 5), (3, 6), (0, 2), (4, 6)]

/-- All the nodes strictly inside the entity (vertex, edge, face, cell) spanned by two corners, direction 0 fastest. -/
def inside (n : Nat) : List Nat → List Nat → List (List Nat)
  | a :: as, b :: bs => (inside n as bs).flatMap fun t =>
      if a = b then [(a * (n - 1)) :: t] else (List.range' 1 (n - 2)).map fun i => i :: t
  | _, _ => [[]]

/-- The nodes of the entities given by pairs of corner numbers. -/
def entities (dim n : Nat) (l : List (Nat × Nat)) : List (List Nat) :=
  l.flatMap fun p => inside n ((corners dim).getD p.1 []) ((corners dim).getD p.2 [])

/-- VTK's order of all the nodes. -/
def nodes (dim n : Nat) : List (List Nat) :=
  entities dim n ((List.range (corners dim).length).map fun c => (c, c)) ++ entities dim n (edges dim) ++
    entities dim n (faces dim) ++ inside n (List.replicate dim 0) (List.replicate dim 1)

/-- VTK's numbers of the cell types: line, quadrilateral, hexahedron, and the Lagrange versions. -/
def cellTypes : List Nat × List Nat := ([3, 9, 12], [68, 70, 72])

end Qugar.Spec.Vtk
