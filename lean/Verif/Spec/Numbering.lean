import Verif.Spec.Vtu
import Verif.Spec.Tensor
/-
Reference cells (segment, quadrilateral, hexahedron): numbering of corners, edges, facets and nodes in the three conventions
used by the Python layer: lexicographical, VTK (version 9 and later) and basix/DOLFINx.
-/
namespace Qugar.Spec.Cell

/-- A numbering of the entities of a reference cell: corners as sides (0 or 1) per direction, edges and faces (2D entities
of the hexahedron) as pairs of opposite corner numbers. -/
structure Numbering where
  corners : List (List Nat)
  edges : List (Nat × Nat)
  faces : List (Nat × Nat)

/-- basix: corners with direction 0 fastest; edges and faces sorted by their corners.
https://github.com/FEniCS/basix/#supported-elements -/
def basix : Nat → Numbering
  | 1 => ⟨[[0], [1]], [], []⟩
  | 2 => ⟨[[0, 0], [1, 0], [0, 1], [1, 1]], [(0, 1), (0, 2), (1, 3), (2, 3)], []⟩
  | _ => ⟨[[0, 0, 0], [1, 0, 0], [0, 1, 0], [1, 1, 0], [0, 0, 1], [1, 0, 1], [0, 1, 1], [1, 1, 1]],
      [(0, 1), (0, 2), (0, 4), (1, 3), (1, 5), (2, 3), (2, 6), (3, 7), (4, 5), (4, 6), (5, 7), (6, 7)],
      [(0, 3), (0, 5), (0, 6), (1, 7), (2, 7), (4, 7)]⟩

/-- VTK (version 9 and later): corners counter-clockwise, bottom first. -/
def vtk : Nat → Numbering
  | 1 => ⟨[[0], [1]], [], []⟩
  | 2 => ⟨[[0, 0], [1, 0], [1, 1], [0, 1]], [(0, 1), (1, 2), (3, 2), (0, 3)], []⟩
  | _ => ⟨[[0, 0, 0], [1, 0, 0], [1, 1, 0], [0, 1, 0], [0, 0, 1], [1, 0, 1], [1, 1, 1], [0, 1, 1]],
      [(0, 1), (1, 2), (3, 2), (0, 3), (4, 5), (5, 6), (7, 6), (4, 7), (0, 4), (1, 5), (2, 6), (3, 7)],
      [(0, 7), (1, 6), (0, 5), (3, 6), (0, 2), (4, 6)]⟩

/-- The sides of the corner with the given number. -/
def Numbering.corner (c : Numbering) (i : Nat) : List Nat := c.corners.getD i []

/-- The nodes (`n` per direction) of a Lagrange cell: those of the corners, of the edges, of the faces, and of the
interior, entity by entity, direction 0 fastest inside an entity. -/
def Numbering.nodes (c : Numbering) (dim n : Nat) : List (List Nat) :=
  (List.range c.corners.length).flatMap (fun i => Vtk.inside n (c.corner i) (c.corner i)) ++
  c.edges.flatMap (fun p => Vtk.inside n (c.corner p.1) (c.corner p.2)) ++
  c.faces.flatMap (fun p => Vtk.inside n (c.corner p.1) (c.corner p.2)) ++
  Vtk.inside n (List.replicate dim 0) (List.replicate dim 1)

/-- Facets, as pairs of opposite corners: the corners of the segment, the edges of the quadrilateral, the faces of the
hexahedron. -/
def Numbering.facets (c : Numbering) : Nat → List (Nat × Nat)
  | 1 => (List.range c.corners.length).map fun i => (i, i)
  | 2 => c.edges
  | _ => c.faces

/-- The entity spanned by two corners of a lattice with `n` points per direction: the lattice points on the side of
every direction in which the corners agree. -/
def OnEntity (n a b t : List Nat) : Prop :=
  InSize n t ∧ ∀ k, k < n.length → a.getD k 0 = b.getD k 0 → t.getD k 0 = a.getD k 0 * (n.getD k 0 - 1)

/-- The lattice points on the lower (`f = 2 k`) or upper (`f = 2 k + 1`) side in direction `k`: lexicographical facet `f`. -/
def OnLexFacet (n : List Nat) (f : Nat) (t : List Nat) : Prop :=
  InSize n t ∧ t.getD (f / 2) 0 = (f % 2) * (n.getD (f / 2) 0 - 1)

/-- Edges in the lexicographical numbering, as pairs of corners (corners with direction 0 fastest): in 3D those along
direction 2 first, then 1, then 0. -/
def lexEdges : Nat → List (Nat × Nat)
  | 1 => [(0, 0), (1, 1)]
  | 2 => [(0, 2), (1, 3), (0, 1), (2, 3)]
  | _ => [(0, 4), (1, 5), (2, 6), (3, 7), (0, 2), (1, 3), (4, 6), (5, 7), (0, 1), (2, 3), (4, 5), (6, 7)]

/-- Lattice points not on the boundary. -/
def Interior (n t : List Nat) : Prop :=
  InSize n t ∧ ∀ k, k < n.length → 0 < t.getD k 0 ∧ t.getD k 0 + 1 < n.getD k 0

/-- Lattice points on the boundary. -/
def OnBoundary (n t : List Nat) : Prop :=
  InSize n t ∧ ∃ k, k < n.length ∧ (t.getD k 0 = 0 ∨ t.getD k 0 + 1 = n.getD k 0)

/-- `l` lists the flat indices of the lattice points with the given property, in increasing order, once each. -/
def Lists (n : List Nat) (p : List Nat → Prop) (l : List Nat) : Prop :=
  l.Pairwise (· < ·) ∧ ∀ x, x ∈ l ↔ ∃ t, p t ∧ flatIndex t n = x

end Qugar.Spec.Cell
