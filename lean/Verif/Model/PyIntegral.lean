import Verif.Model.PyQuad
import Verif.Model.PyAssemble
/-
Model of an integral over cells or exterior facets, from the unfitted domain to the global tensor: `_CustomCoeffsPackerIntegral`
(python/qugar/dolfinx/custom_coefficients.py), which asks the domain for its cut and empty entities and for the quadratures, and the loop
in which DOLFINx calls the generated function (not part of the code).
-/
namespace Qugar.Py.Integral

open Pack Assemble Quad

section
variable {K : Type} [Field K] [LinearOrder K]

/-- `QuadratureData`: what the packer uses of it. quadrature_data.py:21-75. -/
structure QuadSpec where
  degree : Nat
  boundary : Bool

/-- The arrays of a quadrature of cells, flattened by rows. custom_coefficients.py:757-771. -/
def ofCells (dim : Nat) (r : CustomQuad K) : Pack.Quad K where
  gdim := dim
  nPts := r.nPts.map Int.toNat
  points := r.points.flatten
  weights := r.weights

/-- The arrays of a quadrature of unfitted boundaries. custom_coefficients.py:757-771. -/
def ofUnf (dim : Nat) (r : CustomQuadUnf K) : Pack.Quad K where
  gdim := dim
  nPts := r.nPts.map Int.toNat
  points := r.points.flatten
  weights := r.weights
  normals := some r.normals.flatten

/-- `_create_quadrature_cell`. custom_coefficients.py:515-541. -/
def createQuad (q : QDomain K) (cells : List Nat) (s : QuadSpec) (ch : Cache K) : Option (Cache K × Pack.Quad K) :=
  if s.boundary then (createUnf q s.degree cells ch).map fun x => (x.1, ofUnf q.grid.length x.2)
  else (createCells q s.degree cells ch).map fun x => (x.1, ofCells q.grid.length x.2)

/-- `_create_quadratures`: one for each quadrature data. custom_coefficients.py:709-730. -/
def createQuads (q : QDomain K) (cells : List Nat) : List QuadSpec → Cache K → Option (Cache K × List (Pack.Quad K))
  | [], ch => some (ch, [])
  | s :: ss, ch => (createQuad q cells s ch).bind fun x => (createQuads q cells ss x.1).map fun y => (y.1, x.2 :: y.2)

/-- The cells of a list (cells that are not in the process, -1, are not in any domain). -/
def local_ (l : List Int) : List Nat := l.filterMap fun x => if x < 0 then none else some x.toNat

/-- The constructor of the packer, for cells, before `_compute_new_coeffs`, and the empty cells, which the latter asks for: `domain` are
the cells of the integral, `old` the coefficients of DOLFINx. The caches of the domain and of C++ are threaded.
custom_coefficients.py:128-170, 640-707. -/
def cellInput (argsort : List Int → List Nat) (q : QDomain K) (types : Types) (cols : Nat) (old : List (List K)) (domain : List Nat)
    (specs : List QuadSpec) (s : UDomain.Caches) (ch : Cache K) : Option ((UDomain.Caches × Cache K) × Pack.Input K) :=
  (UDomain.cells argsort q.u .cut s).bind fun cut =>
    let custom := commonCells domain (local_ cut.1)
    (createQuads q (custom.map fun e => domain.getD e 0) specs ch).bind fun x =>
      (UDomain.cells argsort q.u .empty cut.2).map fun empty =>
        ((empty.2, x.1), {
          types := types
          n := domain.length
          interior := false
          cols := cols
          old := old
          custom := custom
          empty := commonCells domain (local_ empty.1)
          quads := x.2 })

/-- The type of the cells of the mesh. custom_coefficients.py:625. -/
def cellType : Nat → FacetQuad.Cell
  | 2 => .quadrilateral
  | 3 => .hexahedron
  | _ => .interval

/-- `_create_quadrature_facet` for exterior facets, with one dimension: the points in the cells. The object has no normals, and an
exception is raised when they are asked for. custom_coefficients.py:544-629, 757-774. -/
def createFacetQuad (q : QDomain K) (facets : Facets) (s : QuadSpec) (ch : Cache K) : Option (Cache K × Pack.Quad K) :=
  if s.boundary then none
  else (createFacets q s.degree facets true ch).bind fun x =>
    let nPts := x.2.nPts.map Int.toNat
    (FacetQuad.mapQuad (cellType q.grid.length) false [] nPts x.2.points facets).map fun pts =>
      (x.1, { gdim := q.grid.length, nPts := nPts, points := pts.flatten, weights := x.2.weights })

/-- `_create_quadratures` for facets. custom_coefficients.py:709-730. -/
def createFacetQuads (q : QDomain K) (facets : Facets) : List QuadSpec → Cache K → Option (Cache K × List (Pack.Quad K))
  | [], ch => some (ch, [])
  | s :: ss, ch => (createFacetQuad q facets s ch).bind fun x => (createFacetQuads q facets ss x.1).map fun y => (y.1, x.2 :: y.2)

/-- The constructor of the packer, for exterior facets, before `_compute_new_coeffs`, and the empty facets, which the latter asks for.
custom_coefficients.py:128-170, 632-707. -/
def facetInput (argsort : List Int → List Nat) (q : QDomain K) (types : Types) (cols : Nat) (old : List (List K)) (domain : Facets)
    (specs : List QuadSpec) (s : UDomain.Caches) (ch : Cache K) : Option ((UDomain.Caches × Cache K) × Pack.Input K) :=
  (UDomain.ask argsort q.u (.cut true) s).bind fun cut =>
    let custom := commonRows domain cut.1
    (createFacetQuads q (custom.map fun e => domain.getD e (0, 0)) specs ch).bind fun x =>
      (UDomain.ask argsort q.u (.empty true) cut.2).map fun empty =>
        ((empty.2, x.1), {
          types := types
          n := domain.length
          interior := false
          cols := cols
          old := old
          custom := custom
          empty := commonRows domain empty.1
          quads := x.2 })

end

/-! ### The loop of DOLFINx -/

section
variable {P K R : Type}

/-- What a call of the generated function leaves in the thread: the tables computed for the entity. codegeneration.py:661-783. -/
def after [DecidableEq P] (toNat : K → Nat) (B : Tables.Basix P K) (I : Kernel.Info) (mixed : Bool) (tables : List (List (Tables.Table P)))
    (types : Types) (cols : Nat) (mem : List (Slot K)) (w : Nat) (st : Tables.State P K) : Option (Tables.State P K) :=
  (kernel toNat types cols (shapes I mixed) mem w).bind fun
    | .custom loaded => Tables.prologue B I.interior mixed I.tdim st (List.zipWith (quadrature I.tdim) tables loaded)
    | _ => some st

/-- What the calls need, in all the entities. -/
structure Job (P K R : Type) where
  toNat : K → Nat
  S : Scalars K R
  B : Tables.Basix P K
  I : Kernel.Info
  mixed : Bool
  tables : List (List (Tables.Table P))
  loops : List (Kernel.Loop R)
  types : Types
  cols : Nat
  mem : List (Slot K)

/-- A call for the entity with its coefficients at `w`. -/
def Job.call [Add R] [DecidableEq P] (J : Job P K R) (w : Nat) (st : Tables.State P K) (U : Kernel.Values R) (A : Nat → R) :
    Option (Tables.State P K × (Nat → R)) :=
  (Assemble.call J.toNat J.S J.B J.I J.mixed J.tables J.loops J.types J.cols J.mem w st U A).bind fun A' =>
    (after J.toNat J.B J.I J.mixed J.tables J.types J.cols J.mem w st).map fun st' => (st', A')

/-- `fem::impl::assemble_cells` for a scalar (DOLFINx, external): one element tensor for all the entities. `pos`: positions of the
coefficients, `U`: coordinates of each entity, and the constants. -/
def assembleScalar [Add R] [DecidableEq P] (J : Job P K R) : List (Nat × Kernel.Values R) → Tables.State P K → (Nat → R) →
    Option (Tables.State P K × (Nat → R))
  | [], st, A => some (st, A)
  | (w, U) :: l, st, A => (J.call w st U A).bind fun x => assembleScalar J l x.1 x.2

/-- The addition of an element tensor to the global one: entry `k` is added in `dofs[k]`. -/
def scatter [Add R] : List Nat → Nat → (Nat → R) → (Nat → R) → (Nat → R)
  | [], _, _, b => b
  | d :: dofs, k, A, b => scatter dofs (k + 1) A (Function.update b d (b d + A k))

/-- `fem::impl::assemble_cells` for a vector (DOLFINx, external): an element tensor of zeros for each entity, added to the global
vector; matrices are the same, with pairs of degrees of freedom. -/
def assembleVector [Add R] [Zero R] [DecidableEq P] (J : Job P K R) : List (Nat × Kernel.Values R × List Nat) → Tables.State P K →
    (Nat → R) → Option (Tables.State P K × (Nat → R))
  | [], st, b => some (st, b)
  | (w, U, dofs) :: l, st, b => (J.call w st U fun _ => 0).bind fun x => assembleVector J l x.1 (scatter dofs 0 x.2 b)

end

end Qugar.Py.Integral
