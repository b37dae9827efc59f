import Verif.Model.PyFacets
import Mathlib.Algebra.Ring.Defs
/-
Model of the coefficients of custom integrals: python/qugar/dolfinx/custom_coefficients.py (the packer) and the C code that
python/qugar/dolfinx/codegeneration.py generates to read them (the kernel).

Memory. The array of coefficients is modelled as the list of its slots of the real type (float32 or float64): a coefficient of a
complex type takes two slots. A slot holds a number or a part of the bits of an offset (a ptrdiff_t): which bits is not modelled,
reading an offset where there is something else is `none`. Integers have no bounds and the numbers are of any type with a cast from
the natural numbers. `none`: an exception, a failed assertion or a wrong access to memory.
-/
namespace Qugar.Py.Pack

variable {K : Type}

/-- A slot of the memory. -/
inductive Slot (K : Type)
  | num (x : K)
  | off (v : Int) (part : Nat)
deriving DecidableEq

/-- The types: slots per coefficient (`_real_per_complex_ratio`) and slots per offset (8 bytes). float32: 1, 2; float64: 1, 1;
complex64: 2, 2; complex128: 2, 1. custom_coefficients.py:185-196, 272-276. -/
structure Types where
  ratio : Nat
  width : Nat

/-- The types of the code. -/
def Types.Ok (t : Types) : Prop := (t.ratio = 1 ∨ t.ratio = 2) ∧ (t.width = 1 ∨ t.width = 2)

/-- `_get_n_extra_cols`: `ceil(8 / itemsize of a coefficient)`. custom_coefficients.py:245-270. -/
def Types.extra (t : Types) : Nat := (t.width + t.ratio - 1) / t.ratio

/-- The custom quadrature of all the custom entities for an integrand, with its arrays flattened by rows
(`np.ascontiguousarray(…).ravel()`); `side1` for interior facets, `facet` (dimension and points) for mixed dimensions, `normals` for
unfitted boundaries. custom_coefficients.py:709-775. -/
structure Quad (K : Type) where
  gdim : Nat
  nPts : List Nat
  points : List K
  side1 : Option (List K) := none
  facet : Option (Nat × List K) := none
  weights : List K
  normals : Option (List K) := none

/-- The arrays of a quadrature after the number of points, with the number of values per point, in the order of
`_compute_new_vals`. custom_coefficients.py:757-771. -/
def Quad.fields (q : Quad K) : List (Nat × List K) :=
  [(q.gdim, q.points)] ++ (q.side1.map fun l => (q.gdim, l)).toList ++ q.facet.toList ++ [(1, q.weights)] ++
    (q.normals.map fun l => (q.gdim, l)).toList

/-- `n_vals_per_pt` of `_compute_n_vals_per_custom_entity`. custom_coefficients.py:348-358. -/
def Quad.valsPerPt (q : Quad K) : Nat :=
  q.gdim + 1 + (if q.side1.isSome then q.gdim else 0) + (match q.facet with | some f => f.1 | none => 0) +
    (if q.normals.isSome then q.gdim else 0)

/-- `_compute_n_vals_per_custom_entity`. custom_coefficients.py:314-368. -/
def nVals (nCustom : Nat) (quads : List (Quad K)) : Option (List Nat) :=
  quads.foldlM (fun acc q => if q.nPts.length = nCustom then
    some (List.zipWith (fun a n => a + n * q.valsPerPt + 1) acc q.nPts) else none) (List.replicate nCustom 0)

/-- Assignment to the slice that starts at `pos`. -/
def setSlice {α : Type} (mem : List α) (pos : Nat) (vals : List α) : Option (List α) :=
  if pos + vals.length ≤ mem.length then some (mem.take pos ++ vals ++ mem.drop (pos + vals.length)) else none

/-- Several assignments. -/
def setSlices {α : Type} (mem : List α) (l : List (Nat × List α)) : Option (List α) :=
  l.foldlM (fun m p => setSlice m p.1 p.2) mem

/-- The data of an integral: types, number of entities, whether they are interior facets (two rows each), coefficients of DOLFINx
(rows of `cols` coefficients, `cols * ratio` slots), custom and empty entities, quadratures. custom_coefficients.py:128-170. -/
structure Input (K : Type) where
  types : Types
  n : Nat
  interior : Bool
  cols : Nat
  old : List (List K)
  custom : List Nat
  empty : List Nat
  quads : List (Quad K)

namespace Input

/-- Rows of the entities. custom_coefficients.py:303-305, 387-388. -/
def rows (i : Input K) : Nat := if i.interior then 2 * i.n else i.n

/-- Slots of a row of the new array. custom_coefficients.py:296-299, 390-393. -/
def rowSlots (i : Input K) : Nat := (i.cols + i.types.extra) * i.types.ratio

/-- The new array: zeros. custom_coefficients.py:278-312. -/
def allocate [NatCast K] (i : Input K) (vals : List Nat) : List (Slot K) :=
  List.replicate ((i.rows + (vals.sum + i.rowSlots - 1) / i.rowSlots) * i.rowSlots) (.num ((0 : Nat) : K))

/-- The absolute offsets: `np.cumsum`. custom_coefficients.py:394-409. -/
def offsets (i : Input K) (vals : List Nat) : List Nat :=
  (List.range i.custom.length).map fun j => (vals.take j).sum + i.rows * i.rowSlots

/-- Position of the row of an entity (the first one for interior facets). custom_coefficients.py:396-400. -/
def rowPos (i : Input K) (e : Nat) : Nat := (if i.interior then 2 * e else e) * i.rowSlots

/-- The relative offsets of all the rows. The ids of empty entities are used as row numbers, also for interior facets (line 422).
custom_coefficients.py:411-422. -/
def relOffsets (i : Input K) (vals : List Nat) : Option (List Int) :=
  if i.custom.all (· < i.n) ∧ i.empty.all (· < i.rows) then
    let all := (i.custom.zip (i.offsets vals)).foldl (fun (l : List Int) p =>
      l.set (if i.interior then 2 * p.1 else p.1) ((p.2 : Int) - (i.rowPos p.1 : Int))) (List.replicate i.rows (-1))
    some (i.empty.foldl (fun l e => l.set e 0) all)
  else none

/-- The slots of an offset in the extra columns: the offset followed by zeros. custom_coefficients.py:424-448. -/
def offSlots (t : Types) (v : Int) : List (Slot K) :=
  (List.range (t.extra * t.ratio)).map fun k => .off (if k / t.width = 0 then v else 0) (k % t.width)

/-- The copy of the offsets to the last columns. custom_coefficients.py:449. -/
def writeOffsets (i : Input K) (mem : List (Slot K)) (rel : List Int) : Option (List (Slot K)) :=
  setSlices mem (rel.zipIdx.map fun p => (p.2 * i.rowSlots + i.cols * i.types.ratio, offSlots i.types p.1))

/-- The copy of the old coefficients. custom_coefficients.py:801-802. -/
def writeOld (i : Input K) (mem : List (Slot K)) : Option (List (Slot K)) :=
  setSlices mem (i.old.zipIdx.map fun p => (p.2 * i.rowSlots, p.1.map .num))

end Input

/-- The values of an entity: the next ones of every array, `c` is the position in memory. `fields`: values per point and remaining
values of the array (`vals[v_off0:]`). custom_coefficients.py:499-512. -/
def copyEntity (n : Nat) : List (Nat × List K) → List (Slot K) → Nat → Option (List (Slot K) × Nat × List (Nat × List K))
  | [], mem, c => some (mem, c, [])
  | (d, vals) :: fs, mem, c =>
    if n * d ≤ vals.length then
      (setSlice mem c ((vals.take (n * d)).map .num)).bind fun mem =>
        (copyEntity n fs mem (c + n * d)).map fun x => (x.1, x.2.1, (d, vals.drop (n * d)) :: x.2.2)
    else none

/-- The loop over the entities, which gives the next offsets. custom_coefficients.py:498-513. -/
def copyEntities : List (Nat × Nat) → List (Nat × List K) → List (Slot K) → Option (List (Slot K) × List Nat)
  | [], _, mem => some (mem, [])
  | (c, n) :: l, fs, mem =>
    (copyEntity n fs mem c).bind fun x => (copyEntities l x.2.2 x.1).map fun y => (y.1, x.2.1 :: y.2)

/-- Integer division of the sizes by the total number of points. custom_coefficients.py:490-494. -/
def perPoint (nTot : Nat) (l : List K) : Nat := if 0 < nTot then l.length / nTot else l.length

/-- The copy of a quadrature. custom_coefficients.py:480-513. -/
def copyQuad [NatCast K] (offsets : List Nat) (q : Quad K) (mem : List (Slot K)) : Option (List (Slot K) × List Nat) :=
  (setSlices mem ((offsets.zip q.nPts).map fun p => (p.1, [.num (p.2 : K)]))).bind fun mem =>
    copyEntities ((offsets.map (· + 1)).zip q.nPts) (q.fields.map fun f => (perPoint q.nPts.sum f.2, f.2)) mem

/-- `_copy_vals`. custom_coefficients.py:451-513. -/
def copyVals [NatCast K] : List (Quad K) → List Nat → List (Slot K) → Option (List (Slot K))
  | [], _, mem => some mem
  | q :: qs, offsets, mem => (copyQuad offsets q mem).bind fun x => copyVals qs x.2 x.1

/-- `_compute_new_coeffs`. custom_coefficients.py:777-805. -/
def pack [NatCast K] (i : Input K) : Option (List (Slot K)) :=
  (nVals i.custom.length i.quads).bind fun vals =>
    (i.writeOld (i.allocate vals)).bind fun mem =>
      (i.relOffsets vals).bind fun rel =>
        (i.writeOffsets mem rel).bind fun mem => copyVals i.quads (i.offsets vals) mem

/-- `update_coefficients`: new coefficients of DOLFINx. custom_coefficients.py:965-996. -/
def update (i : Input K) (new : List (List K)) (mem : List (Slot K)) : Option (List (Slot K)) :=
  { i with old := new }.writeOld mem

/-! ### The kernel -/

/-- The number of a slot. -/
def Slot.num? : Slot K → Option K
  | .num x => some x
  | .off _ _ => none

/-- The numbers of `len` slots. -/
def readNums (mem : List (Slot K)) (pos len : Nat) : Option (List K) :=
  (List.range len).mapM fun k => (mem[pos + k]?).bind Slot.num?

/-- Reading a ptrdiff_t. codegeneration.py:747-749. -/
def readOff (t : Types) (mem : List (Slot K)) (pos : Nat) : Option Int :=
  match mem[pos]? with
  | some (.off v 0) => if (List.range t.width).all (fun k => match mem[pos + k]? with
      | some (.off v' k') => v' == v && k' == k
      | _ => false) then some v else none
  | _ => none

/-- What a loader knows about a quadrature. codegeneration.py:355-380. -/
structure Shape where
  tdim : Nat
  interior : Bool
  mixed : Bool
  normals : Bool

/-- What a loader gives: number of points and arrays. -/
structure Loaded (K : Type) where
  n : Nat
  points : List K
  side1 : Option (List K)
  facet : Option (List K)
  weights : List K
  normals : Option (List K)
deriving DecidableEq

/-- Reading an optional array. -/
def readIf (b : Bool) (mem : List (Slot K)) (pos len : Nat) : Option (Option (List K) × Nat) :=
  if b then (readNums mem pos len).map fun l => (some l, pos + len) else some (none, pos)

/-- The generated loader `load_points_…`; `toNat` is the conversion of a number to `int`. codegeneration.py:389-406. -/
def load (toNat : K → Nat) (s : Shape) (mem : List (Slot K)) (pos : Nat) : Option (Loaded K × Nat) :=
  ((mem[pos]?).bind Slot.num?).bind fun x =>
    let n := toNat x
    let pos := pos + 1
    (readNums mem pos (s.tdim * n)).bind fun points =>
      (readIf s.interior mem (pos + s.tdim * n) (s.tdim * n)).bind fun a =>
        (readIf s.mixed mem a.2 ((s.tdim - 1) * n)).bind fun b =>
          (readNums mem b.2 n).bind fun weights =>
            (readIf s.normals mem (b.2 + n) (s.tdim * n)).map fun c => (⟨n, points, a.1, b.1, weights, c.1⟩, c.2)

/-- The loaders of all the quadratures. codegeneration.py:457-471. -/
def loadAll (toNat : K → Nat) (mem : List (Slot K)) : List Shape → Nat → Option (List (Loaded K))
  | [], _ => some []
  | s :: ss, pos => (load toNat s mem pos).bind fun x => (loadAll toNat mem ss x.2).map fun l => x.1 :: l

/-- What the kernel does for an entity. -/
inductive Outcome (K : Type)
  | nothing
  | standard
  | custom (l : List (Loaded K))
deriving DecidableEq

/-- The new function: `w` is the position of the row of the entity, `coeffsOffset` the one of the offset (in coefficients).
codegeneration.py:728-783. -/
def kernel (toNat : K → Nat) (t : Types) (coeffsOffset : Nat) (shapes : List Shape) (mem : List (Slot K)) (w : Nat) : Option (Outcome K) :=
  (readOff t mem (w + coeffsOffset * t.ratio)).bind fun off =>
    if 0 < off then (loadAll toNat mem shapes (w + off.toNat)).map .custom
    else if off < 0 then some .standard
    else some .nothing

/-- `_compute_coeffs_offset` for coefficients of the given dimensions. `coefficient_offsets` of FFCx (not part of the code): the
coefficients follow each other, and take twice the space for interior facets. codegeneration.py:124-144. -/
def coeffsOffset (interior : Bool) (dims : List Nat) : Nat :=
  match dims.getLast? with
  | none => 0
  | some d => (if interior then 2 else 1) * dims.dropLast.sum + d

/-! ### Entities -/

/-- `_find_common_rows`: positions in `a` of the rows that are in `b`. custom_coefficients.py:38-62. -/
def commonRows (a b : Facets) : List Nat :=
  if a.isEmpty || b.isEmpty then [] else (List.range a.length).filter fun k => (a[k]?).any (b.contains ·)

/-- `np.intersect1d(a, b, assume_unique=True, return_indices=True)`: the positions in `a` of the common values, in the order of the
values (the arrays have no repetition). custom_coefficients.py:671-674, 703-706. -/
def commonCells (a b : List Nat) : List Nat :=
  ((a.zipIdx.filter fun p => b.contains p.1).insertionSort fun p q => p.1 ≤ q.1).map Prod.snd

end Qugar.Py.Pack
