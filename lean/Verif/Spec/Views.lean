import Mathlib.Algebra.Order.Ring.Unbundled.Rat
/-
Specification of the objects of the Python module `qugar.cpp` as immutable values: a Python variable holds a value, an attribute of
an object is a value that depends on the object only, and dropping a variable changes no other variable. There is no memory here.
-/
namespace Qugar.Spec.Views

/-- The classes with data. Points are lists of coordinates; `conn` and `wires` have one row per cell and per edge. -/
inductive Data
  | box (lo hi : List ℚ)
  | grid (breaks : List (List ℚ))
  | quad (dim : Nat) (pts : List (List ℚ)) (w : List ℚ)
  | cutCells (dim : Nat) (cells npts : List ℚ) (pts : List (List ℚ)) (w : List ℚ)
  | cutIso (dim : Nat) (cells facets npts : List ℚ) (pts : List (List ℚ)) (w : List ℚ)
  | cutUnf (dim : Nat) (cells npts : List ℚ) (pts : List (List ℚ)) (w : List ℚ) (normals : List (List ℚ))
  | mesh (range ppc order : Nat) (pts : List (List ℚ)) (conn wires : List (List ℚ))

/-- All the rows of `l` have `n ≠ 0` entries. -/
def rows (n : Nat) (l : List (List ℚ)) : Prop := 0 < n ∧ ∀ r ∈ l, r.length = n

/-- What the C++ types say about the data: the points have as many coordinates as the dimension, and so on. -/
def Data.ok : Data → Prop
  | .box lo hi => lo.length = hi.length
  | .grid breaks => ∀ b ∈ breaks, b ≠ []
  | .quad dim pts _ => rows dim pts
  | .cutCells dim _ _ pts _ => rows dim pts
  | .cutIso dim _ _ _ pts _ => rows dim pts
  | .cutUnf dim _ _ pts _ normals => rows dim pts ∧ rows dim normals
  | .mesh range ppc order pts conn wires => rows range pts ∧ rows ppc conn ∧ rows order wires

/-- The values of Python variables: objects with data, arrays (shape and entries, row by row), implicit functions (opaque), and
domains (made of a function and a grid). -/
inductive Val
  | data (d : Data)
  | arr (shape : List Nat) (entries : List ℚ)
  | func (name : Nat)
  | domain (func : Nat) (breaks : List (List ℚ))

/-- The attributes (and methods without arguments) of the classes. -/
inductive Attr
  | asArray | minCorner | maxCorner | midPoint
  | domain | numCells | cellBreaks (dir : Nat)
  | points | weights | cells | facets | nPts | normals
  | cellsConn | wireConn
  | grid | implFunc

/-- A list as an array with one axis. -/
def vec (l : List ℚ) : Val := .arr [l.length] l

/-- A list of rows of `n` entries as an array with two axes. -/
def mat (n : Nat) (l : List (List ℚ)) : Val := .arr [l.length, n] l.flatten

/-- The value of an attribute of a value; `none`: there is no such attribute. -/
def attr : Val → Attr → Option Val
  | .data (.box lo hi), .asArray => some (mat 2 (List.zipWith (fun a b => [a, b]) lo hi))
  | .data (.box lo _), .minCorner => some (vec lo)
  | .data (.box _ hi), .maxCorner => some (vec hi)
  | .data (.box lo hi), .midPoint => some (vec (List.zipWith (fun a b => (a + b) / 2) lo hi))
  | .data (.grid b), .domain => some (.data (.box (b.map (·.headD 0)) (b.map (·.getLastD 0))))
  | .data (.grid b), .numCells => some (vec (b.map fun l => ((l.length - 1 : Nat) : ℚ)))
  | .data (.grid b), .cellBreaks dir => (b[dir]?).map vec
  | .data (.quad dim pts _), .points => some (mat dim pts)
  | .data (.quad _ _ w), .weights => some (vec w)
  | .data (.cutCells _ cells _ _ _), .cells => some (vec cells)
  | .data (.cutCells _ _ npts _ _), .nPts => some (vec npts)
  | .data (.cutCells dim _ _ pts _), .points => some (mat dim pts)
  | .data (.cutCells _ _ _ _ w), .weights => some (vec w)
  | .data (.cutIso _ cells _ _ _ _), .cells => some (vec cells)
  | .data (.cutIso _ _ facets _ _ _), .facets => some (vec facets)
  | .data (.cutIso _ _ _ npts _ _), .nPts => some (vec npts)
  | .data (.cutIso dim _ _ _ pts _), .points => some (mat dim pts)
  | .data (.cutIso _ _ _ _ _ w), .weights => some (vec w)
  | .data (.cutUnf _ cells _ _ _ _), .cells => some (vec cells)
  | .data (.cutUnf _ _ npts _ _ _), .nPts => some (vec npts)
  | .data (.cutUnf dim _ _ pts _ _), .points => some (mat dim pts)
  | .data (.cutUnf _ _ _ _ w _), .weights => some (vec w)
  | .data (.cutUnf dim _ _ _ _ normals), .normals => some (mat dim normals)
  | .data (.mesh range _ _ pts _ _), .points => some (mat range pts)
  | .data (.mesh _ ppc _ _ conn _), .cellsConn => some (mat ppc conn)
  | .data (.mesh _ _ order _ _ wires), .wireConn => some (mat order wires)
  | .domain _ b, .grid => some (.data (.grid b))
  | .domain f _, .implFunc => some (.func f)
  | _, _ => none

/-- The operations of a Python program. Variables are numbered; new values get a new variable at the end. -/
inductive Op
  /-- An object returned by a function of the module (a box, a grid, a quadrature, a mesh). -/
  | new (d : Data)
  /-- A new array returned by a query (`get_cut_cells`, `get_boundary_cells`, …). -/
  | newArray (shape : List Nat) (entries : List ℚ)
  /-- A new implicit function, made of the functions held by some variables. -/
  | newFunc (name : Nat) (args : List Nat)
  /-- `create_unfitted_impl_domain`. -/
  | newDomain (phi grid : Nat)
  /-- An attribute of the object held by the variable `v`. `junk`: what the call leaves on the stack (of no effect here). -/
  | take (v : Nat) (a : Attr) (junk : List ℚ)
  /-- `w = v`. -/
  | dup (v : Nat)
  /-- `del v`. -/
  | drop (v : Nat)

/-- What is asked of the data of an operation. -/
def Op.ok : Op → Prop
  | .new d => d.ok
  | _ => True

def Val.isFunc : Val → Bool
  | .func _ => true
  | _ => false

/-- The variable `k` holds an implicit function. -/
def isFuncVar (vars : List Val) (k : Nat) : Bool :=
  match vars[k]? with
  | some v => v.isFunc
  | none => false

/-- One operation on the variables. Operations that raise (no such variable, no such attribute, wrong type) change nothing. -/
def step (vars : List Val) : Op → List Val
  | .new d => vars ++ [.data d]
  | .newArray s e => vars ++ [.arr s e]
  | .newFunc n args =>
    if args.all (isFuncVar vars) then vars ++ [.func n] else vars
  | .newDomain phi grid =>
    match vars[phi]?, vars[grid]? with
    | some (.func f), some (.data (.grid b)) => vars ++ [.domain f b]
    | _, _ => vars
  | .take v a _ =>
    match vars[v]? with
    | some x => match attr x a with | some y => vars ++ [y] | none => vars
    | none => vars
  | .dup v => match vars[v]? with | some x => vars ++ [x] | none => vars
  | .drop v => vars.eraseIdx v

/-- The variables after a program. -/
def run (h : List Op) : List Val := h.foldl step []

/-- The array held by a variable. -/
def Val.array : Val → Option (List Nat × List ℚ)
  | .arr s e => some (s, e)
  | _ => none

end Qugar.Spec.Views
