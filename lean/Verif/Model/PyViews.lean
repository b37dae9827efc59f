import Verif.Spec.Views
/-
Model of the memory of the objects of the Python module (python/nanobind_wrappers/{common,quad,cut_quad,reparam,unf_domain}.cpp,
wrapper_utils.hpp): Python objects with reference counts, arrays that are views of the memory of other objects, copies, and the
policies of nanobind. External (modelled as documented): CPython (an object is destroyed when its count becomes zero, which releases
what it refers to) and nanobind (`wrap`: conversion of an `nb::ndarray` without owner; objects given to C++ as `std::shared_ptr` keep
the Python object alive). Simplifications: integers and doubles are rationals; numbers, strings and exceptions have no memory;
memory that was freed is not used again (reading it is an error, `none`).
-/
namespace Qugar.Py.Life
open Spec.Views

/-- Classes of C++ objects. -/
inductive Cls
  | box | grid | quad | cutCells | cutIso | cutUnf | mesh | func | domain
  deriving DecidableEq

/-- Where the entries of a view are: the buffer `k` of the object `i`, or the frame of a function that has returned. -/
inductive Loc
  | buf (i k : Nat)
  | stack

/-- The memory of a Python object: a C++ object with its buffers and sizes, a box inside a grid (buffers `a` and `b` of it), an array
that is a view, an array with memory of its own. -/
inductive Payload
  | cpp (cls : Cls) (bufs : List (List ℚ)) (sizes : List Nat)
  | sub (parent a b : Nat)
  | view (loc : Loc) (shape : List Nat)
  | own (shape : List Nat) (entries : List ℚ)

/-- A Python object: reference count, objects it keeps alive, memory. -/
structure Obj where
  rc : Nat
  refs : List Nat
  mem : Payload

/-- The memory: objects (`none`: destroyed), the objects the variables refer to, and the memory of frames that have returned. -/
structure State where
  heap : List (Option Obj)
  vars : List Nat
  stack : List ℚ

def init : State := { heap := [], vars := [], stack := [] }

/-- The object `i`, if it is alive. -/
def get (h : List (Option Obj)) (i : Nat) : Option Obj := (h[i]?).join

/-- `Py_INCREF`. -/
def incref (h : List (Option Obj)) (i : Nat) : Option (List (Option Obj)) :=
  match get h i with
  | some o => some (h.set i (some { o with rc := o.rc + 1 }))
  | none => none

def weight (h : List (Option Obj)) : Nat := (h.map fun o => match o with | some o => o.rc | none => 0).sum

theorem weight_set (h : List (Option Obj)) (i : Nat) (o : Obj) (x : Option Obj) (hi : get h i = some o)
    (hx : (match x with | some o => o.rc | none => 0) < o.rc) : weight (h.set i x) < weight h := by
  induction h generalizing i with
  | nil => simp [get] at hi
  | cons a t ih =>
    cases i with
    | zero =>
      simp only [get, List.getElem?_cons_zero, Option.join_some] at hi
      subst hi
      simp only [weight, List.set_cons_zero, List.map_cons, List.sum_cons]
      have := hx
      omega
    | succ i =>
      have := ih i (by simpa [get] using hi)
      simp only [weight, List.set_cons_succ, List.map_cons, List.sum_cons] at this ⊢
      omega

/-- `Py_DECREF` of a list of references: an object whose count becomes zero is destroyed, and its references are released.
`none`: the object is already destroyed. -/
def release (h : List (Option Obj)) : List Nat → Option (List (Option Obj))
  | [] => some h
  | i :: rest =>
    match hg : get h i with
    | none => none
    | some o =>
      if h0 : o.rc = 0 then none
      else if h1 : o.rc = 1 then release (h.set i none) (o.refs ++ rest)
      else release (h.set i (some { o with rc := o.rc - 1 })) rest
  termination_by weight h
  decreasing_by
    · exact weight_set h i o none hg (by simp only; omega)
    · exact weight_set h i o _ hg (by simp only; omega)

/-- A new Python object that keeps `refs` alive, held by a new variable. -/
def alloc (s : State) (refs : List Nat) (p : Payload) : Option State := do
  let h ← refs.foldlM incref s.heap
  pure { s with heap := h ++ [some { rc := 1, refs := refs, mem := p }], vars := s.vars ++ [h.length] }

/-- Return-value policies of nanobind. -/
inductive Policy
  | referenceInternal
  | automatic

/-- What the function given to `def`/`def_prop_ro` returns: an `nb::ndarray` over a buffer of the object or over a local variable,
with its shape and the policy it is converted with (`automatic`: converted by `.cast()` or `nb::make_tuple` before the function
returns); a reference to a box inside the object; a `std::shared_ptr` held by the object. -/
inductive Export
  | buffer (k : Nat) (shape : List Nat) (p : Policy)
  | locals (entries : List ℚ) (shape : List Nat) (p : Policy)
  | inner (a b : Nat)
  | child (k : Nat)

/-- `get_points_array`. wrapper_utils.hpp:36-43. (The branch for empty vectors gives the same shape.) -/
def pointsArray (k dim : Nat) (b : List ℚ) : Export :=
  if b.isEmpty then .buffer k [0, dim] .referenceInternal else .buffer k [b.length / dim, dim] .referenceInternal

/-- `get_conn_array`, without the assertion. reparam.cpp:40-51. -/
def connArray (k n : Nat) (b : List ℚ) : Export :=
  if b.isEmpty then .buffer k [0, n] .referenceInternal else .buffer k [b.length / n, n] .referenceInternal

/-- A vector of numbers. -/
def vecArray (k : Nat) (b : List ℚ) : Export := .buffer k [b.length] .referenceInternal

/-- The attributes of the classes. `bufs`: the buffers of the object. `none`: there is no such attribute. Buffers of a box: `min`,
`max` (`min_corner` and `max_corner` return references, `mid_point` a point by value, bbox.hpp:119-123, 164); of a grid: the breaks
along the directions, then `min` and `max` of its domain (cart_grid_tp.hpp:70-74, 144-146); of the others, in the order of the
members. -/
def exports (c : Cls) (bufs : List (List ℚ)) (sizes : List Nat) (a : Attr) : Option Export :=
  let b := fun k => bufs.getD k []
  let dim := sizes.getD 0 0
  match c, a with
  -- common.cpp:53-66
  | .box, .asArray => some (.locals ((List.range (b 0).length).flatMap fun d => [(b 0).getD d 0, (b 1).getD d 0]) [(b 0).length, 2] .automatic)
  -- common.cpp:67-73
  | .box, .minCorner => some (vecArray 0 (b 0))
  -- common.cpp:74-80
  | .box, .maxCorner => some (vecArray 1 (b 1))
  -- common.cpp:81-87
  | .box, .midPoint => some (.locals (List.zipWith (fun x y => 1 / 2 * (x + y)) (b 0) (b 1)) [(b 0).length] .referenceInternal)
  -- common.cpp:124
  | .grid, .domain => some (.inner dim (dim + 1))
  -- common.cpp:127-134
  | .grid, .numCells => some (.locals ((bufs.take dim).map fun l => ((l.length - 1 : Nat) : ℚ)) [dim] .automatic)
  -- common.cpp:146-157
  | .grid, .cellBreaks dir => if dir < dim then some (vecArray dir (b dir)) else none
  -- quad.cpp:42-55
  | .quad, .points => some (pointsArray 0 dim (b 0))
  | .quad, .weights => some (vecArray 1 (b 1))
  -- cut_quad.cpp:50-77
  | .cutCells, .cells => some (vecArray 0 (b 0))
  | .cutCells, .nPts => some (vecArray 1 (b 1))
  | .cutCells, .points => some (pointsArray 2 dim (b 2))
  | .cutCells, .weights => some (vecArray 3 (b 3))
  -- cut_quad.cpp:84-118
  | .cutIso, .cells => some (vecArray 0 (b 0))
  | .cutIso, .facets => some (vecArray 1 (b 1))
  | .cutIso, .nPts => some (vecArray 2 (b 2))
  | .cutIso, .points => some (pointsArray 3 dim (b 3))
  | .cutIso, .weights => some (vecArray 4 (b 4))
  -- cut_quad.cpp:125-158
  | .cutUnf, .cells => some (vecArray 0 (b 0))
  | .cutUnf, .nPts => some (vecArray 1 (b 1))
  | .cutUnf, .points => some (pointsArray 2 dim (b 2))
  | .cutUnf, .weights => some (vecArray 3 (b 3))
  | .cutUnf, .normals => some (pointsArray 4 dim (b 4))
  -- reparam.cpp:78-93
  | .mesh, .points => some (pointsArray 0 dim (b 0))
  | .mesh, .cellsConn => some (connArray 1 (sizes.getD 1 0) (b 1))
  | .mesh, .wireConn => some (connArray 2 (sizes.getD 2 0) (b 2))
  -- unf_domain.cpp:109-110
  | .domain, .grid => some (.child 1)
  -- unf_domain.cpp:255-258
  | .domain, .implFunc => some (.child 0)
  | _, _ => none

/-- The C++ object created by a function of the module: class, buffers, sizes. common.cpp:92-113, 160-186 (the domain of a grid:
cart_grid_tp.cpp:96-106), quad.cpp:57-60, cut_quad.cpp, reparam.cpp. -/
def store : Data → Cls × List (List ℚ) × List Nat
  | .box lo hi => (.box, [lo, hi], [])
  | .grid br => (.grid, br ++ [br.map (·.headD 0), br.map (·.getLastD 0)], [br.length])
  | .quad dim pts w => (.quad, [pts.flatten, w], [dim])
  | .cutCells dim cells npts pts w => (.cutCells, [cells, npts, pts.flatten, w], [dim])
  | .cutIso dim cells facets npts pts w => (.cutIso, [cells, facets, npts, pts.flatten, w], [dim])
  | .cutUnf dim cells npts pts w normals => (.cutUnf, [cells, npts, pts.flatten, w, normals.flatten], [dim])
  | .mesh range ppc order pts conn wires => (.mesh, [pts.flatten, conn.flatten, wires.flatten], [range, ppc, order])

/-- The buffer `k` of the object `i`. `none`: a read of freed memory. -/
def load (h : List (Option Obj)) (i k : Nat) : Option (List ℚ) :=
  match get h i with
  | some { mem := .cpp _ bufs _, .. } => bufs[k]?
  | _ => none

/-- The C++ object behind a Python object: class, buffers, sizes and where the buffers are. Outer `none`: a read of freed memory;
inner `none`: not a C++ object. -/
def resolve (h : List (Option Obj)) (i : Nat) (o : Obj) : Option (Option (Cls × List (List ℚ) × List Nat × (Nat → Nat × Nat))) :=
  match o.mem with
  | .cpp c bufs sizes => some (some (c, bufs, sizes, fun k => (i, k)))
  | .sub p a b =>
    match load h p a, load h p b with
    | some lo, some hi => some (some (.box, [lo, hi], [], fun k => (p, if k = 0 then a else b)))
    | _, _ => none
  | _ => some none

/-- The conversion of an `nb::ndarray` without owner to a numpy array (`nb::detail::ndarray_export`): `reference_internal` makes the
array keep the object alive, `automatic` copies. The object is `self`. -/
def wrapBuffer (s : State) (self : Nat) (loc : Nat × Nat) (shape : List Nat) : Policy → Option State
  | .referenceInternal => alloc s [self] (.view (.buf loc.1 loc.2) shape)
  | .automatic => do
    let d ← load s.heap loc.1 loc.2
    alloc s [] (.own shape d)

/-- The same for an array over a local variable of the function: with `reference_internal` the conversion takes place after the
function has returned. -/
def wrapLocals (s : State) (self : Nat) (entries : List ℚ) (shape : List Nat) : Policy → Option State
  | .referenceInternal => alloc { s with stack := entries } [self] (.view .stack shape)
  | .automatic => alloc s [] (.own shape entries)

/-- A call of an attribute. `junk`: what the call leaves on the stack. -/
def take (s : State) (v : Nat) (a : Attr) (junk : List ℚ) : Option State :=
  match s.vars[v]? with
  | none => some s
  | some i =>
    match get s.heap i with
    | none => none
    | some o =>
      let s' := { s with stack := junk }
      match resolve s.heap i o with
      | none => none
      | some none => some s'
      | some (some (c, bufs, sizes, loc)) =>
        match exports c bufs sizes a with
        | none => some s'
        | some (.buffer k shape p) => wrapBuffer s' i (loc k) shape p
        | some (.locals e shape p) => wrapLocals s' i e shape p
        | some (.inner x y) => alloc s' [i] (.sub i x y)
        | some (.child k) =>
          match o.refs[k]? with
          | none => none
          | some j => (incref s'.heap j).map fun h => { s' with heap := h, vars := s'.vars ++ [j] }

/-- The class of the C++ object a variable refers to. -/
def clsOf (s : State) (v : Nat) : Option (Nat × Cls) :=
  match s.vars[v]? with
  | some i => match get s.heap i with
    | some { mem := .cpp c _ _, .. } => some (i, c)
    | _ => none
  | none => none

/-- The objects of the variables `args`, if all are implicit functions. -/
def funcArgs (s : State) (args : List Nat) : Option (List Nat) :=
  args.mapM fun v => match clsOf s v with
    | some (i, .func) => some i
    | _ => none

/-- One operation of a program. `none`: an access to freed memory. Functions keep their arguments alive (`std::shared_ptr` members),
domains keep the function and the grid (unf_domain.cpp:264-309). Queries return arrays with memory of their own (`as_nbarray`,
wrapper_utils.hpp:56-78; `nb::make_tuple` and `.cast()` copy, unf_domain.cpp:47-53, common.cpp:136-145). -/
def step (s : State) : Op → Option State
  | .new d => alloc s [] (.cpp (store d).1 (store d).2.1 (store d).2.2)
  | .newArray shape e => alloc s [] (.own shape e)
  | .newFunc n args =>
    match funcArgs s args with
    | some refs => alloc s refs (.cpp .func [] [n])
    | none => some s
  | .newDomain phi grid =>
    match clsOf s phi, clsOf s grid with
    | some (i, .func), some (j, .grid) => alloc s [i, j] (.cpp .domain [] [])
    | _, _ => some s
  | .take v a junk => take s v a junk
  | .dup v =>
    match s.vars[v]? with
    | some i => (incref s.heap i).map fun h => { s with heap := h, vars := s.vars ++ [i] }
    | none => some s
  | .drop v =>
    match s.vars[v]? with
    | some i => (release s.heap [i]).map fun h => { s with heap := h, vars := s.vars.eraseIdx v }
    | none => some s

/-- A program. -/
def run (h : List Op) : Option State := h.foldlM step init

/-- Reading the array held by a variable: shape and entries. Outer `none`: a read of freed memory; inner `none`: not an array. -/
def read (s : State) (v : Nat) : Option (Option (List Nat × List ℚ)) :=
  match s.vars[v]? with
  | none => some none
  | some i =>
    match get s.heap i with
    | none => none
    | some o =>
      match o.mem with
      | .view (.buf p k) shape => (load s.heap p k).map fun e => some (shape, e)
      | .view .stack shape => some (some (shape, s.stack))
      | .own shape e => some (some (shape, e))
      | _ => some none

end Qugar.Py.Life
