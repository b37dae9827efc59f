import Verif.Model.ReparamBezier
/-
Model of the reparameterization of general implicit functions: `ImplicitGeneralReparam` and `reparam_general`
(cpp/qugar/impl_reparam_general.cpp).

Coordinates are in an ordered field `K` (rounding is not modelled). External (parameters): the implicit function, its interval
evaluations on boxes (`alg::Interval`), the root finder and `determineSigns` of Algoim (`Fn`); the sort of the roots; the nodes
`modifiedChebyshevNode`; the norm. `none`: a failed assertion or an access out of bounds. Points and tensor indices have `range`
components. The `thread_local` variables are local here: each use is preceded by a clear or an assignment, and the levels that are
active at the same time are instances of different templates, that have different variables.
-/
namespace Qugar.General
open Roots Mesh Poly Reparam
variable {K : Type} [Field K] [LinearOrder K]

/-- `alg::PsiCode`: side of the box (0 or 1) in each direction, and sign. -/
structure Psi where
  sides : List Nat
  sign : Int

/-- `alg::Interval`: value at the centre and `maxDeviation`. -/
structure Ival (K : Type) where
  alpha : K
  dev : K

/-- `alg::Interval::uniformSign`. -/
def Ival.uniform (i : Ival K) : Bool := decide (i.dev < |i.alpha|)

/-- The implicit function `phi_`: values; interval values and interval gradients on boxes; `rootFind` (point, direction, ends of the
line, flag `dim > 1`); `determineSigns<S>` (is the function increasing, sign). -/
structure Fn (K : Type) where
  val : List K → K
  ivl : Box K → Ival K
  grad : Box K → List (Ival K)
  rootFind : List K → Nat → K → K → Bool → List K
  signs : Bool → Bool → Int → Int × Int

/-- Parameters: `numbers::near_eps`, the number of points per direction, the nodes, the sort of the roots, an uninitialized value, a
default constructed `PsiCode`, and the flag `S`. -/
structure Env (K : Type) where
  tol : K
  order : Nat
  cheb : Nat → Nat → K
  srt : List (Root K) → List (Root K)
  u : K
  psi0 : Psi
  S : Bool

/-- The members of one object: template parameter `dim`, `free_`, `psi_`, `psi_count_`, `xrange_`, `dir_k_`. -/
structure Level (K : Type) where
  dim : Nat
  free : List Bool
  psi : List Psi
  count : Nat
  box : Box K
  dir : Nat

/-- `n_max_subdivs`. impl_reparam_general.cpp:72. -/
def maxSubdivs : Nat := 16

/-- `n_facets`. impl_reparam_general.cpp:74. -/
def nFacets (range : Nat) : Nat := 2 ^ (range - 1)

/-- `xrange_.side(s)(dir)`. -/
def sideAt (box : Box K) (s dir : Nat) : K := if s = 0 then (box.getD dir (0, 0)).1 else (box.getD dir (0, 0)).2

/-- `xrange_.extent(dir)`. -/
def extent (box : Box K) (dir : Nat) : K := (box.getD dir (0, 0)).2 - (box.getD dir (0, 0)).1

/-- `xrange_.midpoint(dir)`. -/
def midAt (box : Box K) (dir : Nat) : K := 1 / 2 * ((box.getD dir (0, 0)).1 + (box.getD dir (0, 0)).2)

/-- The box of the interval evaluations for a psi: `xint_` with the restricted directions on the side.
impl_reparam_general.cpp:110-114, 677-685, 710-714, 732-736. -/
def psiBox (free : List Bool) (box : Box K) (p : Psi) : Box K :=
  (List.range box.length).map fun d =>
    if free.getD d false then box.getD d (0, 0) else (sideAt box (p.sides.getD d 0) d, sideAt box (p.sides.getD d 0) d)

/-- `std::swap(psi_(i), psi_(j))`. -/
def swap (psi : List Psi) (i j : Nat) (d : Psi) : List Psi := (psi.set i (psi.getD j d)).set j (psi.getD i d)

/-- The loop of `prune`: `n` is `psi_count_ - i`; `none` for `return false`, otherwise `psi_` and `psi_count_`.
impl_reparam_general.cpp:107-129. -/
def prune (F : Fn K) (free : List Bool) (box : Box K) (d : Psi) : Nat → Nat → List Psi → Option (List Psi × Nat)
  | 0, i, psi => some (psi, i)
  | n + 1, i, psi =>
    let p := psi.getD i d
    let res := F.ivl (psiBox free box p)
    if res.uniform then
      if (0 ≤ res.alpha ∧ 0 ≤ p.sign) ∨ (res.alpha ≤ 0 ∧ p.sign ≤ 0) then prune F free box d n i (swap psi i (i + n) d)
      else none
    else prune F free box d n (i + 1) psi

/-- `compute_tolerance`. impl_reparam_general.cpp:155-160. -/
def tolOf (E : Env K) (L : Level K) : K := max E.tol (E.tol * extent L.box L.dir)

/-- `set_psi_bounds`. impl_reparam_general.cpp:167-174. -/
def setBounds (L : Level K) (i : Nat) (d : Psi) (x : List K) : List K :=
  (List.range x.length).map fun k => if L.free.getD k false then vat x k else sideAt L.box ((L.psi.getD i d).sides.getD k 0) k

/-- `compute_roots`. impl_reparam_general.cpp:183-199. -/
def computeRoots (E : Env K) (F : Fn K) (L : Level K) (x : List K) (i : Nat) : List K :=
  F.rootFind (setBounds L i E.psi0 x) L.dir (sideAt L.box 0 L.dir) (sideAt L.box 1 L.dir) (decide (1 < L.dim))

/-- The sign condition of psi `i` at a point. impl_reparam_general.cpp:221-222. -/
def signOk (E : Env K) (F : Fn K) (L : Level K) (i : Nat) (x : List K) : Bool :=
  if 0 < F.val (setBounds L i E.psi0 x) then decide (0 ≤ (L.psi.getD i E.psi0).sign) else decide ((L.psi.getD i E.psi0).sign ≤ 0)

/-- `check_active_interval`. impl_reparam_general.cpp:210-225. -/
def activeInterval (E : Env K) (F : Fn K) (L : Level K) (x : List K) (x0 x1 : K) : Bool :=
  if Tol.equal (tolOf E L) x1 x0 then false
  else (List.range L.count).all fun i => signOk E F L i (x.set L.dir (1 / 2 * (x0 + x1)))

/-- The roots added by `compute_all_intervals`. impl_reparam_general.cpp:238-248. -/
def allRoots (E : Env K) (F : Fn K) (L : Level K) (x : List K) : List (Root K) :=
  [(sideAt L.box 0 L.dir, -1), (sideAt L.box 1 L.dir, -1)] ++
    (List.range L.count).flatMap fun i => (computeRoots E F L x i).map fun r => (r, (i : Int))

/-- `compute_all_intervals`; `S`: the template parameter of the object. impl_reparam_general.cpp:232-265. -/
def computeAll (E : Env K) (F : Fn K) (S : Bool) (L : Level K) (x : List K) : Option (Intervals K) :=
  let roots := adjust (tolOf E L) (sideAt L.box 0 L.dir) (sideAt L.box 1 L.dir) (E.srt (allRoots E F L x))
  if S then some ⟨x, roots, []⟩
  else if 0 < roots.length - 1 then
    some ⟨x, roots, (List.range (roots.length - 1)).map fun i =>
      activeInterval E F L x (roots.getD i (0, -1)).1 (roots.getD (i + 1) (0, -1)).1⟩
  else none

/-- The point at the middle of interval `i`. impl_reparam_general.cpp:291-296. -/
def midPoint (L : Level K) (roots : List (Root K)) (x : List K) (i : Nat) : List K :=
  x.set L.dir (1 / 2 * ((roots.getD i (0, -1)).1 + (roots.getD (i + 1) (0, -1)).1))

/-- `compute_ref_intervals` (after the clearing of the maps); the lists hold this level and the higher ones; the result holds their
maps. The tensor index keeps the value of the last active interval, that is overwritten in the next one.
impl_reparam_general.cpp:272-301. -/
def computeRef (E : Env K) (F : Fn K) : List (Level K) → List K → List Nat → List (RefMap K) → Option (List (RefMap K))
  | L :: Ls, x, tid, M :: Ms => do
    let iv ← computeAll E F (Ls.isEmpty && E.S) L x
    let Ms ← (List.range iv.active.length).foldlM (fun (Ms : List (RefMap K)) i =>
      if iv.active.getD i false then
        if Ls.isEmpty then some Ms
        else computeRef E F Ls (midPoint L iv.roots x i) (tid.set L.dir i) Ms
      else some Ms) Ms
    some (emplace M tid iv :: Ms)
  | _, _, _, _ => none

/-- `generate_point_in_01`. impl_reparam_general.cpp:571-579. -/
def node (E : Env K) (i : Nat) : K := pointIn01 E.cheb E.order i

/-- `interpolate_coord`. impl_reparam_general.cpp:303-306. -/
def interpolate (E : Env K) (box : Box K) (i dir : Nat) : K := (box.getD dir (0, 0)).1 + extent box dir * node E i

/-- `get_ref_intervals_roots`: for every root of function `i`, the root at position `i` (not at the position of the root) is taken.
impl_reparam_general.cpp:399-411. -/
def refRoots (ref : Intervals K) (i : Nat) : Option (List K) :=
  (ref.roots.filter fun r => decide (r.2 = (i : Int))).mapM fun _ => (ref.roots[i]?).map (·.1)

/-- The tolerances `tol * 10^i`, `i < 4`: are the ends of the line zeros up to the first tolerance with which one of them is?
impl_reparam_general.cpp:457-469. -/
def endZeros (tol v0 v1 : K) : Bool × Bool :=
  match (List.range 4).find? fun i => Tol.isZero (tol * 10 ^ i) v0 || Tol.isZero (tol * 10 ^ i) v1 with
  | some i => (Tol.isZero (tol * 10 ^ i) v0, Tol.isZero (tol * 10 ^ i) v1)
  | none => (false, false)

/-- The roots at the ends of the line, added when there are fewer roots than in the reference. impl_reparam_general.cpp:453-491. -/
def endRoots (E : Env K) (F : Fn K) (L : Level K) (i : Nat) (refPt x : List K) (refs new : List K) : List K :=
  let x0 := sideAt L.box 0 L.dir
  let x1 := sideAt L.box 1 L.dir
  let y := setBounds L i E.psi0 x
  let z := endZeros (tolOf E L) (F.val (y.set L.dir x0)) (F.val (y.set L.dir x1))
  if z.1 != z.2 then new ++ List.replicate (refs.length - new.length) (if z.1 then x0 else x1)
  else if z.1 && z.2 then
    if new.length + 2 = refs.length then new ++ [x0, x1]
    else if new.length + 1 = refs.length then
      let sign := decide (0 < F.val ((setBounds L i E.psi0 refPt).set L.dir (1 / 2 * (x0 + refs.headD 0))))
      let new := new.mergeSort (fun a b => decide (a ≤ b))
      let xmid := new.headD x1
      let newSign := decide (0 < F.val (y.set L.dir (1 / 2 * (x0 + xmid))))
      new ++ [if sign = newSign then x1 else x0]
    else new
  else new

/-- `compute_similar_roots`. impl_reparam_general.cpp:422-498. -/
def similarRoots (E : Env K) (F : Fn K) (L : Level K) (ref : Intervals K) (i : Nat) (x : List K) : Option (List K) := do
  let refs ← refRoots ref i
  if refs.isEmpty then some refs
  else
    let new := (computeRoots E F L x i).filter fun r =>
      !(Tol.equal (tolOf E L) r (sideAt L.box 0 L.dir) || Tol.equal (tolOf E L) r (sideAt L.box 1 L.dir))
    if new.length = refs.length then some new
    else if refs.length < new.length then some refs
    else
      let new := endRoots E F L i ref.point x refs new
      if new.length = refs.length then some new else some refs

/-- `compute_similar_intervals`; `S`: the template parameter of the object. impl_reparam_general.cpp:513-549. -/
def computeSimilar (E : Env K) (F : Fn K) (S : Bool) (L : Level K) (ref : Intervals K) (x : List K) : Option (Intervals K) :=
  if ref.roots.length = 2 then some (if S then ⟨x, [], []⟩ else ref)
  else do
    let rs ← (List.range L.count).mapM fun (i : Nat) => (similarRoots E F L ref i x).map fun l => l.map fun r => (r, (i : Int))
    let roots := if S then rs.flatten else rs.flatten ++ [(sideAt L.box 0 L.dir, -1), (sideAt L.box 1 L.dir, -1)]
    if S = true ∨ roots.length = ref.roots.length then
      some ⟨x, adjust (tolOf E L) (sideAt L.box 0 L.dir) (sideAt L.box 1 L.dir) (E.srt roots), if S then [] else ref.active⟩
    else none

/-- `compute_intervals`. impl_reparam_general.cpp:559-569. -/
def computeIntervals (E : Env K) (F : Fn K) (S : Bool) (L : Level K) (M : RefMap K) (x : List K) (tid : List Nat) :
    Option (Intervals K) := do
  let ref ← M.lookup tid
  if L.dim = 1 then some ref else computeSimilar E F S L ref x

/-- `fix_dir`: the last direction that is not free. impl_reparam_general.cpp:624-629. -/
def fixDir (free : List Bool) : Nat := ((List.range free.length).filter fun d => !free.getD d false).getLastD 0

/-- The call of `insert_point_reparam` made by an object with `T == true` in the volume case: points of a face have the index and the
coordinate of the restricted direction removed or fixed. impl_reparam_general.cpp:622-644. -/
def topEvent (E : Env K) (L : Level K) (x : List K) (cell pt : List Nat) : Event K :=
  if L.dim < L.free.length then ⟨setBounds L 0 E.psi0 x, cell, pt.eraseIdx (fixDir L.free)⟩ else ⟨x, cell, pt⟩

/-- `process` (after the call of `compute_ref_intervals` when `dim == 1`), as the list of the calls of `insert_point_reparam` it makes.
impl_reparam_general.cpp:588-649. -/
def process (E : Env K) (F : Fn K) : List (Level K) → List (RefMap K) → List K → List Nat → List Nat → Option (List (Event K))
  | L :: Ls, M :: Ms, x, tid, pt => do
    let iv ← computeIntervals E F (Ls.isEmpty && E.S) L M x tid
    if Ls.isEmpty && E.S then some (iv.roots.map fun r => ⟨x.set L.dir r.1, tid.set L.dir 0, pt.eraseIdx L.dir⟩)
    else collect (List.range iv.active.length) fun i =>
      if iv.active.getD i false then do
        let x0 ← iv.roots[i]?
        let x1 ← iv.roots[i + 1]?
        collect (List.range E.order) fun j =>
          let y := x.set L.dir (x0.1 + (x1.1 - x0.1) * node E j)
          if Ls.isEmpty then some [topEvent E L y (tid.set L.dir i) (pt.set L.dir j)]
          else process E F Ls Ms y (tid.set L.dir i) (pt.set L.dir j)
      else some []
  | _, _, _, _, _ => none

/-- What a constructor does to the mesh and to `cells_indices_map_`: a call of `insert_point_reparam`; a map that is cleared, or the map
of a new object; a call of `add_full_cell`. -/
inductive Action (K : Type) where
  | ins (e : Event K)
  | clear
  | full (box : Box K)

/-- The constructor for `dim == 1`: `process` at the origin. impl_reparam_general.cpp:666-674, 274-276. -/
def lineActions (E : Env K) (F : Fn K) (range : Nat) (Ls : List (Level K)) : Option (List (Action K)) := do
  let Ms ← computeRef E F Ls (List.replicate range 0) (List.replicate range 0) (Ls.map fun _ => [])
  let evs ← process E F Ls Ms (List.replicate range 0) (List.replicate range 0) (List.replicate range 0)
  some (evs.map .ins)

/-- Values in the free directions (in order), the value `u` in the other ones. impl_reparam_general.cpp:380-388. -/
def spread {α : Type} (free : List Bool) (u : α) : List α → List α
  | l => match free, l with
    | [], _ => []
    | true :: fs, a :: as => a :: spread fs u as
    | true :: fs, [] => u :: spread fs u []
    | false :: fs, as => u :: spread fs u as

/-- `tensor_product_reparam_base`; `Ps`: the higher levels. impl_reparam_general.cpp:365-391. -/
def baseActions (E : Env K) (F : Fn K) (free : List Bool) (dim : Nat) (box : Box K) (Ps : List (Level K)) : Option (List (Action K)) := do
  let zero := List.replicate free.length 0
  let mid := (List.range free.length).map fun d => if free.getD d false then midAt box d else E.u
  let Ms ← computeRef E F Ps mid zero (Ps.map fun _ => [])
  let evs ← collect (visitAll (Range.ofUpper (List.replicate dim E.order))) fun t =>
    let idx := spread free 0 t
    process E F Ps Ms ((List.range free.length).map fun d => if free.getD d false then interpolate E box (idx.getD d 0) d else E.u) zero idx
  some (evs.map .ins)

/-- `tensor_product_reparam_full`: here `fix_dir` is the first direction that is not free. impl_reparam_general.cpp:329-362. -/
def fullActions (E : Env K) (free : List Bool) (dim : Nat) (psi : List Psi) (box : Box K) : Option (List (Action K)) :=
  if dim = free.length then some [.full box]
  else
    match (List.range free.length).find? fun d => !free.getD d false with
    | none => none
    | some fix =>
      some ((visitAll (Range.ofUpper (List.replicate dim E.order))).map fun t =>
        .ins ⟨(List.range free.length).map fun d =>
            if d = fix then sideAt box ((psi.getD 0 E.psi0).sides.getD d 0) d
            else interpolate E box ((t.insertIdx fix 0).getD d 0) d,
          List.replicate free.length 0, t⟩)

/-- The whole box: `tensor_product_reparam_full` or `tensor_product_reparam_base`, nothing for level sets.
impl_reparam_general.cpp:693-702, 789-799. -/
def wholeActions (E : Env K) (F : Fn K) (free : List Bool) (dim : Nat) (psi : List Psi) (box : Box K) (Ps : List (Level K)) :
    Option (List (Action K)) :=
  if Ps.isEmpty then if E.S then some [] else fullActions E free dim psi box
  else baseActions E F free dim box Ps

/-- The height direction: the free direction with the greatest `|alpha| * extent` among those where the gradient is bounded away from
zero. impl_reparam_general.cpp:708-725. -/
def heightDir (F : Fn K) (free : List Bool) (box : Box K) (p : Psi) : Option Nat :=
  let g := F.grad (psiBox free box p)
  ((List.range box.length).foldl (fun (s : K × Option Nat) d =>
    let gd := g.getD d ⟨0, 0⟩
    if free.getD d false && decide (1001 / 1000 * gd.dev < |gd.alpha|) && decide (s.1 < |gd.alpha| * extent box d) then
      (|gd.alpha| * extent box d, some d)
    else s) (0, none)).2

/-- Is the derivative in the height direction bounded away from zero for psi `i`? impl_reparam_general.cpp:731-740. -/
def dirOk (F : Fn K) (free : List Bool) (box : Box K) (k : Nat) (p : Psi) : Bool :=
  ((F.grad (psiBox free box p)).getD k ⟨0, 0⟩).uniform

/-- The free direction with the greatest extent. impl_reparam_general.cpp:744-755. -/
def splitDir (free : List Bool) (box : Box K) : Option Nat :=
  ((List.range box.length).foldl (fun (s : K × Option Nat) d =>
    if free.getD d false && decide (s.1 < extent box d) then (extent box d, some d) else s) (0, none)).2

/-- The halves of a box. impl_reparam_general.cpp:756-774. -/
def lowerHalf (box : Box K) (d : Nat) : Box K := box.set d ((box.getD d (0, 0)).1, midAt box d)
def upperHalf (box : Box K) (d : Nat) : Box K := box.set d (midAt box d, (box.getD d (0, 0)).2)

/-- The test at the centre of the box when the subdivision is too deep: all the entries of `psi_` are checked, not only the first
`psi_count_` ones. impl_reparam_general.cpp:779-788. -/
def centreOk (F : Fn K) (free : List Bool) (psi : List Psi) (d : Psi) (n : Nat) (box : Box K) : Bool :=
  (List.range n).all fun j =>
    let x := (List.range box.length).map fun k => if free.getD k false then midAt box k else sideAt box ((psi.getD j d).sides.getD k 0) k
    if 0 ≤ F.val x then decide (0 ≤ (psi.getD j d).sign) else decide ((psi.getD j d).sign ≤ 0)

/-- `PsiCode(psi, dir, side, sign)`: the code with one more restricted direction. -/
def restrict (p : Psi) (dir side : Nat) (sign : Int) : Psi := ⟨p.sides.set dir side, sign⟩

/-- The restricted functions; the signs are determined with the gradient `up` of the first psi. impl_reparam_general.cpp:804-811. -/
def newPsis (F : Fn K) (S up : Bool) (k : Nat) (psi : List Psi) : List Psi :=
  psi.flatMap fun p => [restrict p k 0 (F.signs S up p.sign).1, restrict p k 1 (F.signs S up p.sign).2]

/-- The constructor for `dim > 1`; `rest` is the number of subdivisions left, `lower` the constructor for `dim - 1`, `Ps` the higher
levels. Between the halves the map of the highest object is cleared (if this is the highest object, the second half is an object with
its own map). impl_reparam_general.cpp:676-822. -/
def ctorBox (E : Env K) (F : Fn K) (dim : Nat)
    (lower : List Bool → List Psi → Nat → Box K → List (Level K) → Option (List (Action K)))
    (free : List Bool) (Ps : List (Level K)) (rest : Nat) (psi : List Psi) (count : Nat) (box : Box K) : Option (List (Action K)) :=
  match prune F free box E.psi0 count 0 psi with
  | none => some []
  | some (psi, count) =>
    if count = 0 then wholeActions E F free dim psi box Ps
    else
      match (heightDir F free box (psi.getD 0 E.psi0)).filter fun k => (psi.take count).all (dirOk F free box k) with
      | some k =>
        if 2 * count ≤ nFacets free.length then
          let up := decide (0 < ((F.grad (psiBox free box (psi.getD 0 E.psi0))).getD k ⟨0, 0⟩).alpha)
          let new := newPsis F (Ps.isEmpty && E.S) up k (psi.take count)
          lower (free.set k false) (new ++ List.replicate (nFacets free.length - 2 * count) E.psi0) (2 * count) box
            (⟨dim, free, psi, count, box, k⟩ :: Ps)
        else none
      | none =>
        match rest with
        | rest + 1 => do
          let d ← splitDir free box
          let a1 ← ctorBox E F dim lower free Ps rest psi count (lowerHalf box d)
          let a2 ← ctorBox E F dim lower free Ps rest psi count (upperHalf box d)
          some (a1 ++ [Action.clear] ++ a2)
        | 0 => if centreOk F free psi E.psi0 (nFacets free.length) box then wholeActions E F free dim psi box Ps else some []

/-- `dir_k_` for `dim == 1`: the last free direction. impl_reparam_general.cpp:667-671. -/
def lineDir (free : List Bool) : Nat := ((List.range free.length).filter fun d => free.getD d false).getLastD 0

/-- The constructor. impl_reparam_general.cpp:653-822, 913-927. -/
def ctor (E : Env K) (F : Fn K) : Nat → List Bool → List Psi → Nat → Box K → List (Level K) → Option (List (Action K))
  | 0 => fun _ _ _ _ _ => some []
  | 1 => fun free psi count box Ps => lineActions E F free.length (⟨1, free, psi, count, box, lineDir free⟩ :: Ps)
  | dim + 2 => fun free psi count box Ps => ctorBox E F (dim + 2) (ctor E F (dim + 1)) free Ps maxSubdivs psi count box

/-- `insert_point_reparam`. impl_reparam_general.cpp:308-326. -/
def insertAt (st : Mesh K × List (List Nat × Nat)) (e : Event K) : Option (Mesh K × List (List Nat × Nat)) := do
  let c := cellId st e.cell
  let id ← flat e.pt (List.replicate c.1.dim c.1.order)
  let m ← insertCellPoint c.1 e.point c.2.2 id
  some (m, c.2.1)

/-- The effect of an action. -/
def act (cheb : Nat → Nat → K) (st : Mesh K × List (List Nat × Nat)) : Action K → Option (Mesh K × List (List Nat × Nat))
  | .ins e => insertAt st e
  | .clear => some (st.1, [])
  | .full box => (addFullCell cheb st.1 box false).map fun m => (m, st.2)

/-- The effect of the constructor of the highest object. -/
def runCtor (E : Env K) (F : Fn K) (m : Mesh K) (dim : Nat) (free : List Bool) (p : Psi) (domain : Box K) : Option (Mesh K) := do
  let acts ← ctor { E with order := m.order } F dim free (p :: List.replicate (nFacets m.range - 1) E.psi0) 1 domain []
  let st ← acts.foldlM (act E.cheb) (m, [])
  some st.1

/-- `reparameterize`; `outer`: the normal used by `orient_levelset_cells_positively`; `wtol`: `1.0e4 * eps`.
impl_reparam_general.cpp:843-870. -/
def reparameterize (norm : List K → K) (E : Env K) (F : Fn K) (outer : List K → List K) (wtol : K) (m : Mesh K) (domain : Box K) :
    Option (Mesh K) := do
  let n0 ← numCells m
  let m ← runCtor E F m m.range (List.replicate m.range true) ⟨List.replicate m.range 0, -1⟩ domain
  let n1 ← numCells m
  let cells := List.range' n0 (n1 - n0)
  let m ← orientNew E.cheb norm E.S outer m cells
  generateWirebasket m [F.val] cells domain wtol

/-- `reparameterize_facet` (with `S == false`). impl_reparam_general.cpp:872-908. -/
def reparameterizeFacet (norm : List K → K) (E : Env K) (F : Fn K) (wtol : K) (m : Mesh K) (domain : Box K) (facet : Nat) :
    Option (Mesh K) := do
  let dir ← Ids.facetConstantDir m.range facet
  let side ← Ids.facetSide m.range facet
  let n0 ← numCells m
  let m ← runCtor { E with S := false } F m (m.range - 1) ((List.replicate m.range true).set dir false)
    ⟨(List.replicate m.range 0).set dir side, -1⟩ domain
  let n1 ← numCells m
  let cells := List.range' n0 (n1 - n0)
  let m ← orientFacet E.cheb norm m facet cells
  generateWirebasket m [F.val] cells domain wtol

end Qugar.General
