import Verif.Model.Tensor
import Verif.Model.Roots
import Verif.Model.BBox
import Mathlib.Algebra.Module.Defs
import Mathlib.Algebra.Algebra.Defs
import Mathlib.Data.Nat.Choose.Basic
/-
Model of the tensor-product polynomials: cpp/qugar/polynomial_tp.cpp, monomials_tp.cpp, bezier_tp.cpp,
bezier_tp_utils.cpp, bezier_tp_utils_composition.cpp.

`real` is a field `K` (rounding is not modelled); coefficients and values are elements of a `K`-module `V` (numbers for
`range == 1`, points otherwise; products of polynomials need a multiplication on `V`, componentwise for points). All the
functions are generic in the dimension (the classes are instantiated for 1..3). `alg::Binomial::row(n)[k]` (external, a
table) is the binomial coefficient.
-/
namespace Qugar.Poly

/-- `PolynomialTP`: order and coefficients. polynomial_tp.cpp:34-62. -/
structure P (V : Type) where
  order : List Nat
  coefs : List V
deriving Repr, DecidableEq

variable {K V : Type} [Field K] [AddCommGroup V] [Module K V]

/-- `for (const auto &tid : range)`: the indices visited. -/
def visitAll (r : Range) : List (List Nat) := (r.visit (r.size + 1)).getD []

/-- `at(coefs, tid.flat(order))`. -/
def coefAt (p : P V) (tid : List Nat) : V :=
  match flat tid p.order with
  | some k => p.coefs.getD k 0
  | none => 0

/-- Loop `for (auto &beta_i : beta) beta_i = f(coefs)`: `n` calls of `f`, each advancing the iterator `coefs`. -/
def readBlocks {W : Type} (f : List V → W × List V) : Nat → List V → List W × List V
  | 0, c => ([], c)
  | n + 1, c => let (b, c') := f c; let (bs, c'') := readBlocks f n c'; (b :: bs, c'')

/-! ### Monomials -/

/-- Last loop of `MonomialsTP::horner`. monomials_tp.cpp:249-255. -/
def hornerLoop (x : K) (beta : List V) : V :=
  match beta.reverse with
  | [] => 0
  | b :: bs => bs.foldl (fun val b => x • val + b) b

/-- `MonomialsTP::horner`. monomials_tp.cpp:228-256. The directions are given last first as pairs (order, coordinate);
the case `dim == 1` of the code, which copies `order` coefficients, is the recursion with the read of one coefficient as
base case. -/
def horner : List (Nat × K) → List V → V × List V
  | [], c => (c.headD 0, c.tail)
  | (n, x) :: ds, c => let (beta, c') := readBlocks (horner ds) n c; (hornerLoop x beta, c')

/-- `MonomialsTP::operator()`. monomials_tp.cpp:112-118. -/
def Mon.eval (p : P V) (x : List K) : V := (horner (p.order.zip x).reverse p.coefs).1

/-- Componentwise `x * v + w`. -/
def axpy (x : K) (v w : List V) : List V := List.zipWith (fun a b => x • a + b) v w

/-- Last loop of `MonomialsTP::horner_der`. monomials_tp.cpp:281-291. -/
def hornerDerLoop (n : Nat) (x : K) (beta : List (List V)) : List V :=
  let last := beta.getLastD []
  let vd := (List.range' 1 (n - 2)).reverse.foldl (fun (vd : List V × V) i =>
      (axpy x vd.1 (beta.getD i []), x • vd.2 + (i : K) • (beta.getD i []).headD 0))
    (last, ((n - 1 : Nat) : K) • last.headD 0)
  axpy x vd.1 (beta.headD []) ++ [vd.2]

/-- `MonomialsTP::horner_der`: the value followed by the partial derivatives. monomials_tp.cpp:258-292. -/
def hornerDer : List (Nat × K) → List V → List V × List V
  | [], c => ([c.headD 0], c.tail)
  | (n, x) :: ds, c => let (beta, c') := readBlocks (hornerDer ds) n c; (hornerDerLoop n x beta, c')

/-- `MonomialsTP::grad`. monomials_tp.cpp:120-127. -/
def Mon.grad (p : P V) (x : List K) : List V := (hornerDer (p.order.zip x).reverse p.coefs).1.tail

/-- Inner loop of `evaluate_monomial_basis`: the falling factorial `i (i-1) ... (i-der+1)`. -/
def fallingLoop (i der : Nat) (v : K) : K := (List.range der).foldl (fun val j => val * ((i - j : Nat) : K)) v

/-- `evaluate_monomial_basis` (on a zeroed vector). monomials_tp.cpp:49-65. -/
def monomialValues (x : K) (order der : Nat) : List K :=
  ((List.range' der (order - der)).foldl (fun (s : List K × K) i =>
    (s.1.set i (fallingLoop i der s.2), s.2 * x)) (List.replicate order 0, 1)).1

/-- The loops of `hessian_`: for each pair `i <= j` of directions the sum over all the coefficients of the products of the
basis values with `ders` derivatives. `basis x n der` are the 1D values. monomials_tp.cpp:129-170,
bezier_tp.cpp:95-136. -/
def hessianSum (basis : K → Nat → Nat → List K) (p : P V) (x : List K) (i j : Nat) : V :=
  let ders := (List.range p.order.length).map fun d => (if d = i then 1 else 0) + (if d = j then 1 else 0)
  ((visitAll (Range.ofUpper p.order)).zip p.coefs).foldl (fun acc tc =>
    acc + (List.range p.order.length).foldl (fun v d =>
      (basis (x.getD d 0) (p.order.getD d 0) (ders.getD d 0)).getD (tc.1.getD d 0) 0 • v) tc.2) 0

/-- The upper triangle, row by row. -/
def hessianLoop (basis : K → Nat → Nat → List K) (p : P V) (x : List K) : List V :=
  (List.range p.order.length).flatMap fun i => (List.range' i (p.order.length - i)).map fun j => hessianSum basis p x i j

/-- `MonomialsTP::hessian`. monomials_tp.cpp:129-170. -/
def Mon.hessian (p : P V) (x : List K) : List V := hessianLoop monomialValues p x

variable (K) in
/-- `MonomialsTP::create_derivative`. monomials_tp.cpp:84-109. `none`: the assertion on `dir` fails. -/
def Mon.derivative (p : P V) (dir : Nat) : Option (P V) :=
  if dir < p.order.length then
    if p.order.getD dir 0 - 1 = 0 then some p
    else
      let newOrder := p.order.modify dir (· - 1)
      some ⟨newOrder, (visitAll (Range.ofUpper newOrder)).foldl (fun c tid =>
        let tid' := tid.modify dir (· + 1)
        match flat tid newOrder with
        | some k => c.set k (((tid'.getD dir 0 : Nat) : K) • coefAt p tid')
        | none => c) (List.replicate (tsize newOrder) 0)⟩
  else none

/-- `extract_facet` of monomials and of Beziers (same code). monomials_tp.cpp:199-226, bezier_tp.cpp:350-376.
`none`: the assertion on the facet id fails. -/
def extractFacet (p : P V) (facet : Nat) : Option (P V) := do
  let dir ← Ids.facetConstantDir p.order.length facet
  let side ← Ids.facetSide p.order.length facet
  let r : Range := if side = 0 then ⟨p.order.map fun _ => 0, p.order.set dir 1⟩
    else ⟨(p.order.map fun _ => 0).set dir (p.order.getD dir 0 - 1), p.order⟩
  some ⟨p.order.eraseIdx dir, (visitAll r).map fun tid => coefAt p tid⟩

/-- `coef /= binomial` over the directions. monomials_tp.cpp:318-320. -/
def divBinomials (order tid : List Nat) (v : V) (K : Type) [Field K] [Module K V] : V :=
  (order.zip tid).foldl (fun v nt => (((nt.1 - 1).choose nt.2 : Nat) : K)⁻¹ • v) v

/-- `bzr_coef *= binomial` over the directions. monomials_tp.cpp:324-326. -/
def mulBinomials (tid2 tid : List Nat) (v : V) (K : Type) [Field K] [Module K V] : V :=
  (tid2.zip tid).foldl (fun v nt => ((nt.1.choose nt.2 : Nat) : K) • v) v

variable (K) in
/-- `MonomialsTP::transform_coefs_to_Bezier`. monomials_tp.cpp:294-331. -/
def toBezierCoefs (p : P V) : List V :=
  ((visitAll (Range.ofUpper p.order)).zip p.coefs).foldl (fun bz tc =>
    let coef := divBinomials p.order tc.1 tc.2 K
    (visitAll ⟨tc.1, p.order⟩).foldl (fun bz tid2 =>
      match flat tid2 p.order with
      | some k => bz.modify k (· + mulBinomials tid2 tc.1 coef K)
      | none => bz) bz) (List.replicate p.coefs.length 0)

variable (K) in
/-- `BezierTP(const MonomialsTP &)`. bezier_tp.cpp:67-71. -/
def ofMonomials (p : P V) : P V := ⟨p.order, toBezierCoefs K p⟩

/-! ### Beziers -/

/-- Inner loop of de Casteljau: `m` steps with the iterator `beta_k`. bezier_tp.cpp:188-191. -/
def casteljauStep (x : K) : Nat → List V → List V
  | m + 1, a :: b :: bs => (a + x • (b - a)) :: casteljauStep x m (b :: bs)
  | _, bs => bs

/-- Loop of de Casteljau. bezier_tp.cpp:186-194. -/
def casteljauLoop (x : K) (n : Nat) (beta : List V) : V :=
  ((List.range' 1 (n - 1)).foldl (fun b j => casteljauStep x (n - j) b) beta).headD 0

/-- `BezierTP::casteljau`. bezier_tp.cpp:165-195. See `horner` for the representation. -/
def casteljau : List (Nat × K) → List V → V × List V
  | [], c => (c.headD 0, c.tail)
  | (n, x) :: ds, c => let (beta, c') := readBlocks (casteljau ds) n c; (casteljauLoop x n beta, c')

/-- `BezierTP::operator()`. bezier_tp.cpp:78-84. -/
def Bez.eval (p : P V) (x : List K) : V := (casteljau (p.order.zip x).reverse p.coefs).1

variable (K) in
/-- The coefficients `gamma` of the derivative. bezier_tp.cpp:226-240; `b` are the components 0 of `beta`. -/
def gammaInit (n : Nat) (b : List V) : List V :=
  let deg := n - 1
  let z : List V := List.replicate n 0
  let g := z.set 0 (-(deg : K) • b.getD 0 0)
  let g := g.set 1 (-b.getD 0 0)
  let g := (List.range' 1 (deg - 1)).foldl (fun g i =>
    let bi := b.getD i 0
    let g := g.modify (i - 1) (· + ((n - i : Nat) : K) • bi)
    let g := g.modify i (· + ((2 * i : Nat) - (deg : K)) • bi)
    g.modify (i + 1) (· - ((i + 1 : Nat) : K) • bi)) g
  let g := g.modify (deg - 1) (· + b.getD deg 0)
  g.modify deg (· + (deg : K) • b.getD deg 0)

/-- Inner loop on the vectors `beta` (value and derivatives in the previous directions). -/
def casteljauStepV (x : K) : Nat → List (List V) → List (List V)
  | m + 1, a :: b :: bs => List.zipWith (fun u v => u + x • (v - u)) a b :: casteljauStepV x m (b :: bs)
  | _, bs => bs

/-- `BezierTP::casteljau_der`, after the recursive calls. bezier_tp.cpp:224-254. -/
def casteljauDerLoop (n : Nat) (x : K) (beta : List (List V)) : List V :=
  if 1 < n then
    let gamma := gammaInit K n (beta.map (·.headD 0))
    let bg := (List.range' 1 (n - 1)).foldl (fun (bg : List (List V) × List V) j =>
      (casteljauStepV x (n - j) bg.1, casteljauStep x (n - j) bg.2)) (beta, gamma)
    bg.1.headD [] ++ [bg.2.headD 0]
  else beta.headD [] ++ [0]

/-- `BezierTP::casteljau_der`: the value followed by the partial derivatives. bezier_tp.cpp:198-255. -/
def casteljauDer : List (Nat × K) → List V → List V × List V
  | [], c => ([c.headD 0], c.tail)
  | (n, x) :: ds, c => let (beta, c') := readBlocks (casteljauDer ds) n c; (casteljauDerLoop n x beta, c')

/-- `BezierTP::grad`. bezier_tp.cpp:86-93. -/
def Bez.grad (p : P V) (x : List K) : List V := (casteljauDer (p.order.zip x).reverse p.coefs).1.tail

/-- `evaluate_Bernstein_value`: overwrites the first `order` entries. bezier_tp_utils.cpp:268-287. -/
def bernsteinValue (x : K) (order : Nat) (values : List K) : List K :=
  let s1 := (List.range order).foldl (fun (s : List K × K) i =>
    (s.1.set i (s.2 * (((order - 1).choose i : Nat) : K)), s.2 * x)) (values, 1)
  ((List.range order).foldl (fun (s : List K × K) i =>
    (s.1.modify (order - 1 - i) (· * s.2), s.2 * (1 - x))) (s1.1, 1)).1

/-- `evaluate_Bernstein`. bezier_tp_utils.cpp:290-318. -/
def bernsteinDer (x : K) : (order der : Nat) → List K → List K
  | order, 0, values => bernsteinValue x order values
  | order, der + 1, values =>
    if order ≤ der + 1 then List.replicate order 0
    else
      let v := bernsteinDer x (order - 1) der values
      let deg := order - 1
      let v := v.set deg ((deg : K) * v.getD (deg - 1) 0)
      let v := (List.range' 1 (deg - 1)).reverse.foldl (fun v i =>
        v.set i ((deg : K) * (v.getD (i - 1) 0 - v.getD i 0))) v
      v.modify 0 (· * -(deg : K))

/-- The 1D values used by `BezierTP::hessian_`: a zeroed vector of length `order` is passed. -/
def bernsteinValues (x : K) (order der : Nat) : List K := bernsteinDer x order der (List.replicate order 0)

/-- `BezierTP::hessian`. bezier_tp.cpp:95-136. -/
def Bez.hessian (p : P V) (x : List K) : List V := hessianLoop bernsteinValues p x

/-! ### Arithmetic of Beziers -/

section Arith
variable {A : Type} [CommRing A] [Algebra K A]

variable (K) in
/-- `compute_aux_vector`: coefficients times binomials. bezier_tp_utils.cpp:52-60, 107-125, 188-208. -/
def auxVector (p : P A) : List A :=
  List.zipWith (fun tid c => mulBinomials (p.order.map (· - 1)) tid c K) (visitAll (Range.ofUpper p.order)) p.coefs

/-- Position in `new_coefs` where the product of the coefficients `(i,j,k)` of the first and `(l,m,n)` of the second factor
is added, in the overloads for dimensions 1, 2 and 3: the iterator starts at the offset of line 81, 154 or 243 and is
incremented `l` times. -/
def mulPos : (order ijk lmn : List Nat) → Option Nat
  | [_], [i], [l] => some (i + l)
  | [o0, _], [i, j], [l, m] => some ((j + m) * o0 + i + l)
  | [o0, o1, _], [i, j, k], [l, m, n] => some ((k + n) * o0 * o1 + (j + m) * o0 + i + l)
  | _, _, _ => none

variable (K) in
/-- `product`, the three overloads for dimensions 1, 2, 3 (nested loops over the indices of both factors, direction 0
innermost, which is the order of `visitAll`). bezier_tp_utils.cpp:44-95, 97-172, 174-265. -/
def mul (l r : P A) : P A :=
  let order := List.zipWith (fun a b => (a - 1) + (b - 1) + 1) l.order r.order
  let al := auxVector K l
  let ar := auxVector K r
  let c := ((visitAll (Range.ofUpper l.order)).zip al).foldl (fun c ia =>
    ((visitAll (Range.ofUpper r.order)).zip ar).foldl (fun c jb =>
      match mulPos order ia.1 jb.1 with
      | some k => c.modify k (· + ia.2 * jb.2)
      | none => c) c) (List.replicate (tsize order) 0)
  ⟨order, List.zipWith (fun tid v => divBinomials order tid v K) (visitAll (Range.ofUpper order)) c⟩

variable (K) in
/-- `raise_order`. bezier_tp.cpp:378-394. `none`: the assertion fails (lower order requested). -/
def raiseOrder (p : P A) (newOrder : List Nat) : Option (P A) :=
  if newOrder = p.order then some p
  else if (List.zipWith (fun n o => decide (o ≤ n)) newOrder p.order).all id then
    let diff := List.zipWith (fun n o => n - o + 1) newOrder p.order
    some (mul K p ⟨diff, List.replicate (tsize diff) 1⟩)
  else none

/-- Sum or difference of equal orders. bezier_tp.cpp:267-273, 307-313. -/
def zipCoefs (op : A → A → A) (l r : P A) : P A := ⟨l.order, List.zipWith op l.coefs r.coefs⟩

variable (K) in
/-- `operator+` (`op` is `+`) and `operator-` (`op` is `-`). bezier_tp.cpp:263-301, 303-341: the recursive call has
operands of equal orders and takes the first branch. -/
def addSub (op : A → A → A) (l r : P A) : Option (P A) :=
  if r.order = l.order then some (zipCoefs op l r)
  else
    let rhsHigher := (List.zipWith (fun a b => decide (b ≤ a)) r.order l.order).all id
    let lhsHigher := (List.zipWith (fun a b => decide (a ≤ b)) r.order l.order).all id
    let newOrder := List.zipWith max r.order l.order
    if rhsHigher then do some (zipCoefs op (← raiseOrder K l r.order) r)
    else if lhsHigher then do some (zipCoefs op l (← raiseOrder K r l.order))
    else do some (zipCoefs op (← raiseOrder K l newOrder) (← raiseOrder K r newOrder))

end Arith

/-- `coefs_linear_transform`. polynomial_tp.cpp:129-136. -/
def linearTransform (p : P V) (scale : K) (shift : V) : P V := ⟨p.order, p.coefs.map fun c => scale • c + shift⟩

variable (K) in
/-- `negate`. bezier_tp.cpp:396-401. -/
def negate (p : P V) : P V := linearTransform p (-(1 : K)) 0

/-- `transform_image` for `range == 1`. polynomial_tp.cpp:117-127. -/
def transformImage1 (p : P K) (old new : K × K) : P K :=
  ⟨p.order, p.coefs.map fun c => (c - old.1) * (new.2 - new.1) / (old.2 - old.1) + new.1⟩

/-- `transform_image` for points: `old_domain.scale_to_new_domain(new_domain, point)`. polynomial_tp.cpp:118-127. -/
def transformImage {m : Nat} (p : P (Fin m → K)) (old new : Fin m → K × K) : P (Fin m → K) :=
  ⟨p.order, p.coefs.map fun c k => (Box.scaleToNewDomain (List.ofFn old) (List.ofFn new) (List.ofFn c)).getD k 0⟩

/-! ### Composition -/

/-- `create_one_minus`. bezier_tp_utils_composition.cpp:59-64. -/
def oneMinus (p : P K) : P K := linearTransform p (-(1 : K)) 1

/-- `compute_powers`: powers 1 .. degree. bezier_tp_utils_composition.cpp:67-89. -/
def powers (p : P K) (order : Nat) : List (P K) :=
  (List.range' 1 (order - 2)).foldl (fun ps _ => ps ++ [mul K p (ps.getLastD p)]) [p]

/-- `compose_with_Bernstein_bases_1D`. bezier_tp_utils_composition.cpp:90-125. -/
def composeBernstein (p : P K) (order : Nat) : List (P K) :=
  if 1 < order then
    let p0 := powers p order
    let p1 := powers (oneMinus p) order
    let deg := order - 1
    [p1.getLastD p] ++ ((List.range' 1 (deg - 1)).map fun i =>
      linearTransform (mul K (p0.getD (i - 1) p) (p1.getD (deg - 1 - i) p)) ((deg.choose i : Nat) : K) 0) ++ [p0.getLastD p]
  else [⟨p.order.map fun _ => 1, [1]⟩]

/-- The products of the composed bases, in the order of the coefficients (one, two and three directions).
bezier_tp_utils_composition.cpp:168-190. -/
def basisProducts : List (List (P K)) → List (P K)
  | [bu] => bu
  | [bu, bv] => bv.flatMap fun v => bu.map fun u => mul K u v
  | [bu, bv, bw] => bw.flatMap fun w => bv.flatMap fun v => bu.map fun u => mul K u (mul K w v)
  | _ => []

/-- `extract_component`. bezier_tp_utils_composition.cpp:41-58. -/
def extractComponent {m : Nat} (p : P (Fin m → K)) (k : Fin m) : P K := ⟨p.order, p.coefs.map fun c => c k⟩

/-- `Bezier_composition`. bezier_tp_utils_composition.cpp:130-190. -/
def compose (l : P V) {m : Nat} (rhs : P (Fin m → K)) : P V :=
  let bases := List.ofFn fun k : Fin m => composeBernstein (extractComponent rhs k) (l.order.getD k 0)
  let order := (List.range rhs.order.length).map fun d =>
    bases.foldl (fun o b => o + ((b.headD ⟨[], []⟩).order.getD d 0 - 1)) 1
  ⟨order, ((basisProducts bases).zip l.coefs).foldl (fun comp bc =>
    List.zipWith (· + ·) comp (bc.1.coefs.map fun b => b • bc.2) ++ comp.drop bc.1.coefs.length)
    (List.replicate (tsize order) 0)⟩

end Qugar.Poly
