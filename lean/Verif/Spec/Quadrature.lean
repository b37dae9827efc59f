import Verif.Model.Quadrature
import Mathlib.Algebra.BigOperators.Group.List.Basic
/-
Specification vocabulary for quadrature rules: tensor-product rules, how the rules of several cells are stored one
after the other, and which rule belongs to a cell, a facet or an unfitted boundary.
-/
namespace Qugar.Spec
variable {K : Type} [Field K] [LinearOrder K]

/-- Tensor product of one-dimensional rules (lists of abscissa-weight pairs), one per direction; direction 0 is the
fastest. -/
def tensorRule (dirs : List (List (K × K))) : List (Node K) :=
  dirs.foldl (fun acc dir => dir.flatMap fun xw => acc.map fun pv => (pv.1 ++ [xw.1], pv.2 * xw.2)) [([], 1)]

/-- The one-dimensional rule with `n` points mapped to the interval `[a, b]`. -/
def mappedRule (q : QuadType K) (n : Nat) (iv : K × K) : List (K × K) :=
  (List.range n).map fun i => (iv.1 + q.abscissa n i * (iv.2 - iv.1), q.weight n i * (iv.2 - iv.1))

/-- The rule with `n` points per direction on the unit cube. -/
def unitRule (q : QuadType K) (dim n : Nat) : List (Node K) :=
  tensorRule (List.replicate dim ((List.range n).map fun i => (q.abscissa n i, q.weight n i)))

/-- The value that a rule assigns to a function. -/
def integral (points : List (List K)) (weights : List K) (F : List K → K) : K :=
  (List.zipWith (fun p w => w * F p) points weights).sum

/-- The function `p ↦ f_0(p_0) f_1(p_1) ...`. -/
def productFunction (fs : List (K → K)) (p : List K) : K := (List.zipWith (fun f x => f x) fs p).prod

/-- `blocks` stored one after the other in parallel vectors, with their sizes. -/
def Stored (blocks : List (List (Node K))) (nPts : List Int) (points : List (List K)) (weights : List K) : Prop :=
  nPts = blocks.map (fun b => (b.length : Int)) ∧
  points = (blocks.map fun b => b.map (·.1)).flatten ∧ weights = (blocks.map fun b => b.map (·.2)).flatten

/-- The elements of `l` whose position is not listed in `ids`, in order. -/
def keepOthers {α : Type} (ids : List Nat) (l : List α) : List α :=
  (l.zipIdx.filter fun x => decide (x.2 ∉ ids)).map (·.1)

/-- The rule of a cut cell in the unit cube: either the points given in the cell, mapped, or (polynomial functions) the
points of the unit cube, in reversed order of directions, that are inside. -/
def cutCellRule (o : QOracle K) (dom : List (K × K)) (n : Nat) : List (Node K) :=
  if o.isBezier then
    ((o.volBzr dom n).map fun x => (x.1.reverse, x.2)).filter fun x => decide (o.bzrVal dom x.1 < 0)
  else (o.volGen dom n).map fun x => (Box.scaleTo01 dom x.1, x.2 / Box.volume dom)

/-- `b` is the rule that the status of cell `c` prescribes. -/
def IsCellRule (t : QuadType K) (o : QOracle K) (g : Grid K) (d : Dom) (n c : Nat) (b : List (Node K)) : Prop :=
  (d.isCutCell c = some true ∧ ∃ dom, g.cellDomain c = some dom ∧ b = cutCellRule o dom n) ∨
  (d.isCutCell c = some false ∧ d.isFullCell c = some true ∧ b = unitRule t g.length n) ∨
  (d.isCutCell c = some false ∧ d.isFullCell c = some false ∧ b = [])

/-- The rule of the part of facet `f` inside the domain, before any removal, in the unit cube of the facet. -/
def cutFacetRule (o : QOracle K) (dom : List (K × K)) (f n : Nat) : List (Node K) :=
  if o.isBezier then
    ((o.facetBzr dom f n).map fun x => (x.1.reverse, x.2)).filter fun x => decide (o.bzrFacetVal dom f x.1 < 0)
  else (o.facetGen dom (f / 2) (f % 2) n).map fun x =>
    (Box.scaleTo01 (dom.eraseIdx (f / 2)) (x.1.eraseIdx (f / 2)), x.2 / Box.volume (dom.eraseIdx (f / 2)))

/-- The point of the cell that corresponds to the point `p` of the unit cube of facet `f`. -/
def facetPoint (dom : List (K × K)) (f : Nat) (p : List K) : List K :=
  Box.scaleFrom01 dom (p.insertIdx (f / 2) (if f % 2 = 0 then 0 else 1))

/-- The gradient of the function points out of the cell through facet `f`. -/
def PointsOut (o : QOracle K) (f : Nat) (x : List K) : Prop :=
  if f % 2 = 0 then (o.grad x).getD (f / 2) 0 < -o.tol else o.tol < (o.grad x).getD (f / 2) 0

instance (o : QOracle K) (f : Nat) (x : List K) : Decidable (PointsOut o f x) := by
  unfold PointsOut; infer_instance

/-- The points removed from the rule of a facet: points on the unfitted boundary (`internal`: the outward ones when
`remUnf`, the others always; only if the facet has an unfitted boundary at all), points off it when `remCut`. -/
def FacetPointRemoved (o : QOracle K) (dom : List (K × K)) (f : Nat) (hasUnf isCut remUnf remCut : Bool)
    (p : List K) : Prop :=
  if |o.val (facetPoint dom f p)| ≤ o.tol then
    hasUnf = true ∧ (PointsOut o f (facetPoint dom f p) → remUnf = true)
  else remCut = true ∧ isCut = true

instance (o : QOracle K) (dom : List (K × K)) (f : Nat) (a b c e : Bool) (p : List K) :
    Decidable (FacetPointRemoved o dom f a b c e p) := by
  unfold FacetPointRemoved; infer_instance

/-- `b` is the rule that the status of facet `f` of cell `c` prescribes. -/
def IsFacetRule (t : QuadType K) (o : QOracle K) (g : Grid K) (d : Dom) (n c f : Nat) (remUnf remCut : Bool)
    (b : List (Node K)) : Prop :=
  (d.isFullUnfFacet c f = some true ∧ b = if remUnf then [] else unitRule t (g.length - 1) n) ∨
  (d.isFullUnfFacet c f = some false ∧ d.isFullFacet c f = some true ∧ b = unitRule t (g.length - 1) n) ∨
  (d.isFullUnfFacet c f = some false ∧ d.isFullFacet c f = some false ∧
    ∃ isCut hasUnf, d.isCutFacet c f = some isCut ∧ d.hasUnfFacet c f = some hasUnf ∧
      (((isCut = true ∨ hasUnf = true) ∧ ∃ dom, g.cellDomain c = some dom ∧
        b = (cutFacetRule o dom f n).filter fun x =>
          !decide (FacetPointRemoved o dom f hasUnf isCut remUnf remCut x.1)) ∨
       (isCut = false ∧ hasUnf = false ∧ b = [])))

/-- `b` is the rule prescribed for facet `f` of cell `c` in an interior or exterior facet integral. -/
def IsIntegralFacetRule (t : QuadType K) (o : QOracle K) (g : Grid K) (d : Dom) (n : Nat) (kind : FacetIntegral)
    (c f : Nat) (b : List (Node K)) : Prop :=
  match kind with
  | .interior =>
    (g.onBoundary c f = some false ∧ IsFacetRule t o g d n c f true false b) ∨
    (g.onBoundary c f = some true ∧ b = [])
  | .exterior =>
    (g.onBoundary c f = some true ∧ IsFacetRule t o g d n c f false false b) ∨
    (g.onBoundary c f = some false ∧ d.hasUnfFacet c f = some true ∧ IsFacetRule t o g d n c f false true b) ∨
    (g.onBoundary c f = some false ∧ d.hasUnfFacet c f = some false ∧ b = [])

/-- A quadrature point with its weight and normal. -/
abbrev UNode (K : Type) := List K × K × List K

/-- `blocks` stored one after the other in parallel vectors, with their sizes. -/
def UStored (blocks : List (List (UNode K))) (nPts : List Int) (points : List (List K)) (weights : List K)
    (normals : List (List K)) : Prop :=
  nPts = blocks.map (fun b => (b.length : Int)) ∧ points = (blocks.map fun b => b.map (·.1)).flatten ∧
  weights = (blocks.map fun b => b.map (·.2.1)).flatten ∧ normals = (blocks.map fun b => b.map (·.2.2)).flatten

/-- The rule of the unfitted boundary inside a cut cell, in the unit cube. -/
def cutSurfaceRule (o : QOracle K) (dom : List (K × K)) (n : Nat) : List (UNode K) :=
  if o.isBezier then (o.surfBzr dom n).map fun x =>
    (x.1.reverse, x.2, ((o.bzrGrad dom x.1).map (· / o.norm (o.bzrGrad dom x.1))).reverse)
  else (o.surfGen dom n).map fun x =>
    let m := List.zipWith (· * ·) ((o.grad x.1).map (· / o.norm (o.grad x.1))) (Box.lengths dom)
    (Box.scaleTo01 dom x.1, x.2 * o.norm m / Box.volume dom, m.map (· / o.norm m))

/-- A point of an unfitted boundary rule that lies on facet `f`, with normal aligned with the facet normal, on the zero
level set. -/
def OnFacet (o : QOracle K) (dom : List (K × K)) (f : Nat) (x : UNode K) : Prop :=
  |x.1.getD (f / 2) 0 - (if f % 2 = 0 then 0 else 1)| ≤ o.tol ∧ 1 - |x.2.2.getD (f / 2) 0| ≤ o.tol ∧
  |o.val (Box.scaleFrom01 dom x.1)| ≤ o.tol

instance (o : QOracle K) (dom : List (K × K)) (f : Nat) (x : UNode K) : Decidable (OnFacet o dom f x) := by
  unfold OnFacet; infer_instance

/-- `b` is the rule of the unfitted boundary of cell `c`: the rule inside the cell, without the points that lie on
facets with unfitted boundary, followed (if asked for) by the rules of these facets with the outer facet normal. -/
def IsUnfRule (t : QuadType K) (o : QOracle K) (g : Grid K) (d : Dom) (n : Nat) (incl exclExt : Bool) (c : Nat)
    (b : List (UNode K)) : Prop :=
  (d.isCellWithUnf c = some false ∧ b = []) ∨
  (d.isCellWithUnf c = some true ∧ ∃ inner : List (UNode K), ∃ facets : List (List (UNode K)),
    b = inner ++ facets.flatten ∧
    ((d.isCutCell c = some false ∧ inner = []) ∨
     (d.isCutCell c = some true ∧ ∃ dom, g.cellDomain c = some dom ∧
      inner = (cutSurfaceRule o dom n).filter fun x =>
        decide (∀ f < g.length * 2, d.hasUnfFacet c f = some true → ¬ OnFacet o dom f x))) ∧
    facets.length = g.length * 2 ∧
    ∀ f (hf : f < facets.length),
      if incl = true ∧ d.hasUnfFacet c f = some true ∧ (exclExt = true → g.onBoundary c f = some false) then
        ∃ r, IsFacetRule t o g d n c f false true r ∧
          facets[f] = r.map fun x => (x.1.insertIdx (f / 2) (if f % 2 = 0 then 0 else 1), x.2,
            (List.replicate g.length (0 : K)).set (f / 2) (if f % 2 = 0 then -1 else 1))
      else facets[f] = [])

end Qugar.Spec
