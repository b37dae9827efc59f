import Mathlib.Order.Basic
import Mathlib.Data.List.Sort
import Mathlib.Algebra.Order.Group.Unbundled.Int
/-
Model of python/qugar/dolfinx/forms.py (the modification of the integrals over the whole boundary, the subdomains given to DOLFINx and
lists of forms), quadrature_data.py and the subdomains of integral_data.py.

The objects of UFL are records; the dictionaries of metadata of different integrals are taken to be different objects.
-/
namespace Qugar.Py.Forms

/-- Types of integrals. -/
inductive Kind where
  | cell
  | exterior
  | interior
deriving DecidableEq

/-- `subdomain_id()`: "everywhere", an integer or a tuple of both (`none` is "everywhere"). -/
inductive Sid where
  | everywhere
  | num (n : Int)
  | tuple (ids : List (Option Int))
deriving DecidableEq

/-- `subdomain_data()`: nothing, an object (tags), or a subdomain id (see `restored`). -/
inductive Data where
  | nothing
  | tags (object : Nat)
  | sid (s : Sid)
deriving DecidableEq

/-- An integral of a form: `rest` is the integrand, the domain and the rest of the metadata; `flag` the key `ext_facet_everywhere`. -/
structure Integral where
  kind : Kind
  sid : Sid
  data : Data
  flag : Bool
  rest : Nat
deriving DecidableEq

/-- The integral is to be modified. forms.py:161-164. -/
def isEverywhere (i : Integral) : Bool := i.kind = .exterior && (i.sid = .everywhere || i.sid = .num (-1))

/-- The number of an integral over exterior facets, if its id is an integer. forms.py:154-155. -/
def number (i : Integral) : Option Int :=
  match i.kind, i.sid with
  | .exterior, .num n => some n
  | _, _ => none

/-- `_get_max_subdomain_id`. forms.py:151-157. -/
def nextId (l : List Integral) : Int := (l.filterMap number).foldl max (-1) + 1

/-- The loop over the integrals, which are modified in place: those visited and those to visit. forms.py:161-176. -/
def modifyFrom : List Integral → List Integral → List Integral
  | done, [] => done
  | done, i :: is =>
    if isEverywhere i then
      modifyFrom (done ++ [{ i with data := .nothing, sid := .num (nextId (done ++ i :: is)), flag := true }]) is
    else modifyFrom (done ++ [i]) is

/-- The modified form. forms.py:131-178. -/
def modify (l : List Integral) : List Integral := modifyFrom [] l

/-- `old_integrals`, which are put back in the form: `reconstruct` gets the subdomain id as subdomain data. forms.py:159-172, 337-338. -/
def restored (l : List Integral) : List Integral := l.map fun i => if isEverywhere i then { i with data := .sid i.sid } else i

/-- Ids of an integral with subdomain data. forms.py:300-311. -/
def idsOf : Sid → List Int
  | .everywhere => []
  | .num n => [n]
  | .tuple ids => ids.filterMap id

/-- The ids of the integrals of a type, flattened and sorted. forms.py:297-322. -/
def subdomainIds (l : List Integral) (k : Kind) : List Int :=
  ((l.filter fun i => i.kind = k && i.data ≠ .nothing).flatMap fun i => idsOf i.sid).insertionSort (· ≤ ·)

/-- Ids of the integrals over the whole boundary. forms.py:312-316. -/
def everywhereIds (l : List Integral) : List Int :=
  (l.filter fun i => i.data = .nothing && i.kind = .exterior && i.flag).filterMap number

/-- `get_integration_domains` of DOLFINx (external): nothing without data, otherwise the entities of each id. `E`: entities. -/
def integrationDomains {E : Type} (entities : Data → Int → E) (d : Data) (ids : List Int) : List (Int × E) :=
  if d = .nothing then [] else ids.map fun s => (s, entities d s)

/-- The subdomains of a type of integrals given to DOLFINx; `none` if an assertion fails. `boundary` are the facets of the unfitted
domain (`get_all_facets(ext_integral=True)`). forms.py:252-261, 324-335. -/
def subdomains {E : Type} (entities : Data → Int → E) (boundary : E) (l : List Integral) (k : Kind) : Option (List (Int × E)) :=
  let m := modify l
  match m.filter fun i => i.kind = k with
  | [] => some []
  | i :: is =>
    if (is.all fun j => j.data = .nothing || j.data = i.data) = false then none
    else some (integrationDomains entities i.data (subdomainIds m k) ++
      (if k = .exterior then (everywhereIds m).map fun s => (s, boundary) else []))

/-! ### Lists of forms -/

/-- An argument of `form_custom`: an empty form, a form, or an iterable of arguments. -/
inductive Input where
  | empty
  | form (f : Nat)
  | many (l : List Input)

/-- A result: `None`, a compiled form, or a list. -/
inductive Output where
  | nothing
  | compiled (f : Nat)
  | list (l : List Output)

/-- `_flatten_list`. forms.py:356-361. -/
def flatten : List Output → List Output
  | [] => []
  | .list l :: os => flatten l ++ flatten os
  | .nothing :: os => flatten os
  | .compiled _ :: os => flatten os

mutual
/-- `_create_form`. forms.py:363-382. -/
def createForm : Input → Output
  | .empty => .nothing
  | .form f => .compiled f
  | .many l => .list (flatten (createForms l))

/-- `map(_create_form, form)`. forms.py:379. -/
def createForms : List Input → List Output
  | [] => []
  | i :: is => createForm i :: createForms is
end

/-! ### Data of the quadratures -/

/-- A quadrature rule, as far as its name tells: the hash of points and weights. The rule of `ds_bdry_unf` is always the same one in a
dimension, whatever the degree. boundary.py:115-118, quadrature_data.py:86-113. -/
inductive Rule where
  | standard (hash : Nat)
  | boundary (tdim : Nat)
deriving DecidableEq

/-- `QuadratureData`. quadrature_data.py:31-48. -/
structure QuadData where
  rule : Rule
  degree : Nat
  bdry : Bool
deriving DecidableEq

/-- `extract_quadrature_data`: the dictionary, from the names of the rules; assignments replace the previous value, so the last one with a
name is kept. quadrature_data.py:118-144. -/
def quadOf (integrals : List QuadData) (name : Rule) : Option QuadData :=
  integrals.foldl (fun d q => if q.rule = name then some q else d) none

/-! ### Subdomains of an integral -/

/-- `_get_integral_subdomain_ids`: for each form and each type of integrals, the ids with the names of the integrals.
integral_data.py:31-60. -/
def integralIds (forms : List (List (List (Int × Nat)))) (name : Nat) : List Int :=
  ((forms.flatten.map fun t => (t.filter fun p => p.2 = name).map Prod.fst).find? fun ids => !ids.isEmpty).getD []

end Qugar.Py.Forms
