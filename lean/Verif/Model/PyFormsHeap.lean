import Verif.Model.PyForms
/-
Model of `form_custom` (python/qugar/dolfinx/forms.py) with the objects of UFL in memory: the integrals are objects that forms share (a sum
of forms has the integrals of its terms) and that are modified in place, as are the dictionaries of metadata that integrals share.

Simplifications: of the dictionaries only the key `ext_facet_everywhere` is kept; forms are not collected; what UFL and DOLFINx cache
(signatures, subdomain data) is computed again.
-/
namespace Qugar.Py.Forms

/-- An object of type `ufl.Integral`: `meta` is its dictionary of metadata. -/
structure Obj where
  kind : Kind
  sid : Sid
  data : Data
  dict : Nat
  rest : Nat

/-- The memory: integrals, the key `ext_facet_everywhere` of the dictionaries, the integrals of each form, and the next addresses. -/
structure Heap where
  objs : Nat → Obj
  flags : Nat → Bool
  forms : Nat → List Nat
  nextObj : Nat
  nextDict : Nat

/-- An integral as it is seen. -/
def Heap.integral (h : Heap) (r : Nat) : Integral :=
  let o := h.objs r
  ⟨o.kind, o.sid, o.data, h.flags o.dict, o.rest⟩

/-- The integrals of a form as they are seen: `form.integrals()`. -/
def Heap.view (h : Heap) (f : Nat) : List Integral := (h.forms f).map h.integral

/-- `integral.reconstruct(…, integral.metadata().copy(), integral.subdomain_id())`: a new object with a new dictionary.
forms.py:165-172. -/
def Heap.reconstruct (h : Heap) (r : Nat) : Heap × Nat :=
  let o := h.objs r
  ({ h with
      objs := Function.update h.objs h.nextObj { o with data := .sid o.sid, dict := h.nextDict }
      flags := Function.update h.flags h.nextDict (h.flags o.dict)
      nextObj := h.nextObj + 1
      nextDict := h.nextDict + 1 }, h.nextObj)

/-- The modification of an integral. forms.py:174-176. -/
def Heap.mark (h : Heap) (f r : Nat) : Heap :=
  let o := h.objs r
  -- the number is computed after `_subdomain_data` is set, which does not change it
  { h with
    objs := Function.update h.objs r { o with data := .nothing, sid := .num (nextId (h.view f)) }
    flags := Function.update h.flags o.dict true }

/-- The loop over the integrals of a form: the memory and `old_integrals`. forms.py:159-178. -/
def Heap.modifyLoop (f : Nat) : Heap → List Nat → Heap × List Nat
  | h, [] => (h, [])
  | h, r :: rs =>
    if isEverywhere (h.integral r) then
      let (h1, r') := h.reconstruct r
      let x := Heap.modifyLoop f (h1.mark f r) rs
      (x.1, r' :: x.2)
    else
      let x := Heap.modifyLoop f h rs
      (x.1, r :: x.2)

/-- The subdomains given to DOLFINx, for integrals that are modified already. forms.py:252-261, 297-335. -/
def subdomainsOf {E : Type} (entities : Data → Int → E) (boundary : E) (m : List Integral) (k : Kind) : Option (List (Int × E)) :=
  match m.filter fun i => i.kind = k with
  | [] => some []
  | i :: is =>
    if (is.all fun j => j.data = .nothing || j.data = i.data) = false then none
    else some (integrationDomains entities i.data (subdomainIds m k) ++
      (if k = .exterior then (everywhereIds m).map fun s => (s, boundary) else []))

/-- What may happen in a call: `ffcx_jit` raises, the creation of the C++ form raises, or neither. -/
inductive Fate where
  | jit
  | late
  | fine

/-- What a compiled form has: the integrals as the generated code has them, and the subdomains of each type. -/
structure Compiled (E : Type) where
  integrals : List Integral
  subdomains : Kind → List (Int × E)

/-- `_form`: the memory afterwards, and the compiled form (`none`: an exception). forms.py:239-354. -/
def Heap.compile {E : Type} (entities : Data → Int → E) (boundary : E) (h : Heap) (f : Nat) (fate : Fate) : Heap × Option (Compiled E) :=
  let x := Heap.modifyLoop f h (h.forms f)
  let m := x.1.view f
  match fate, subdomainsOf entities boundary m .cell, subdomainsOf entities boundary m .exterior, subdomainsOf entities boundary m .interior with
  | .late, some _, some _, some _ => ({ x.1 with forms := Function.update x.1.forms f x.2 }, none)
  | .fine, some c, some e, some i =>
    ({ x.1 with forms := Function.update x.1.forms f x.2 },
      some ⟨m, fun k => match k with | .cell => c | .exterior => e | .interior => i⟩)
  | _, _, _, _ => (x.1, none)

/-- `a + b` of UFL (external): a form with the integrals of both. -/
def Heap.sum (h : Heap) (a b c : Nat) : Heap := { h with forms := Function.update h.forms c (h.forms a ++ h.forms b) }

/-- `form_compiler_options["scalar_type"] = dtype`, in the dictionary of the caller, if there is one. forms.py:229-232. -/
def setScalarType {V : Type} (options : Option (String → Option V)) (dtype : V) : Option (String → Option V) × (String → Option V) :=
  match options with
  | none => (none, Function.update (fun _ => none) "scalar_type" (some dtype))
  | some d => (some (Function.update d "scalar_type" (some dtype)), Function.update d "scalar_type" (some dtype))

end Qugar.Py.Forms
