import Verif.Model.PyFacets
import Mathlib.Algebra.Order.Floor.Semiring
import Mathlib.Data.Rat.Floor
import Verif.Model.Domain
/-
Model of the unfitted domain of the Python layer: python/qugar/mesh/unfitted_domain.py, unfitted_domain_abc.py and
unfitted_cart_mesh.py, on top of the model of the C++ domain (Model/Domain) and of the mesh (Model/PyMesh, Model/PyFacets).

The object has mutable caches: a query is a function from the caches to an answer and new caches. `none`: an exception (after which
the caches are not modelled). The answers are the cached objects themselves: that a caller does not modify them is assumed.
-/
namespace Qugar.Py

/-- What an unfitted domain is made of: the mesh with its numberings and topology, the C++ domain. `range` is the range of the global
numbers of the facets owned by the process. -/
structure UDomain where
  mesh : PyMesh
  topo : Topology
  shared : Nat → Bool
  range : Nat × Nat
  numLocal : Nat
  dom : Dom

namespace UDomain

/-- Topological dimension. -/
def dim (u : UDomain) : Nat := u.dom.n.length

/-- Which facets `_get_facets` starts from. -/
inductive Kind | interior | exterior | all
deriving DecidableEq

/-- The facets before filtering. unfitted_domain.py:197-204. -/
def kindFacets (u : UDomain) : Kind → Option Facets
  | .interior => interiorFacets u.topo u.shared u.range false
  | .exterior => exteriorFacets u.topo u.shared
  | .all => Py.allFacets u.topo u.range false

/-- `_get_facets`. unfitted_domain.py:170-215. Cells that are not in the process (-1) are an exception here: the code keeps them,
but they do not occur (`C66_facets`). -/
def getFacets (argsort : List Int → List Nat) (u : UDomain) (p : Nat → Nat → Option Bool) (kind : Kind) : Option Facets :=
  (u.kindFacets kind).bind fun facets =>
    (toOriginal u.mesh u.dim facets).bind fun orig =>
      (Dom.facetsTarget p orig).bind fun filtered =>
        (toDolfinx argsort u.mesh u.dim filtered).bind fun l =>
          l.mapM fun q => if q.1 < 0 then none else some (q.1.toNat, q.2)

/-- `get_num_Gauss_points`. unfitted_domain.py:503-529. -/
def numGaussPoints (degree : Nat) : Nat := max ⌈((degree : ℚ) + 1) / 2⌉₊ 1

/-- `_get_cells` for cells of a status. unfitted_domain.py:101-123. `np.sort` of the local numbers. -/
def getCells (argsort : List Int → List Nat) (u : UDomain) (st : Status) : Option (List Int) :=
  (if u.numLocal = tsize u.dom.n then u.dom.tree.getCellIds u.dom.n st
    else (u.mesh.allOrigCells u.numLocal).bind fun t => Tree.getCellIdsTarget u.dom.n st u.dom.tree t).bind fun orig =>
      (u.mesh.dlfCells argsort (orig.map Int.ofNat)).map fun l => l.insertionSort (· ≤ ·)

/-- The caches. unfitted_domain.py:69-80. -/
structure Caches where
  fullCells : Option (List Int) := none
  emptyCells : Option (List Int) := none
  cutCells : Option (List Int) := none
  extCut : Option Facets := none
  extFull : Option Facets := none
  extEmpty : Option Facets := none
  intCut : Option Facets := none
  intFull : Option Facets := none
  intEmpty : Option Facets := none

/-- `get_cut_cells`, `get_full_cells`, `get_empty_cells`. unfitted_domain.py:125-168. -/
def cells (argsort : List Int → List Nat) (u : UDomain) (st : Status) (s : Caches) : Option (List Int × Caches) :=
  match st with
  | .cut => match s.cutCells with
    | some r => some (r, s)
    | none => (u.getCells argsort .cut).map fun r => (r, { s with cutCells := some r })
  | .full => match s.fullCells with
    | some r => some (r, s)
    | none => (u.getCells argsort .full).map fun r => (r, { s with fullCells := some r })
  | .empty => match s.emptyCells with
    | some r => some (r, s)
    | none => (u.getCells argsort .empty).map fun r => (r, { s with emptyCells := some r })
  | .unknown => none

/-- `_get_cut_facets_ext_integral`. unfitted_domain.py:217-255. -/
def cutExt (argsort : List Int → List Nat) (u : UDomain) (s : Caches) : Option (Facets × Caches) :=
  match s.extCut with
  | some r => some (r, s)
  | none =>
    (u.getFacets argsort u.dom.isCutFacet .exterior).bind fun cut =>
      (u.getFacets argsort u.dom.hasUnfFacet .all).bind fun unf =>
        if unf.isEmpty then some (cut, { s with extCut := some cut })
        else (u.getFacets argsort u.dom.isFullUnfFacet .all).map fun unfFull =>
          let part := differenceF unf unfFull false
          let r := if part.isEmpty then cut else uniqueF (concatF cut part)
          (r, { s with extCut := some r })

/-- `_get_cut_facets_int_integral`. unfitted_domain.py:257-272. -/
def cutInt (argsort : List Int → List Nat) (u : UDomain) (s : Caches) : Option (Facets × Caches) :=
  match s.intCut with
  | some r => some (r, s)
  | none => (u.getFacets argsort u.dom.isCutFacet .interior).map fun r => (r, { s with intCut := some r })

/-- `_get_full_facets_ext_integral`. unfitted_domain.py:313-342. -/
def fullExt (argsort : List Int → List Nat) (u : UDomain) (s : Caches) : Option (Facets × Caches) :=
  match s.extFull with
  | some r => some (r, s)
  | none =>
    (u.getFacets argsort u.dom.isFullFacet .exterior).bind fun full =>
      (u.getFacets argsort u.dom.isFullUnfFacet .all).map fun unfFull =>
        let r := if unfFull.isEmpty then full else uniqueF (concatF full unfFull)
        (r, { s with extFull := some r })

/-- `_get_full_facets_int_integral`. unfitted_domain.py:344-364. -/
def fullInt (argsort : List Int → List Nat) (u : UDomain) (s : Caches) : Option (Facets × Caches) :=
  match s.intFull with
  | some r => some (r, s)
  | none => (u.getFacets argsort u.dom.isFullFacet .interior).map fun r => (r, { s with intFull := some r })

/-- `_get_empty_facets_ext_integral`. unfitted_domain.py:402-422. -/
def emptyExt (argsort : List Int → List Nat) (u : UDomain) (s : Caches) : Option (Facets × Caches) :=
  match s.extEmpty with
  | some r => some (r, s)
  | none => (u.getFacets argsort u.dom.isEmptyFacet .exterior).map fun r => (r, { s with extEmpty := some r })

/-- `_get_empty_facets_int_integral`: the joined list is stored in the cache of the cut facets (line 459).
unfitted_domain.py:424-464. -/
def emptyInt (argsort : List Int → List Nat) (u : UDomain) (s : Caches) : Option (Facets × Caches) :=
  match s.intEmpty with
  | some r => some (r, s)
  | none =>
    (u.getFacets argsort u.dom.isEmptyFacet .interior).bind fun empty =>
      let s := { s with intEmpty := some empty }
      (u.getFacets argsort u.dom.hasUnfFacet .interior).bind fun unf =>
        if unf.isEmpty then some (empty, s)
        else (cutInt argsort u s).map fun x =>
          let rest := differenceF unf x.1 true
          if rest.isEmpty then (empty, x.2)
          else (empty, { x.2 with intCut := some (uniqueF (concatF empty rest)) })

/-- The queries of facets. -/
inductive Query
  | cut (ext : Bool) | full (ext : Bool) | empty (ext : Bool)
deriving DecidableEq

/-- `get_cut_facets`, `get_full_facets`, `get_empty_facets`. unfitted_domain.py:274-311, 366-400, 466-501. -/
def ask (argsort : List Int → List Nat) (u : UDomain) : Query → Caches → Option (Facets × Caches)
  | .cut true => cutExt argsort u
  | .cut false => cutInt argsort u
  | .full true => fullExt argsort u
  | .full false => fullInt argsort u
  | .empty true => emptyExt argsort u
  | .empty false => emptyInt argsort u

/-- A history of queries. -/
def askAll (argsort : List Int → List Nat) (u : UDomain) : List Query → Caches → Option Caches
  | [], s => some s
  | q :: qs, s => (ask argsort u q s).bind fun x => askAll argsort u qs x.2

/-- `get_all_facets`. unfitted_domain_abc.py:226-262. -/
def getAll (argsort : List Int → List Nat) (u : UDomain) (ext : Bool) (s : Caches) : Option (Facets × Caches) :=
  (cutExt argsort u s).bind fun a =>
    (fullExt argsort u a.2).bind fun b =>
      (emptyExt argsort u b.2).bind fun c =>
        let r := concatF (concatF a.1 b.1) c.1
        if ext then some (r, c.2)
        else (Py.allFacets u.topo u.range false).map fun all => (differenceF all r false, c.2)

/-- `add_facets` of `create_facet_tags`: a dictionary in the order of insertion; a tag may be `None`. unfitted_domain_abc.py:481-489. -/
def addTag (tags : List (Option Nat × Facets)) (tag : Option Nat) (f : Facets) : List (Option Nat × Facets) :=
  if tags.any (fun x => x.1 == tag) then
    if f.isEmpty then tags else tags.map fun x => if x.1 == tag then (x.1, concatF x.2 f) else x
  else tags ++ [(tag, f)]

/-- `create_facet_tags` (the facets before `as_array`). The empty facets get the tag of the cut ones (line 498).
unfitted_domain_abc.py:435-500. -/
def facetTags (argsort : List Int → List Nat) (u : UDomain) (cutTag fullTag emptyTag : Option Nat) (ext : Bool) (s : Caches) :
    Option (List (Option Nat × Facets) × Caches) :=
  (match cutTag with
    | none => some ([], s)
    | some _ => (ask argsort u (.cut ext) s).map fun (x : Facets × Caches) => (addTag [] cutTag x.1, x.2)).bind fun a =>
  (match fullTag with
    | none => some a
    | some _ => (ask argsort u (.full ext) a.2).map fun (x : Facets × Caches) => (addTag a.1 fullTag x.1, x.2)).bind fun b =>
  match emptyTag with
    | none => some b
    | some _ => (ask argsort u (.empty ext) b.2).map fun (x : Facets × Caches) => (addTag b.1 cutTag x.1, x.2)

/-- One step of `create_cell_meshtags`: the cells of a status, when it has a tag. unfitted_domain_abc.py:411-424. -/
def addCells (argsort : List Int → List Nat) (u : UDomain) (st : Status) (tag : Option Nat) (a : List Int × List Nat × Caches) :
    Option (List Int × List Nat × Caches) :=
  match tag with
  | none => some a
  | some t => (cells argsort u st a.2.2).map fun x => (a.1 ++ x.1, a.2.1 ++ x.1.map (fun _ => t), x.2)

/-- `create_cell_meshtags`: the cells and values given to DOLFINx. unfitted_domain_abc.py:383-433. -/
def cellTags (argsort : List Int → List Nat) (u : UDomain) (cutTag fullTag emptyTag : Option Nat) (s : Caches) :
    Option (List Int × List Nat × Caches) :=
  (addCells argsort u .cut cutTag ([], [], s)).bind fun a =>
    (addCells argsort u .full fullTag a).bind fun b =>
      (addCells argsort u .empty emptyTag b).bind fun c =>
        (take c.1 (argsort c.1)).bind fun cells => (take c.2.1 (argsort c.1)).map fun values => (cells, values, c.2.2)

/-- The active cells of `UnfittedCartMesh`. unfitted_cart_mesh.py:69-73. -/
def activeCells (d : Dom) (excludeEmpty : Bool) : Option (Option (List Nat)) :=
  if excludeEmpty then
    (d.tree.getCellIds d.n .full).bind fun full =>
      (d.tree.getCellIds d.n .cut).map fun cut => some ((full ++ cut).insertionSort (· ≤ ·))
  else some none

end UDomain
end Qugar.Py
