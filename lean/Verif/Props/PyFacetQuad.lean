import Verif.Model.PyFacetQuad
import Mathlib.Tactic.Ring
import Mathlib.Tactic.Linarith
import Mathlib.Tactic.LinearCombination
import Mathlib.Tactic.IntervalCases
/-
Property theorems C68 (quadratures of facets mapped to the cells: python/qugar/dolfinx/custom_quad_utils.py).
-/
namespace Qugar.Py.FacetQuad

variable {K : Type} [CommRing K]

/-! ### Specification -/

/-- The point of the unit cube with coordinate `side` in direction `dir` and the coordinates of `pt` in the others, in order. -/
def onFace (dir : Nat) (side : K) (pt : List K) : List K := pt.take dir ++ side :: pt.drop dir

/-- Dimension of the cubes. -/
def Cell.cube : Cell → Option Nat
  | .interval => some 1
  | .quadrilateral => some 2
  | .hexahedron => some 3
  | _ => none

/-- Dimension of the simplices. -/
def Cell.simplex : Cell → Option Nat
  | .triangle => some 2
  | .tetrahedron => some 3
  | _ => none

/-- Barycentric coordinates in the reference simplex: those of vertex 0 and of the others. -/
def bary (x : List K) : List K := (1 - x.sum) :: x

/-- The reference facets: interval, triangle, square. -/
def inFacet [LinearOrder K] (fc : Cell) (x : List K) : Prop :=
  match fc with
  | .interval => ∃ a, x = [a] ∧ 0 ≤ a ∧ a ≤ 1
  | .triangle => ∃ a b, x = [a, b] ∧ 0 ≤ a ∧ 0 ≤ b ∧ a + b ≤ 1
  | .quadrilateral => ∃ a b, x = [a, b] ∧ 0 ≤ a ∧ a ≤ 1 ∧ 0 ≤ b ∧ b ≤ 1
  | _ => False

/-- A rotation of a reference facet (as in FFCx). -/
def rotate (fc : Cell) (x : List K) : List K :=
  match fc, x with
  | .triangle, [a, b] => [b, 1 - a - b]
  | .quadrilateral, [a, b] => [b, 1 - a]
  | _, x => x

/-- A reflection of a reference facet (as in FFCx). -/
def reflect (fc : Cell) (x : List K) : List K :=
  match fc, x with
  | .interval, [a] => [1 - a]
  | .triangle, [a, b] => [b, a]
  | .quadrilateral, [a, b] => [b, a]
  | _, x => x

/-- Permutation number `p` of FFCx and DOLFINx: `p / 2` rotations followed by `p % 2` reflections. -/
def permuted (fc : Cell) (p : Nat) (x : List K) : List K := (reflect fc)^[p % 2] ((rotate fc)^[p / 2] x)

/-- Dimension of the facets. -/
def Cell.facetDim : Cell → Nat
  | .interval => 0
  | .triangle | .quadrilateral => 1
  | .tetrahedron | .hexahedron => 2

/-! ### One point -/

/-- **C68** (cubes): the points of facet `f` (numbered as in DOLFINx) of the unit square or cube are mapped to that facet, with their
coordinates in the remaining directions, in order. -/
theorem C68_map_cube (c : Cell) (d : Nat) (hc : c.cube = some d) (f : Nat) (hf : f < 2 * d) (pt : List K) (hp : pt.length + 1 = d) :
    mapPoint c f pt = some (if f < d then onFace (d - 1 - f) 0 pt else onFace (f - d) 1 pt) := by
  cases c <;> simp only [Cell.cube, Option.some.injEq, reduceCtorEq] at hc <;> subst hc
  · obtain rfl : pt = [] := List.eq_nil_of_length_eq_zero (by omega)
    interval_cases f <;> simp [mapPoint, Cell.vertices, Cell.topology, Cell.geometry, onFace]
  · obtain ⟨a, rfl⟩ := List.length_eq_one_iff.1 (show pt.length = 1 by omega)
    interval_cases f <;> simp [mapPoint, Cell.vertices, Cell.topology, Cell.geometry, onFace, addDir, List.range_succ]
  · obtain ⟨a, b, rfl⟩ := List.length_eq_two.1 (show pt.length = 2 by omega)
    interval_cases f <;> simp [mapPoint, Cell.vertices, Cell.topology, Cell.geometry, onFace, addDir, List.range_succ]

/-- **C68** (simplices): the points of facet `f` are mapped to points with barycentric coordinate 0 for vertex `f` and their own
barycentric coordinates for the others, in order. -/
theorem C68_map_simplex (c : Cell) (d : Nat) (hc : c.simplex = some d) (f : Nat) (hf : f < d + 1) (pt : List K) (hp : pt.length + 1 = d) :
    ∃ q, mapPoint c f pt = some q ∧ q.length = d ∧ bary q = onFace f 0 (bary pt) := by
  cases c <;> simp only [Cell.simplex, Option.some.injEq, reduceCtorEq] at hc <;> subst hc
  · obtain ⟨a, rfl⟩ := List.length_eq_one_iff.1 (show pt.length = 1 by omega)
    interval_cases f <;>
      simp [mapPoint, Cell.vertices, Cell.topology, Cell.geometry, onFace, addDir, List.range_succ, bary] <;> ring_nf <;> simp
  · obtain ⟨a, b, rfl⟩ := List.length_eq_two.1 (show pt.length = 2 by omega)
    interval_cases f <;>
      simp [mapPoint, Cell.vertices, Cell.topology, Cell.geometry, onFace, addDir, List.range_succ, bary] <;> ring_nf <;> simp

/-! ### Gather and scatter -/

omit [CommRing K] in
theorem scatter_length {α : Type} (new : List α) (ids : List Nat) (vals : List α) : (scatter new ids vals).length = new.length := by
  unfold scatter
  induction ids.zip vals generalizing new with
  | nil => rfl
  | cons p l ih => rw [List.foldl_cons, ih, List.length_set]

theorem scatter_notin {α : Type} (new : List α) (ids : List Nat) (vals : List α) (k : Nat) (h : k ∉ ids) :
    (scatter new ids vals)[k]? = new[k]? := by
  unfold scatter
  have : ∀ p ∈ ids.zip vals, p.1 ≠ k := fun p hp he => h (he ▸ (List.of_mem_zip hp).1)
  revert this
  induction ids.zip vals generalizing new with
  | nil => intro _; rfl
  | cons p l ih =>
    intro hp
    rw [List.foldl_cons, ih _ fun q hq => hp q (List.mem_cons_of_mem _ hq), List.getElem?_set_ne (hp p List.mem_cons_self)]

theorem scatter_get {α : Type} (new : List α) (ids : List Nat) (vals : List α) (j k : Nat) (v : α) (hnd : ids.Nodup)
    (hj : ids[j]? = some k) (hv : vals[j]? = some v) (hk : k < new.length) : (scatter new ids vals)[k]? = some v := by
  induction ids generalizing new vals j with
  | nil => simp at hj
  | cons i ids ih =>
    rw [List.nodup_cons] at hnd
    match vals with
    | [] => simp at hv
    | w :: vals =>
      have hcons : scatter new (i :: ids) (w :: vals) = scatter (new.set i w) ids vals := rfl
      rw [hcons]
      match j with
      | 0 =>
        simp only [List.getElem?_cons_zero, Option.some.injEq] at hj hv
        subst hj; subst hv
        rw [scatter_notin _ _ _ _ hnd.1, List.getElem?_set_self hk]
      | j + 1 =>
        simp only [List.getElem?_cons_succ] at hj hv
        exact ih _ _ j hnd.2 hj hv (by simpa using hk)

theorem mem_whereEq {a : List Nat} {v k : Nat} : k ∈ whereEq a v ↔ a[k]? = some v := by
  simp only [whereEq, List.mem_filter, List.mem_range, beq_iff_eq]
  exact ⟨fun h => h.2, fun h => ⟨(List.getElem?_eq_some_iff.1 h).1, h⟩⟩

theorem whereEq_nodup (a : List Nat) (v : Nat) : (whereEq a v).Nodup := List.nodup_range.filter _

theorem mem_uniqueN {a : List Nat} {v : Nat} : v ∈ uniqueN a ↔ v ∈ a := by
  simp [uniqueN, List.mem_dedup, List.mem_insertionSort]

/-- A loop whose step for a value `u` assigns the entries with that value. -/
theorem fold_assign {γ : Type} (n : Nat) (keys : List Nat) (step : List γ → Nat → Option (List γ)) (y : Nat → Option γ) (us : List Nat)
    (hstep : ∀ new u, u ∈ us → new.length = n → ∃ new', step new u = some new' ∧ new'.length = n ∧
      ∀ k, k < n → (keys[k]? = some u → new'[k]? = y k) ∧ (keys[k]? ≠ some u → new'[k]? = new[k]?)) (new : List γ) (hn : new.length = n) :
    ∃ new', us.foldlM step new = some new' ∧ new'.length = n ∧
      ∀ k, k < n → (∀ u ∈ us, keys[k]? = some u → new'[k]? = y k) ∧ ((∀ u ∈ us, keys[k]? ≠ some u) → new'[k]? = new[k]?) := by
  induction us generalizing new with
  | nil => exact ⟨new, rfl, hn, fun k _ => ⟨by simp, fun _ => rfl⟩⟩
  | cons u us ih =>
    obtain ⟨m, h1, h2, h3⟩ := hstep new u List.mem_cons_self hn
    obtain ⟨m', g1, g2, g3⟩ := ih (fun new u hu => hstep new u (List.mem_cons_of_mem _ hu)) m h2
    refine ⟨m', by rw [List.foldlM_cons, h1]; exact g1, g2, fun k hk => ⟨?_, ?_⟩⟩
    · intro v hv hkv
      by_cases h : ∃ w ∈ us, keys[k]? = some w
      · obtain ⟨w, hw, hkw⟩ := h
        exact (g3 k hk).1 w hw hkw
      · have : v = u := by
          rcases List.mem_cons.1 hv with rfl | hv
          · rfl
          · exact absurd ⟨v, hv, hkv⟩ h
        subst this
        rw [(g3 k hk).2 fun w hw hkw => h ⟨w, hw, hkw⟩, (h3 k hk).1 hkv]
    · intro h
      rw [(g3 k hk).2 fun w hw => h w (List.mem_cons_of_mem _ hw), (h3 k hk).2 (h u List.mem_cons_self)]

theorem mapM_of_forall {α β : Type} (g : α → Option β) (l : List α) (h : ∀ a ∈ l, ∃ b, g a = some b) :
    ∃ r, l.mapM g = some r ∧ r.length = l.length ∧ ∀ (k : Nat) (a : α), l[k]? = some a → r[k]? = g a := by
  induction l with
  | nil => exact ⟨[], rfl, rfl, by simp⟩
  | cons a l ih =>
    obtain ⟨b, hb⟩ := h a List.mem_cons_self
    obtain ⟨r, h1, h2, h3⟩ := ih fun a ha => h a (List.mem_cons_of_mem _ ha)
    refine ⟨b :: r, by simp [List.mapM_cons, hb, h1], by simp [h2], fun k => ?_⟩
    match k with
    | 0 => intro a' ha'; simp only [List.getElem?_cons_zero, Option.some.injEq] at ha'; subst ha'; simp [hb]
    | k + 1 => intro a' ha'; simp only [List.getElem?_cons_succ] at ha' ⊢; exact h3 k a' ha'

/-- The points with a given value are read, mapped and written back. -/
theorem gather_spec {α : Type} (keys : List Nat) (pts : List α) (hl : keys.length = pts.length) (u : Nat) :
    ∃ sel, ((whereEq keys u).mapM fun k => pts[k]?) = some sel ∧ sel.length = (whereEq keys u).length ∧
      ∀ (j k : Nat), (whereEq keys u)[j]? = some k → sel[j]? = pts[k]? := by
  obtain ⟨r, h1, h2, h3⟩ := mapM_of_forall (fun k => pts[k]?) (whereEq keys u) (by
    intro k hk
    have := (List.getElem?_eq_some_iff.1 (mem_whereEq.1 hk)).1
    exact ⟨pts[k], List.getElem?_eq_getElem (by omega)⟩)
  exact ⟨r, h1, h2, fun j k hjk => h3 j k hjk⟩

/-! ### All the points -/

theorem mapPoint_some (c : Cell) (f : Nat) (hf : f < c.topology.length) (pt : List K) (hp : pt.length = c.facetDim) :
    ∃ q, mapPoint c f pt = some q := by
  have key : ∀ d, c.cube = some d → c.topology.length = 2 * d ∧ c.facetDim + 1 = d := by
    cases c <;> simp [Cell.cube, Cell.topology, Cell.facetDim]
  have key' : ∀ d, c.simplex = some d → c.topology.length = d + 1 ∧ c.facetDim + 1 = d := by
    cases c <;> simp [Cell.simplex, Cell.topology, Cell.facetDim]
  have : (∃ d, c.cube = some d) ∨ ∃ d, c.simplex = some d := by
    cases c <;> simp [Cell.cube, Cell.simplex]
  rcases this with ⟨d, hd⟩ | ⟨d, hd⟩
  · obtain ⟨h1, h2⟩ := key d hd
    exact ⟨_, C68_map_cube c d hd f (by omega) pt (by omega)⟩
  · obtain ⟨h1, h2⟩ := key' d hd
    obtain ⟨q, hq, -⟩ := C68_map_simplex c d hd f (by omega) pt (by omega)
    exact ⟨q, hq⟩

/-- **C68** (`map_facets_points`): every point is mapped with its own facet, and stays in its place. -/
theorem C68_map_all (c : Cell) (pts : List (List K)) (facets : List Nat) (hl : facets.length = pts.length)
    (hf : ∀ f ∈ facets, f < c.topology.length) (hp : ∀ x ∈ pts, x.length = c.facetDim) :
    ∃ r, mapFacets c pts facets = some r ∧ r.length = pts.length ∧
      ∀ (k f : Nat) (x : List K), pts[k]? = some x → facets[k]? = some f → r[k]? = mapPoint c f x := by
  let y : Nat → Option (Option (List K)) := fun k => pts[k]?.map fun x => facets[k]?.bind fun f => mapPoint c f x
  obtain ⟨new, h1, h2, h3⟩ := fold_assign pts.length facets (fun (new : List (Option (List K))) f =>
    let ids := whereEq facets f
    (ids.mapM fun k => pts[k]?).bind fun sel => (mapSingle c f sel).map fun vals => scatter new ids (vals.map some)) y (uniqueN facets)
    (by
      intro new u hu hn
      have hu' : u < c.topology.length := hf u (mem_uniqueN.1 hu)
      obtain ⟨sel, g1, g2, g3⟩ := gather_spec facets pts hl u
      have hsel : ∀ x ∈ sel, ∃ q, mapPoint c u x = some q := by
        intro x hx
        obtain ⟨j, hj⟩ := List.mem_iff_getElem?.1 hx
        have hjl : j < (whereEq facets u).length := by rw [← g2]; exact (List.getElem?_eq_some_iff.1 hj).1
        rw [g3 j _ (List.getElem?_eq_getElem hjl)] at hj
        exact mapPoint_some c u hu' x (hp x (List.mem_of_getElem? hj))
      obtain ⟨vals, v1, v2, v3⟩ := mapM_of_forall (mapPoint c u) sel hsel
      refine ⟨scatter new (whereEq facets u) (vals.map some), ?_, ?_, ?_⟩
      · show (Option.bind _ _) = _
        rw [g1, Option.bind_some]
        show Option.map _ (sel.mapM (mapPoint c u)) = _
        rw [v1, Option.map_some]
      · rw [scatter_length, hn]
      · intro k hk
        constructor
        · intro hku
          obtain ⟨j, hj⟩ := List.mem_iff_getElem?.1 (mem_whereEq.2 hku)
          have hx := g3 j k hj
          rw [List.getElem?_eq_getElem hk] at hx
          have hv := v3 j _ hx
          obtain ⟨q, hq⟩ := hsel _ (List.mem_of_getElem? hx)
          rw [hq] at hv
          rw [scatter_get new _ _ j k (some q) (whereEq_nodup _ _) hj (by rw [List.getElem?_map, hv]; rfl) (by omega)]
          simp only [y, List.getElem?_eq_getElem hk, Option.map_some, hku, Option.bind_some, hq]
        · intro hku
          exact scatter_notin _ _ _ _ fun h => hku (mem_whereEq.1 h)) (List.replicate pts.length none) (by simp)
  have hall : ∀ k, k < pts.length → new[k]? = y k := by
    intro k hk
    have hkf : k < facets.length := by omega
    exact (h3 k hk).1 facets[k] (mem_uniqueN.2 (List.getElem_mem hkf)) (List.getElem?_eq_getElem hkf)
  have hval : ∀ (k f : Nat) (x : List K), pts[k]? = some x → facets[k]? = some f → new[k]? = some (mapPoint c f x) := by
    intro k f x hx hkf
    rw [hall k (List.getElem?_eq_some_iff.1 hx).1]
    simp only [y, hx, hkf, Option.map_some, Option.bind_some]
  obtain ⟨r, r1, r2, r3⟩ := mapM_of_forall id new (by
    intro o ho
    obtain ⟨k, hk⟩ := List.mem_iff_getElem?.1 ho
    have hkl : k < pts.length := by rw [← h2]; exact (List.getElem?_eq_some_iff.1 hk).1
    have hkf : k < facets.length := by omega
    have := hval k _ _ (List.getElem?_eq_getElem hkl) (List.getElem?_eq_getElem hkf)
    rw [this, Option.some.injEq] at hk
    obtain ⟨q, hq⟩ := mapPoint_some c _ (hf _ (List.getElem_mem hkf)) _ (hp _ (List.getElem_mem hkl))
    exact ⟨q, by rw [← hk]; exact hq⟩)
  refine ⟨r, ?_, by omega, fun k f x hx hkf => ?_⟩
  · unfold mapFacets
    rw [if_neg (by omega)]
    show Option.bind (List.foldlM _ _ _) _ = _
    rw [h1, Option.bind_some, r1]
  · rw [r3 k _ (hval k f x hx hkf)]; rfl

/-! ### Permutations -/

/-- Number of permutations of a facet. -/
def nPerms : Cell → Nat
  | .interval => 2
  | .triangle => 6
  | .quadrilateral => 8
  | _ => 0

/-- Number of coordinates of a facet. -/
def Cell.coords : Cell → Nat
  | .interval => 1
  | .triangle | .quadrilateral => 2
  | _ => 0

/-- Permutations for which there is an operator. -/
def known (fc : Cell) (p : Nat) : Prop := p < nPerms fc ∧ (fc = .quadrilateral → p < 6)

theorem op_spec (fc : Cell) (p : Nat) (hp : known fc p) (x : List K) (hx : x.length = fc.coords) :
    ∃ ps m, operators (K := K) fc = some ps ∧ ps[p]? = some m ∧ applyOp m x = permuted fc p x := by
  obtain ⟨h1, h2⟩ := hp
  cases fc <;> simp only [nPerms, Cell.coords] at h1 hx
  · obtain ⟨a, rfl⟩ := List.length_eq_one_iff.1 hx
    interval_cases p <;> simp [operators, eye, applyOp, permuted, reflect, List.range_succ] <;> ring
  · obtain ⟨a, b, rfl⟩ := List.length_eq_two.1 hx
    interval_cases p <;>
      simp [operators, operators.ops, mul, eye, applyOp, permuted, reflect, rotate, List.range_succ] <;> ring_nf <;> simp
  · obtain ⟨a, b, rfl⟩ := List.length_eq_two.1 hx
    have h2 := h2 rfl
    interval_cases p <;>
      simp [operators, operators.ops, mul, eye, applyOp, permuted, reflect, rotate, List.range_succ] <;> ring_nf <;> simp
  · omega
  · omega

/-- **C68** (permutations): a permutation takes a reference facet onto itself: its points to its points, and another permutation is
its inverse. -/
theorem C68_permutation_bijective [LinearOrder K] [IsStrictOrderedRing K] (fc : Cell) (p : Nat) (hp : p < nPerms fc) :
    (∀ x : List K, inFacet fc x → inFacet fc (permuted fc p x)) ∧
      ∃ p', p' < nPerms fc ∧ ∀ x : List K, inFacet fc x → permuted fc p' (permuted fc p x) = x := by
  constructor
  · intro x hx
    cases fc <;> simp only [nPerms] at hp
    · obtain ⟨a, rfl, h1, h2⟩ := hx
      interval_cases p
      · exact ⟨a, rfl, h1, h2⟩
      · exact ⟨1 - a, rfl, by linarith, by linarith⟩
    · obtain ⟨a, b, rfl, h1, h2, h3⟩ := hx
      interval_cases p <;> refine ⟨_, _, rfl, ?_, ?_, ?_⟩ <;> linarith
    · obtain ⟨a, b, rfl, h1, h2, h3, h4⟩ := hx
      interval_cases p <;> refine ⟨_, _, rfl, ?_, ?_, ?_, ?_⟩ <;> linarith
    · omega
    · omega
  · cases fc <;> simp only [nPerms] at hp ⊢
    · refine ⟨p, hp, ?_⟩
      rintro x ⟨a, rfl, -, -⟩
      interval_cases p <;> simp [permuted, reflect]
    · refine ⟨if p = 2 then 4 else if p = 4 then 2 else p, by split_ifs <;> omega, ?_⟩
      rintro x ⟨a, b, rfl, -, -⟩
      interval_cases p <;> simp [permuted, reflect, rotate] <;> ring
    · refine ⟨if p = 2 then 6 else if p = 6 then 2 else p, by split_ifs <;> omega, ?_⟩
      rintro x ⟨a, b, rfl, -, -⟩
      interval_cases p <;> simp [permuted, reflect, rotate]
    · omega
    · omega

theorem foldlM_skip {γ : Type} (step : List γ → Nat → Option (List γ)) (us : List Nat) (new : List γ) :
    us.foldlM (fun new p => if p = 0 then some new else step new p) new = (us.filter (· ≠ 0)).foldlM step new := by
  induction us generalizing new with
  | nil => rfl
  | cons u us ih =>
    rw [List.foldlM_cons, List.filter_cons]
    by_cases h : u = 0
    · subst h
      simpa using ih new
    · simp only [h, if_false, ne_eq, not_false_eq_true, decide_true, if_true, List.foldlM_cons]
      cases step new u with
      | none => rfl
      | some m => exact ih m

/-- **C68** (`_permute_points`): every point is permuted with its own permutation, and stays in its place. -/
theorem C68_permute_all (fc : Cell) (pts : List (List K)) (perms : List Nat) (hl : perms.length = pts.length)
    (hk : ∀ p ∈ perms, known fc p) (hx : ∀ x ∈ pts, x.length = fc.coords) (hfc : 0 < nPerms fc) :
    ∃ r, permute fc pts perms = some r ∧ r.length = pts.length ∧
      ∀ (k p : Nat) (x : List K), pts[k]? = some x → perms[k]? = some p → r[k]? = some (permuted fc p x) := by
  obtain ⟨ps, hps⟩ : ∃ ps, operators (K := K) fc = some ps := by
    cases fc <;> simp [nPerms, operators] at hfc ⊢
  let y : Nat → Option (List K) := fun k => pts[k]?.bind fun x => perms[k]?.map fun p => permuted fc p x
  obtain ⟨new, h1, h2, h3⟩ := fold_assign pts.length perms (fun (new : List (List K)) perm =>
        let ids := whereEq perms perm
        ps[perm]?.bind fun m => (ids.mapM fun k => pts[k]?).map fun sel => scatter new ids (sel.map (applyOp m))) y
    ((uniqueN perms).filter (· ≠ 0))
    (by
      intro new u hu hn
      have hu' : known fc u := hk u (mem_uniqueN.1 (List.mem_filter.1 hu).1)
      have hop : ∀ x : List K, x.length = fc.coords → ∃ m, ps[u]? = some m ∧ applyOp m x = permuted fc u x := by
        intro x hx'
        obtain ⟨ps', m, a1, a2, a3⟩ := op_spec fc u hu' x hx'
        rw [hps, Option.some.injEq] at a1
        subst a1
        exact ⟨m, a2, a3⟩
      obtain ⟨m, hm, -⟩ := hop (List.replicate fc.coords 0) (by simp)
      obtain ⟨sel, g1, g2, g3⟩ := gather_spec perms pts hl u
      refine ⟨scatter new (whereEq perms u) (sel.map (applyOp m)), ?_, ?_, ?_⟩
      · show Option.bind _ _ = _
        rw [hm, Option.bind_some]
        show Option.map _ _ = _
        rw [g1, Option.map_some]
      · rw [scatter_length, hn]
      · intro k hkl
        constructor
        · intro hku
          obtain ⟨j, hj⟩ := List.mem_iff_getElem?.1 (mem_whereEq.2 hku)
          have hxk := g3 j k hj
          rw [List.getElem?_eq_getElem hkl] at hxk
          obtain ⟨m', hm', hap⟩ := hop pts[k] (hx _ (List.getElem_mem hkl))
          rw [hm, Option.some.injEq] at hm'
          subst hm'
          rw [scatter_get new _ _ j k (permuted fc u pts[k]) (whereEq_nodup _ _) hj (by rw [List.getElem?_map, hxk, Option.map_some, hap])
            (by omega)]
          simp only [y, List.getElem?_eq_getElem hkl, Option.bind_some, hku, Option.map_some]
        · intro hku
          exact scatter_notin _ _ _ _ fun h => hku (mem_whereEq.1 h)) pts rfl
  refine ⟨new, ?_, h2, fun k p x hxk hpk => ?_⟩
  · unfold permute
    rw [if_neg (by omega), hps, Option.bind_some, foldlM_skip]
    exact h1
  · have hkl := (List.getElem?_eq_some_iff.1 hxk).1
    by_cases hp0 : p = 0
    · subst hp0
      rw [(h3 k hkl).2 (by
        intro u hu hku
        rw [hpk, Option.some.injEq] at hku
        subst hku
        simp at hu), hxk]
      rfl
    · rw [(h3 k hkl).1 p (List.mem_filter.2 ⟨mem_uniqueN.2 (List.mem_of_getElem? hpk), by simpa using hp0⟩) hpk]
      simp only [y, hxk, hpk, Option.bind_some, Option.map_some]

theorem foldlM_none {γ : Type} (step : List γ → Nat → Option (List γ)) (us : List Nat) (u : Nat) (hu : u ∈ us)
    (h : ∀ new, step new u = none) (new : List γ) : us.foldlM step new = none := by
  induction us generalizing new with
  | nil => simp at hu
  | cons v us ih =>
    rw [List.foldlM_cons]
    rcases List.mem_cons.1 hu with rfl | hu
    · rw [h]; rfl
    · cases step new v with
      | none => rfl
      | some m => exact ih hu m

/-- **C68** (hexahedra, negation): the permutations 6 and 7 (three rotations) raise an exception: their operators are not created. -/
theorem C68_three_rotations_fail (pts : List (List K)) (perms : List Nat) (p : Nat) (hp : p ∈ perms) (h : p = 6 ∨ p = 7) :
    permute .quadrilateral pts perms = none := by
  unfold permute
  split_ifs
  · rfl
  · show (List.foldlM _ _ _ : Option (List (List K))) = none
    refine foldlM_none _ _ p (mem_uniqueN.2 hp) (fun new => ?_) _
    rcases h with rfl | rfl <;> simp [operators.ops]

/-! ### Quadratures -/

theorem rep_get {α : Type} (l : List α) (n : List Nat) (j i m : Nat) (a : α) (ha : l[j]? = some a) (hm : n[j]? = some m) (hi : i < m) :
    (rep l n)[(n.take j).sum + i]? = some a := by
  induction l generalizing n j with
  | nil => simp at ha
  | cons b l ih =>
    match n with
    | [] => simp at hm
    | k :: n =>
      have hcons : rep (b :: l) (k :: n) = List.replicate k b ++ rep l n := rfl
      rw [hcons]
      match j with
      | 0 =>
        simp only [List.getElem?_cons_zero, Option.some.injEq] at ha hm
        subst ha; subst hm
        rw [List.take_zero, List.sum_nil, Nat.zero_add, List.getElem?_append_left (by simpa using hi)]
        simp [hi]
      | j + 1 =>
        simp only [List.getElem?_cons_succ] at ha hm
        rw [List.take_succ_cons, List.sum_cons, List.getElem?_append_right (by simp; omega), List.length_replicate,
          show k + (n.take j).sum + i - k = (n.take j).sum + i by omega]
        exact ih n j ha hm

theorem rep_length {α : Type} (l : List α) (n : List Nat) (h : l.length = n.length) : (rep l n).length = n.sum := by
  induction l generalizing n with
  | nil =>
    obtain rfl := List.eq_nil_of_length_eq_zero (h.symm.trans rfl)
    rfl
  | cons b l ih =>
    match n with
    | [] => simp at h
    | k :: n =>
      have hcons : rep (b :: l) (k :: n) = List.replicate k b ++ rep l n := rfl
      rw [hcons, List.length_append, List.length_replicate, ih n (by simpa using h), List.sum_cons]

theorem mem_rep {α : Type} {l : List α} {n : List Nat} {a : α} (h : a ∈ rep l n) : a ∈ l := by
  simp only [rep, List.mem_flatMap, List.mem_replicate] at h
  obtain ⟨p, hp, -, rfl⟩ := h
  exact (List.of_mem_zip hp).1

theorem rep_map {α β : Type} (g : α → β) (l : List α) (n : List Nat) : rep (l.map g) n = (rep l n).map g := by
  induction l generalizing n with
  | nil => rfl
  | cons b l ih =>
    match n with
    | [] => rfl
    | k :: n =>
      have h1 : rep ((b :: l).map g) (k :: n) = List.replicate k (g b) ++ rep (l.map g) n := rfl
      have h2 : rep (b :: l) (k :: n) = List.replicate k b ++ rep l n := rfl
      rw [h1, h2, ih, List.map_append, List.map_replicate]

theorem zip_map_fst_snd {α β : Type} (l : List (α × β)) : (l.map Prod.fst).zip (l.map Prod.snd) = l := by
  induction l with
  | nil => rfl
  | cons p l ih => rw [List.map_cons, List.map_cons, List.zip_cons_cons, ih]

/-- What is assumed of the quadrature of some facets of a mesh of cells of type `c`. -/
structure Ok (c : Cell) (nPts : List Nat) (pts : List (List K)) (facets : Facets) : Prop where
  entities : nPts.length = facets.length
  points : pts.length = nPts.sum
  coords : ∀ x ∈ pts, x.length = c.facetDim
  facet : ∀ p ∈ facets, p.2 < c.topology.length

/-- **C68** (facets without permutations: exterior facets): point `i` of facet `j` is mapped to the cell with the map of its facet. -/
theorem C68_exterior (c : Cell) (all : List Nat) (nPts : List Nat) (pts : List (List K)) (facets : Facets) (h : Ok c nPts pts facets) :
    ∃ r, mapQuad c false all nPts pts facets = some r ∧ r.length = pts.length ∧
      ∀ (j i m cell f : Nat) (x : List K), facets[j]? = some (cell, f) → nPts[j]? = some m → i < m →
        pts[(nPts.take j).sum + i]? = some x → r[(nPts.take j).sum + i]? = mapPoint c f x := by
  have hl : (rep (facets.map Prod.snd) nPts).length = pts.length := by
    rw [rep_length _ _ (by simp [h.entities]), h.points]
  obtain ⟨r, h1, h2, h3⟩ := C68_map_all c pts (rep (facets.map Prod.snd) nPts) hl (by
    intro f hf
    obtain ⟨p, hp, rfl⟩ := List.mem_map.1 (mem_rep hf)
    exact h.facet p hp) h.coords
  refine ⟨r, by simpa [mapQuad] using h1, h2, ?_⟩
  intro j i m cell f x hj hm hi hx
  exact h3 _ f x hx (rep_get _ _ j i m f (by rw [List.getElem?_map, hj]; rfl) hm hi)

/-- **C68** (facets with permutations: interior facets and mixed dimensions): point `i` of facet `j` is permuted with the permutation
of its facet, and mapped. -/
theorem C68_permuted (c fc : Cell) (hfc : c.facet = some fc) (all : List Nat) (nPts : List Nat) (pts : List (List K)) (facets : Facets)
    (h : Ok c nPts pts facets)
    (hperm : ∀ q ∈ facets, ∃ p, all[q.1 * c.topology.length + q.2]? = some p ∧ known fc p) :
    ∃ r, mapQuad c true all nPts pts facets = some r ∧ r.length = pts.length ∧
      ∀ (j i m cell f p : Nat) (x : List K), facets[j]? = some (cell, f) → nPts[j]? = some m → i < m →
        pts[(nPts.take j).sum + i]? = some x → all[cell * c.topology.length + f]? = some p →
        r[(nPts.take j).sum + i]? = mapPoint c f (permuted fc p x) := by
  have hco : c.facetDim = fc.coords ∧ 0 < nPerms fc := by
    cases c <;> simp only [Cell.facet, reduceCtorEq, Option.some.injEq] at hfc <;> subst hfc <;> decide
  have hl : (rep (facets.map Prod.snd) nPts).length = pts.length := by
    rw [rep_length _ _ (by simp [h.entities]), h.points]
  have hlc : (rep (facets.map Prod.fst) nPts).length = pts.length := by
    rw [rep_length _ _ (by simp [h.entities]), h.points]
  have hz : (rep (facets.map Prod.fst) nPts).zip (rep (facets.map Prod.snd) nPts) = rep facets nPts := by
    rw [rep_map, rep_map, zip_map_fst_snd]
  obtain ⟨perms, p1, p2, p3⟩ := mapM_of_forall (fun p : Nat × Nat =>
      if p.2 < c.topology.length then all[p.1 * c.topology.length + p.2]? else none) (rep facets nPts) (by
    intro q hq
    obtain ⟨p, hp, -⟩ := hperm q (mem_rep hq)
    exact ⟨p, by rw [if_pos (h.facet q (mem_rep hq)), hp]⟩)
  have hfp : facetPerms c all (rep (facets.map Prod.fst) nPts) (rep (facets.map Prod.snd) nPts) = some perms := by
    unfold facetPerms
    rw [if_neg (by omega), hz, p1]
  have hpl : perms.length = pts.length := by
    rw [p2, rep_length _ _ h.entities.symm, h.points]
  obtain ⟨r', a1, a2, a3⟩ := C68_permute_all fc pts perms hpl (by
    intro p hp
    obtain ⟨k, hk⟩ := List.mem_iff_getElem?.1 hp
    have hkl : k < (rep facets nPts).length := by rw [← p2]; exact (List.getElem?_eq_some_iff.1 hk).1
    have := p3 k _ (List.getElem?_eq_getElem hkl)
    have hmem := mem_rep (List.getElem_mem hkl)
    rw [hk, if_pos (h.facet _ hmem)] at this
    obtain ⟨p', hp', hk'⟩ := hperm _ hmem
    rw [hp', Option.some.injEq] at this
    rw [this]; exact hk') (by
    intro x hx
    rw [h.coords x hx, hco.1]) hco.2
  have hlen : ∀ (p : Nat) (x : List K), x.length = fc.coords → (permuted fc p x).length = fc.coords := by
    have hrot : ∀ x : List K, x.length = fc.coords → (rotate fc x).length = fc.coords := by
      intro x hx
      unfold rotate
      split <;> simp_all
    have href : ∀ x : List K, x.length = fc.coords → (reflect fc x).length = fc.coords := by
      intro x hx
      unfold reflect
      split <;> simp_all
    have hit : ∀ (g : List K → List K), (∀ x, x.length = fc.coords → (g x).length = fc.coords) →
        ∀ (n : Nat) (x : List K), x.length = fc.coords → (g^[n] x).length = fc.coords := by
      intro g hg n
      induction n with
      | zero => intro x hx; exact hx
      | succ n ih => intro x hx; rw [Function.iterate_succ_apply]; exact ih _ (hg x hx)
    intro p x hx
    exact hit _ href _ _ (hit _ hrot _ _ hx)
  have hr' : ∀ x ∈ r', x.length = c.facetDim := by
    intro x hx
    obtain ⟨k, hk⟩ := List.mem_iff_getElem?.1 hx
    have hkl : k < pts.length := by rw [← a2]; exact (List.getElem?_eq_some_iff.1 hk).1
    have := a3 k _ _ (List.getElem?_eq_getElem hkl) (List.getElem?_eq_getElem (by omega : k < perms.length))
    rw [hk, Option.some.injEq] at this
    rw [this, hco.1]
    exact hlen _ _ (by rw [h.coords _ (List.getElem_mem hkl), hco.1])
  obtain ⟨r, h1, h2, h3⟩ := C68_map_all c r' (rep (facets.map Prod.snd) nPts) (by omega) (by
    intro f hf
    obtain ⟨p, hp, rfl⟩ := List.mem_map.1 (mem_rep hf)
    exact h.facet p hp) hr'
  refine ⟨r, ?_, by omega, ?_⟩
  · simp only [mapQuad, if_true, permuteFacet, hfp, hfc, Option.bind_some, a1, h1]
  · intro j i m cell f p x hj hm hi hx hp
    have hrep := rep_get facets nPts j i m _ hj hm hi
    have hpk := p3 _ _ hrep
    rw [if_pos (h.facet _ (List.mem_of_getElem? hj)), hp] at hpk
    exact h3 _ f _ (a3 _ p x hx hpk) (rep_get _ _ j i m f (by rw [List.getElem?_map, hj]; rfl) hm hi)

theorem take_get {α : Type} (a : List α) (idx : List Nat) (r : List α) (h : take a idx = some r) (j : Nat) (v : α) (hv : r[j]? = some v) :
    ∃ f, idx[j]? = some f ∧ a[f]? = some v := by
  unfold take at h
  induction idx generalizing r j with
  | nil =>
    simp only [List.mapM_nil, Option.pure_def, Option.some.injEq] at h
    subst h; simp at hv
  | cons i idx ih =>
    rw [List.mapM_cons] at h
    cases hi : a[i]? with
    | none => rw [hi] at h; simp at h
    | some x =>
      cases hr : (idx.mapM fun i => a[i]?) with
      | none => rw [hi, hr] at h; simp at h
      | some r' =>
        rw [hi, hr] at h
        simp only [Option.pure_def, Option.bind_eq_bind, Option.bind_some, Option.some.injEq] at h
        subst h
        match j with
        | 0 =>
          simp only [List.getElem?_cons_zero, Option.some.injEq] at hv ⊢
          exact ⟨i, rfl, by rw [hi, hv]⟩
        | j + 1 =>
          simp only [List.getElem?_cons_succ] at hv ⊢
          exact ih r' hr j hv

/-- **C68** (Cartesian meshes, exterior facets): for the facets of a mesh of quadrilaterals or hexahedra, `orig` being their cells and
facets in the grid (facet `2 d + s` is the side `s` of direction `d`), point `i` of facet `j` is mapped to the point of that side of the
cell with the same coordinates in the other directions. -/
theorem C68_grid_facets (c : Cell) (d : Nat) (hc : c.cube = some d) (m : PyMesh) (all : List Nat) (nPts : List Nat) (pts : List (List K))
    (facets orig : Facets) (h : Ok c nPts pts facets) (ho : toOriginal m d facets = some orig) :
    ∃ r, mapQuad c false all nPts pts facets = some r ∧ r.length = pts.length ∧
      ∀ (j i n cell dir side : Nat) (x : List K), orig[j]? = some (cell, 2 * dir + side) → side < 2 → nPts[j]? = some n → i < n →
        pts[(nPts.take j).sum + i]? = some x → r[(nPts.take j).sum + i]? = some (onFace dir (side : K) x) := by
  obtain ⟨r, h1, h2, h3⟩ := C68_exterior c all nPts pts facets h
  refine ⟨r, h1, h2, ?_⟩
  intro j i n cell dir side x hj hs hn hi hx
  unfold toOriginal at ho
  cases hcells : m.origCells (facets.map Prod.fst) with
  | none => rw [hcells] at ho; simp at ho
  | some cells =>
    cases ht : lexicgToDlfFaces d with
    | none => rw [hcells, ht] at ho; simp at ho
    | some table =>
      cases hloc : take table (facets.map Prod.snd) with
      | none => rw [hcells, ht, Option.bind_some, Option.bind_some, hloc] at ho; simp at ho
      | some locs =>
        rw [hcells, ht, Option.bind_some, Option.bind_some, hloc, Option.map_some, Option.some.injEq] at ho
        subst ho
        obtain ⟨-, hl⟩ := List.getElem?_zip_eq_some.1 hj
        have hjf : j < facets.length := by
          have := (List.getElem?_eq_some_iff.1 hn).1
          have := h.entities
          omega
        have hmem := List.getElem_mem hjf
        have hpt := h.coords x (List.mem_of_getElem? hx)
        have hf := h.facet _ hmem
        rw [h3 j i n facets[j].1 facets[j].2 x (List.getElem?_eq_getElem hjf) hn hi hx]
        have hdim : c.topology.length = 2 * d ∧ c.facetDim + 1 = d := by
          revert hc; cases c <;> simp [Cell.cube, Cell.topology, Cell.facetDim] <;> omega
        rw [C68_map_cube c d hc _ (by omega) x (by omega)]
        -- the table
        have htab : table[facets[j].2]? = some (2 * dir + side) := by
          have hmm := take_get table (facets.map Prod.snd) locs hloc j (2 * dir + side) hl
          obtain ⟨f, hf1, hf2⟩ := hmm
          rw [List.getElem?_map, List.getElem?_eq_getElem hjf, Option.map_some, Option.some.injEq] at hf1
          rw [hf1]; exact hf2
        have hds : dir = (2 * dir + side) / 2 ∧ side = (2 * dir + side) % 2 := by omega
        generalize facets[j].2 = f at htab hf
        rw [hdim.1] at hf
        have hd3 : d = 1 ∨ d = 2 ∨ d = 3 := by
          revert hc; cases c <;> simp [Cell.cube] <;> omega
        rcases hd3 with rfl | rfl | rfl <;> simp only [lexicgToDlfFaces, Option.some.injEq] at ht <;> subst ht <;>
          interval_cases f <;> simp only [List.getElem?_cons_zero, List.getElem?_cons_succ, Option.some.injEq] at htab <;>
          (rw [← htab] at hds; obtain ⟨rfl, rfl⟩ := hds) <;> simp

/-- **C68** (interior facets, partial): if the facets have the orientation of their cells in both sides (no permutation), the points of
both sides are those of the quadrature. The full statement is false: see `C68_interior_fails`. -/
theorem C68_interior_partial (c fc : Cell) (hfc : c.facet = some fc) (all : List Nat) (nPts : List Nat) (pts : List (List K))
    (domain : List ((Nat × Nat) × (Nat × Nat))) (h0 : Ok c nPts pts (domain.map Prod.fst)) (h1 : Ok c nPts pts (domain.map Prod.snd))
    (hz : ∀ q ∈ domain, all[q.1.1 * c.topology.length + q.1.2]? = some 0 ∧ all[q.2.1 * c.topology.length + q.2.2]? = some 0) :
    ∃ r0 r1, mapInterior c all nPts pts domain = some (r0, r1) ∧
      ∀ (j i m : Nat) (q : (Nat × Nat) × (Nat × Nat)) (x : List K), domain[j]? = some q → nPts[j]? = some m → i < m →
        pts[(nPts.take j).sum + i]? = some x →
        r0[(nPts.take j).sum + i]? = mapPoint c q.1.2 x ∧ r1[(nPts.take j).sum + i]? = mapPoint c q.2.2 x := by
  have hk : known fc 0 := by
    cases c <;> simp only [Cell.facet, reduceCtorEq, Option.some.injEq] at hfc <;> subst hfc <;> simp [known, nPerms]
  obtain ⟨r0, a1, -, a3⟩ := C68_permuted c fc hfc all nPts pts _ h0 (by
    intro q hq
    obtain ⟨p, hp, rfl⟩ := List.mem_map.1 hq
    exact ⟨0, (hz p hp).1, hk⟩)
  obtain ⟨r1, b1, -, b3⟩ := C68_permuted c fc hfc all nPts pts _ h1 (by
    intro q hq
    obtain ⟨p, hp, rfl⟩ := List.mem_map.1 hq
    exact ⟨0, (hz p hp).2, hk⟩)
  refine ⟨r0, r1, by rw [mapInterior, a1, Option.bind_some, b1, Option.map_some], ?_⟩
  intro j i m q x hj hm hi hx
  have hq := hz q (List.mem_of_getElem? hj)
  exact ⟨a3 j i m q.1.1 q.1.2 0 x (by rw [List.getElem?_map, hj]; rfl) hm hi hx hq.1,
    b3 j i m q.2.1 q.2.2 0 x (by rw [List.getElem?_map, hj]; rfl) hm hi hx hq.2⟩

/-- **C68** (interior facets, negation): the quadrature is given in the coordinates of the cell of the first side, but it is permuted
also there. In a mesh of quadrilaterals, if DOLFINx gives the first side of a facet the permutation 1, every point of its quadrature
which is not its middle is moved to another place of the facet: the mirrored one. -/
theorem C68_interior_fails (all : List Nat) (nPts : List Nat) (pts : List (List K)) (domain : List ((Nat × Nat) × (Nat × Nat)))
    (h0 : Ok .quadrilateral nPts pts (domain.map Prod.fst)) (h1 : Ok .quadrilateral nPts pts (domain.map Prod.snd))
    (hz : ∀ q ∈ domain, all[q.1.1 * 4 + q.1.2]? = some 1 ∧ ∃ p, all[q.2.1 * 4 + q.2.2]? = some p ∧ p < 2) :
    ∃ r0 r1, mapInterior .quadrilateral all nPts pts domain = some (r0, r1) ∧
      ∀ (j i m : Nat) (q : (Nat × Nat) × (Nat × Nat)) (x : K), domain[j]? = some q → nPts[j]? = some m → i < m →
        pts[(nPts.take j).sum + i]? = some [x] →
        r0[(nPts.take j).sum + i]? = mapPoint .quadrilateral q.1.2 [1 - x] ∧
        (2 * x ≠ 1 → r0[(nPts.take j).sum + i]? ≠ mapPoint .quadrilateral q.1.2 [x]) := by
  obtain ⟨r0, a1, -, a3⟩ := C68_permuted .quadrilateral .interval rfl all nPts pts _ h0 (by
    intro q hq
    obtain ⟨p, hp, rfl⟩ := List.mem_map.1 hq
    exact ⟨1, (hz p hp).1, by simp [known, nPerms]⟩)
  obtain ⟨r1, b1, -, b3⟩ := C68_permuted .quadrilateral .interval rfl all nPts pts _ h1 (by
    intro q hq
    obtain ⟨p, hp, rfl⟩ := List.mem_map.1 hq
    obtain ⟨p', h1, h2⟩ := (hz p hp).2
    exact ⟨p', h1, by simpa [known, nPerms] using h2⟩)
  refine ⟨r0, r1, by rw [mapInterior, a1, Option.bind_some, b1, Option.map_some], ?_⟩
  intro j i m q x hj hm hi hx
  have hq := hz q (List.mem_of_getElem? hj)
  have h := a3 j i m q.1.1 q.1.2 1 [x] (by rw [List.getElem?_map, hj]; rfl) hm hi hx hq.1
  have hp : permuted .interval 1 [x] = [1 - x] := rfl
  rw [hp] at h
  refine ⟨h, fun hne heq => ?_⟩
  have hf : q.1.2 < 4 := h0.facet q.1 (List.mem_map.2 ⟨q, List.mem_of_getElem? hj, rfl⟩)
  rw [h, C68_map_cube .quadrilateral 2 rfl _ (by omega) _ rfl, C68_map_cube .quadrilateral 2 rfl _ (by omega) _ rfl] at heq
  refine hne ?_
  generalize q.1.2 = f at hf heq
  have : 1 - x = x := by
    interval_cases f <;> simpa [onFace] using heq
  linear_combination -this

/-! ### Examples -/

/-- Two facets of the cells of a mesh of two quadrilaterals, with two and one points. -/
example : Ok .quadrilateral [2, 1] ([[1], [2], [3]] : List (List Int)) [(0, 2), (1, 3)] :=
  ⟨rfl, rfl, by decide, by decide⟩

example : mapQuad .quadrilateral false [] [2, 1] ([[5], [6], [7]] : List (List Int)) [(0, 2), (1, 3)] = some [[1, 5], [1, 6], [7, 1]] := by
  decide

example : mapInterior .quadrilateral [0, 0, 1, 0, 0, 0, 0, 0] [2] ([[5], [6]] : List (List Int)) [((0, 2), (1, 1))] =
    some ([[1, -4], [1, -5]], [[0, 5], [0, 6]]) := by decide

example : permute .quadrilateral ([[5, 7]] : List (List Int)) [5] = some [[-6, -4]] ∧
    permute .quadrilateral ([[5, 7]] : List (List Int)) [6] = none := by decide

end Qugar.Py.FacetQuad
