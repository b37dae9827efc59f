import Verif.Model.PyFacets
import Verif.Props.PyMesh
/-
Property theorems C65 (lists of facets, python/qugar/mesh/mesh_facets.py).
-/
namespace Qugar.Py
open Spec Spec.Cell TS

instance : Std.Total pairLe := ⟨fun p q => by unfold pairLe; omega⟩
instance : IsTrans (Nat × Nat) pairLe := ⟨fun p q r h1 h2 => by unfold pairLe at *; omega⟩

theorem pairLe_antisymm {p q : Nat × Nat} (h1 : pairLe p q) (h2 : pairLe q p) : p = q := by
  unfold pairLe at h1 h2
  exact Prod.ext (by omega) (by omega)

/-- Facets in increasing order (cell first), each one once. -/
def SortedFacets (a : Facets) : Prop := a.Pairwise fun p q => pairLe p q ∧ p ≠ q

/-- **C65** (`unique`): the same facets, each one once, in increasing order; for such a list nothing changes. -/
theorem C65_unique (a : Facets) : SortedFacets (uniqueF a) ∧ (∀ p, p ∈ uniqueF a ↔ p ∈ a) ∧ uniqueF (uniqueF a) = uniqueF a := by
  have key : ∀ a : Facets, SortedFacets (uniqueF a) ∧ ∀ p, p ∈ uniqueF a ↔ p ∈ a := by
    intro a
    have hs : (a.insertionSort pairLe).Pairwise pairLe := List.pairwise_insertionSort _ a
    refine ⟨(hs.sublist (List.dedup_sublist _)).and (List.nodup_dedup _), fun p => ?_⟩
    unfold uniqueF
    rw [List.mem_dedup, (List.perm_insertionSort _ a).mem_iff]
  refine ⟨(key a).1, (key a).2, ?_⟩
  have h := (key a).1
  have e : (uniqueF a).insertionSort pairLe = uniqueF a :=
    List.Pairwise.insertionSort_eq (h.imp fun h => h.1)
  show ((uniqueF a).insertionSort pairLe).dedup = uniqueF a
  rw [e]
  exact List.dedup_eq_self.2 (h.imp fun h => h.2)

theorem count_repeated (l : Facets) (h : l.Pairwise pairLe) (x : Nat × Nat) :
    (repeated l).count x = l.count x - 1 := by
  induction l with
  | nil => rfl
  | cons a l ih =>
    cases l with
    | nil =>
      by_cases hx : a = x
      · subst hx; simp [repeated]
      · simp [repeated, hx]
    | cons b l =>
      obtain ⟨h1, h2⟩ := List.pairwise_cons.1 h
      have ih := ih h2
      unfold repeated
      by_cases hab : a = b
      · subst hab
        rw [if_pos rfl]
        by_cases hx : a = x
        · subst hx
          have e1 := List.count_cons_self (a := a) (l := l)
          have e2 := List.count_cons_self (a := a) (l := a :: l)
          rw [List.count_cons_self, ih]
          omega
        · rw [List.count_cons_of_ne hx, ih, List.count_cons_of_ne hx (l := a :: l)]
      · rw [if_neg hab, ih]
        by_cases hx : a = x
        · subst hx
          have hnot : a ∉ b :: l := by
            intro hm
            rcases List.mem_cons.1 hm with rfl | hm
            · exact hab rfl
            · exact hab (pairLe_antisymm (h1 b (List.mem_cons_self ..)) ((List.pairwise_cons.1 h2).1 a hm))
          rw [List.count_cons_self, List.count_eq_zero_of_not_mem hnot]
        · rw [List.count_cons_of_ne hx]

theorem repeated_sublist (l : Facets) : (repeated l).Sublist l := by
  induction l with
  | nil => exact .slnil
  | cons a l ih =>
    cases l with
    | nil => exact List.nil_sublist _
    | cons b l =>
      unfold repeated
      split
      · exact ih.cons_cons a
      · exact ih.cons a

/-- **C65** (`intersect`): the facets in both lists, each one once and in increasing order. With `assume_unique` the lists must
have no repeated facets. -/
theorem C65_intersect (a b : Facets) (assume : Bool) (h : assume = false ∨ (a.Nodup ∧ b.Nodup)) :
    SortedFacets (intersectF a b assume) ∧ ∀ p, p ∈ intersectF a b assume ↔ p ∈ a ∧ p ∈ b := by
  have key : ∀ a b : Facets, a.Nodup → b.Nodup →
      SortedFacets (repeated ((a ++ b).insertionSort pairLe)) ∧
      ∀ p, p ∈ repeated ((a ++ b).insertionSort pairLe) ↔ p ∈ a ∧ p ∈ b := by
    intro a b ha hb
    have hs : ((a ++ b).insertionSort pairLe).Pairwise pairLe := List.pairwise_insertionSort _ _
    have hcnt : ∀ p, (repeated ((a ++ b).insertionSort pairLe)).count p = a.count p + b.count p - 1 := by
      intro p
      rw [count_repeated _ hs, (List.perm_insertionSort _ _).count_eq, List.count_append]
    have h1 : ∀ p, a.count p ≤ 1 := fun p => List.nodup_iff_count_le_one.1 ha p
    have h2 : ∀ p, b.count p ≤ 1 := fun p => List.nodup_iff_count_le_one.1 hb p
    refine ⟨(hs.sublist (repeated_sublist _)).and ?_, fun p => ?_⟩
    · show (repeated ((a ++ b).insertionSort pairLe)).Nodup
      rw [List.nodup_iff_count_le_one]
      intro p
      rw [hcnt]; have := h1 p; have := h2 p; omega
    · rw [← List.count_pos_iff, hcnt, ← List.count_pos_iff, ← List.count_pos_iff]
      have := h1 p; have := h2 p; omega
  unfold intersectF
  cases assume with
  | true =>
    obtain ⟨ha, hb⟩ := h.resolve_left (by decide)
    exact key a b ha hb
  | false =>
    obtain ⟨ua, ma, -⟩ := C65_unique a
    obtain ⟨ub, mb, -⟩ := C65_unique b
    obtain ⟨k1, k2⟩ := key (uniqueF a) (uniqueF b) (ua.imp fun h => h.2) (ub.imp fun h => h.2)
    refine ⟨k1, fun p => (k2 p).trans ?_⟩
    rw [ma, mb]

/-- **C65** (`difference`): the facets of the first list that are not in the second one, each one once, in increasing order
(with `assume_unique`, for lists with no repeated facets, in the order of the first list). -/
theorem C65_difference (a b : Facets) (assume : Bool) (h : assume = false ∨ (a.Nodup ∧ b.Nodup)) :
    (differenceF a b assume).Nodup ∧ (assume = false → SortedFacets (differenceF a b assume)) ∧
      (assume = true → (differenceF a b assume).Sublist a) ∧
      ∀ p, p ∈ differenceF a b assume ↔ p ∈ a ∧ p ∉ b := by
  obtain ⟨ua, ma, -⟩ := C65_unique a
  obtain ⟨-, mb, -⟩ := C65_unique b
  unfold differenceF
  cases assume with
  | true =>
    obtain ⟨ha, -⟩ := h.resolve_left (by decide)
    exact ⟨ha.filter _, fun h => absurd h (by decide), fun _ => List.filter_sublist, fun p => by simp⟩
  | false =>
    refine ⟨List.Nodup.filter _ (ua.imp fun h => h.2), fun _ => List.Pairwise.sublist List.filter_sublist ua,
      fun h => absurd h (by decide), fun p => ?_⟩
    simp [ma, mb]

/-- **C65**: intersection and difference split the facets of a list. -/
theorem C65_split (a b : Facets) (ha : a.Nodup) (hb : b.Nodup) (s1 s2 : Bool) :
    (intersectF a b s1 ++ differenceF a b s2).Perm a := by
  obtain ⟨i1, i2⟩ := C65_intersect a b s1 (.inr ⟨ha, hb⟩)
  obtain ⟨d1, -, -, d2⟩ := C65_difference a b s2 (.inr ⟨ha, hb⟩)
  refine (List.perm_ext_iff_of_nodup (List.Nodup.append (i1.imp fun h => h.2) d1 ?_) ha).2 fun p => ?_
  · intro p h1 h2
    exact ((d2 p).1 h2).2 ((i2 p).1 h1).2
  · rw [List.mem_append, i2, d2]
    by_cases hp : p ∈ b <;> simp [hp]

/-- C65 (assume_unique): with a repeated facet, `assume_unique` gives facets that are not in the other list. -/
example : intersectF [(3, 1), (3, 1)] [(0, 0)] true = [(3, 1)] ∧ intersectF [(3, 1), (3, 1)] [(0, 0)] false = [] ∧
    intersectF [(3, 1), (0, 0), (3, 1)] [(0, 0), (3, 1), (2, 2)] false = [(0, 0), (3, 1)] ∧
    differenceF [(3, 1), (0, 2), (3, 1)] [(0, 0), (3, 1)] false = [(0, 2)] := by decide

theorem lastIndex_spec (a : Facets) (p : Nat × Nat) :
    (p ∉ a → lastIndex a p = none) ∧ (p ∈ a → ∃ k, lastIndex a p = some k ∧ a[k]? = some p) := by
  have key : ∀ (l : List ((Nat × Nat) × Nat)) (r : Option Nat),
      ((∀ q ∈ l, q.1 ≠ p) → l.foldl (fun (r : Option Nat) q => if q.1 = p then some q.2 else r) r = r) ∧
      ((∃ q ∈ l, q.1 = p) → ∃ q ∈ l, q.1 = p ∧ l.foldl (fun (r : Option Nat) q => if q.1 = p then some q.2 else r) r = some q.2) := by
    intro l
    induction l with
    | nil => intro r; exact ⟨fun _ => rfl, by simp⟩
    | cons x l ih =>
      intro r
      rw [List.foldl_cons]
      obtain ⟨h1, h2⟩ := ih (if x.1 = p then some x.2 else r)
      constructor
      · intro h
        rw [h1 fun q hq => h q (List.mem_cons_of_mem _ hq), if_neg (h x (List.mem_cons_self ..))]
      · rintro ⟨q, hq, hqp⟩
        by_cases hl : ∃ q ∈ l, q.1 = p
        · obtain ⟨q', a, b, c⟩ := h2 hl
          exact ⟨q', List.mem_cons_of_mem _ a, b, c⟩
        · have hl' : ∀ q ∈ l, q.1 ≠ p := fun q hq h => hl ⟨q, hq, h⟩
          rcases List.mem_cons.1 hq with rfl | hq
          · exact ⟨q, List.mem_cons_self .., hqp, by rw [h1 hl', if_pos hqp]⟩
          · exact absurd hqp (hl' q hq)
  obtain ⟨h1, h2⟩ := key a.zipIdx none
  constructor
  · intro hp
    refine h1 fun q hq h => hp ?_
    rw [← h]
    exact List.fst_mem_of_mem_zipIdx hq
  · intro hp
    obtain ⟨k, hk, rfl⟩ := List.mem_iff_getElem.1 hp
    obtain ⟨q, a', b, c⟩ := h2 ⟨(a[k], k), by rw [List.mem_zipIdx_iff_getElem?]; exact List.getElem?_eq_getElem hk, rfl⟩
    refine ⟨q.2, c, ?_⟩
    rw [List.mem_zipIdx_iff_getElem?] at a'
    rw [a', b]

/-- **C65** (`find`): if all the facets of the second list are in the first one, the positions where they are; otherwise an
exception. -/
theorem C65_find (a b : Facets) :
    ((∀ p ∈ b, p ∈ a) → ∃ r, findF a b = some r ∧ r.length = b.length ∧
      ∀ (k : Nat) p, b[k]? = some p → ∃ i : Nat, r[k]? = some i ∧ a[i]? = some p) ∧
    ((∃ p ∈ b, p ∉ a) → findF a b = none) := by
  constructor
  · intro h
    obtain ⟨r, hr⟩ := mapM_ok (l := b) (f := lastIndex a) fun p hp => by
      obtain ⟨k, hk, -⟩ := (lastIndex_spec a p).2 (h p hp)
      rw [hk]; rfl
    obtain ⟨h1, h2⟩ := mapM_spec hr
    refine ⟨r, hr, h1, fun k p hk => ?_⟩
    obtain ⟨i, e1, e2⟩ := h2 k p hk
    obtain ⟨i', f1, f2⟩ := (lastIndex_spec a p).2 (h p (List.mem_of_getElem? hk))
    rw [e1] at f1
    obtain rfl := Option.some.inj f1
    exact ⟨i, e2, f2⟩
  · rintro ⟨p, hp, hpa⟩
    cases hr : findF a b with
    | none => rfl
    | some r =>
      obtain ⟨k, hk, rfl⟩ := List.mem_iff_getElem.1 hp
      obtain ⟨i, e1, -⟩ := (mapM_spec (f := lastIndex a) hr).2 k _ (List.getElem?_eq_getElem hk)
      rw [(lastIndex_spec a _).1 hpa] at e1
      cases e1

/-- **C65** (`as_array`): cell and local facet of each facet, one after the other. -/
theorem C65_as_array (a : Facets) : (asArray a).length = 2 * a.length ∧
    ∀ (k : Nat) p, a[k]? = some p → (asArray a)[2 * k]? = some p.1 ∧ (asArray a)[2 * k + 1]? = some p.2 := by
  induction a with
  | nil => exact ⟨rfl, by simp⟩
  | cons q a ih =>
    have e : asArray (q :: a) = q.1 :: q.2 :: asArray a := rfl
    rw [e]
    refine ⟨by simp [ih.1]; omega, fun k p hk => ?_⟩
    cases k with
    | zero => simp at hk; subst hk; simp
    | succ k =>
      have := ih.2 k p (by simpa using hk)
      have e2 : 2 * (k + 1) = 2 * k + 1 + 1 := by ring
      rw [e2]
      simpa using this

/-! ### Original numbering -/

theorem tables_inverse {dim : Nat} (h1 : 1 ≤ dim) (h3 : dim ≤ 3) :
    ∃ t u, lexicgToDlfFaces dim = some t ∧ dlfToLexicgFaces dim = some u ∧ t.length = 2 * dim ∧ u.length = 2 * dim ∧
      ∀ g, g < 2 * dim → ∃ f, t[g]? = some f ∧ f < 2 * dim ∧ u[f]? = some g ∧ SideFacet dim g f := by
  obtain ⟨t, u, ht, hu, h⟩ := C61_dolfinx_facets dim h1 h3
  refine ⟨t, u, ht, hu, h.1, h.2.1, fun g hg => ?_⟩
  obtain ⟨f, p, a, b, c⟩ := h.2.2.1 g hg
  refine ⟨f, a, ?_, ?_, p, b, c⟩
  · have : ∀ dim, dim < 4 → 1 ≤ dim → ((lexicgToDlfFaces dim).all fun t => t.all fun f => decide (f < 2 * dim)) = true := by decide
    have := this dim (by omega) h1
    rw [ht] at this
    simp only [Option.all_some, List.all_eq_true, decide_eq_true_eq] at this
    exact this f (List.mem_of_getElem? a)
  · have : ∀ dim, dim < 4 → 1 ≤ dim → ∀ g, g < 2 * dim → ((lexicgToDlfFaces dim).all fun t => (dlfToLexicgFaces dim).all fun u =>
        (t[g]?).all fun f => u[f]? == some g) = true := by decide
    have := this dim (by omega) h1 g hg
    rw [ht, hu] at this
    simp only [Option.all_some] at this
    rw [a] at this
    simpa using this

/-- **C65** (`to_original`): every facet of a local cell becomes the facet of the original cell on the same side; transforming
back gives the same facets. -/
theorem C65_original {argsort : List Int → List Nat} (hs : ∀ l, IsArgsort l (argsort l)) (m : PyMesh) {nRows : Nat}
    (hm : m.Ok nRows) (dim : Nat) (h1 : 1 ≤ dim) (h3 : dim ≤ 3) (a : Facets)
    (ha : ∀ p ∈ a, p.1 < m.cellIndex.length ∧ p.2 < 2 * dim) :
    ∃ b, toOriginal m dim a = some b ∧ b.length = a.length ∧
      (∀ (k : Nat) p q, a[k]? = some p → b[k]? = some q → m.OrigCell p.1 q.1 ∧ SideFacet dim p.2 q.2) ∧
      toDolfinx argsort m dim b = some (a.map fun p => (Int.ofNat p.1, p.2)) := by
  obtain ⟨t, u, ht, hu, hlt, hlu, htu⟩ := tables_inverse h1 h3
  obtain ⟨orig, ho, hback⟩ := C64_cells_round_trip hs m hm (a.map Prod.fst) (by
    intro l hl
    obtain ⟨p, hp, rfl⟩ := List.mem_map.1 hl
    exact (ha p hp).1)
  obtain ⟨fs, hf1, hf2, hf3⟩ := take_ok (a := t) (idx := a.map Prod.snd) (by
    intro l hl
    obtain ⟨p, hp, rfl⟩ := List.mem_map.1 hl
    rw [hlt]; exact (ha p hp).2)
  have hol : orig.length = a.length := by
    unfold PyMesh.origCells at ho
    cases hc : take m.cellIndex (a.map Prod.fst) with
    | none => rw [hc] at ho; simp at ho
    | some o =>
      rw [hc] at ho
      have l1 := (take_spec hc).1
      cases hac : m.active with
      | none => rw [hac] at ho; obtain rfl := Option.some.inj ho; simpa using l1
      | some act =>
        rw [hac] at ho
        have l2 := (take_spec (a := act) (idx := o) ho).1
        simp at l1; omega
  have hfl : fs.length = a.length := by simpa using hf2
  have hfst : (orig.zip fs).map Prod.fst = orig := List.map_fst_zip (by omega)
  have hsnd : (orig.zip fs).map Prod.snd = fs := List.map_snd_zip (by omega)
  have hfu : take u fs = some (a.map Prod.snd) := by
    obtain ⟨r, e1, e2, e3⟩ := take_ok (a := u) (idx := fs) (by
      intro f hf
      obtain ⟨k, hk, rfl⟩ := List.mem_iff_getElem.1 hf
      have hka : k < a.length := by omega
      have := hf3 k a[k].2 (by simp [hka])
      obtain ⟨f, b1, b2, -, -⟩ := htu a[k].2 (ha _ (List.getElem_mem hka)).2
      rw [b1, List.getElem?_eq_getElem hk] at this
      rw [Option.some.inj this, hlu]
      exact b2)
    rw [e1]
    refine congrArg some (List.ext_getElem? fun k => ?_)
    by_cases hka : k < a.length
    · have := hf3 k a[k].2 (by simp [hka])
      obtain ⟨f, b1, b2, b3, -⟩ := htu a[k].2 (ha _ (List.getElem_mem hka)).2
      rw [b1] at this
      rw [e3 k f this, b3]
      simp [hka]
    · rw [List.getElem?_eq_none (by omega), List.getElem?_eq_none (by simp; omega)]
  refine ⟨orig.zip fs, ?_, by simp [hol, hfl], ?_, ?_⟩
  · unfold toOriginal
    rw [ho, Option.bind_some, ht, Option.bind_some, hf1, Option.map_some]
  · intro k p q hp hq
    have hka : k < a.length := (List.getElem?_eq_some_iff.1 hp).1
    have hpe : a[k] = p := (List.getElem?_eq_some_iff.1 hp).2
    have e1 : orig[k]? = some q.1 := by rw [← hfst, List.getElem?_map, hq]; rfl
    have e2 : fs[k]? = some q.2 := by
      have : ((orig.zip fs).map Prod.snd)[k]? = some q.2 := by rw [List.getElem?_map, hq]; rfl
      rwa [hsnd] at this
    constructor
    · -- the original cell
      obtain ⟨r, f1, f2, f3⟩ := C64_cells_from_original hs m hm orig
      rw [hback] at f1
      obtain rfl := Option.some.inj f1
      have ek : ((a.map Prod.fst).map Int.ofNat)[k]? = some (Int.ofNat p.1) := by simp [hka, hpe]
      rcases f3 k q.1 e1 with ⟨h, -⟩ | ⟨l, h, h', -⟩
      · rw [ek] at h
        have := Option.some.inj h
        have h0 : (0 : Int) ≤ Int.ofNat p.1 := Int.natCast_nonneg _
        omega
      · rw [ek] at h
        have : p.1 = l := by
          have := Option.some.inj h
          exact Int.ofNat.inj this
        rw [this]; exact h'
    · have := hf3 k p.2 (by simp [hka, hpe])
      obtain ⟨f, b1, -, -, b4⟩ := htu p.2 (ha p (List.mem_of_getElem? hp)).2
      rw [b1, e2] at this
      rw [Option.some.inj this]; exact b4
  · unfold toDolfinx
    rw [hfst, hsnd, hback, Option.bind_some, hu, Option.bind_some, hfu, Option.map_some]
    refine congrArg some (List.ext_getElem (by simp) fun k h1 h2 => ?_)
    simp

/-! ### Facets of a mesh -/

/-- Facets and cells of a process agree: a cell has a facet if and only if the facet has the cell; no cell has a facet twice;
every facet has one or two different cells. -/
structure Topology.Ok (t : Topology) : Prop where
  agree : ∀ (f c : Nat) cells, t.facetCells[f]? = some cells → (c ∈ cells ↔ ∃ row, t.cellFacets[c]? = some row ∧ f ∈ row)
  rows : ∀ row ∈ t.cellFacets, row.Nodup
  cells : ∀ cells ∈ t.facetCells, cells.Nodup ∧ 1 ≤ cells.length ∧ cells.length ≤ 2

theorem facetEntries_spec (t : Topology) (ht : t.Ok) (single : Bool) (f : Nat) (hf : f < t.facetCells.length) :
    ∃ l, facetEntries t single f = some l ∧ l.length = (if single then 1 else (t.facetCells.getD f []).length) ∧ l.Nodup ∧
      (∀ p ∈ l, ∃ row, t.cellFacets[p.1]? = some row ∧ row[p.2]? = some f) ∧
      (single = false → ∀ (c k : Nat) row, t.cellFacets[c]? = some row → row[k]? = some f → (c, k) ∈ l) := by
  have hcells := List.getElem?_eq_getElem hf
  obtain ⟨hnd, hlen1, hlen2⟩ := ht.cells _ (List.getElem_mem hf)
  have hsub : ∀ c ∈ (if single = true then t.facetCells[f].take 1 else t.facetCells[f]), c ∈ t.facetCells[f] := by
    intro c hc
    cases single with
    | true => exact List.mem_of_mem_take (by simpa using hc)
    | false => simpa using hc
  have hnd' : (if single = true then t.facetCells[f].take 1 else t.facetCells[f]).Nodup := by
    cases single with
    | true => simpa using hnd.sublist (List.take_sublist _ _)
    | false => simpa using hnd
  have hone : ∀ c ∈ t.facetCells[f], ∃ row, t.cellFacets[c]? = some row ∧ ∃ k, row.findIdx? (· == f) = some k ∧ row[k]? = some f := by
    intro c hc
    obtain ⟨row, h1, h2⟩ := (ht.agree f c _ hcells).1 hc
    refine ⟨row, h1, ?_⟩
    cases hk : row.findIdx? (· == f) with
    | none =>
      rw [List.findIdx?_eq_none_iff] at hk
      exact absurd (hk f h2) (by simp)
    | some k =>
      obtain ⟨hk1, hk2, -⟩ := List.findIdx?_eq_some_iff_getElem.1 hk
      exact ⟨k, rfl, by rw [List.getElem?_eq_getElem hk1]; exact congrArg some (by simpa using hk2)⟩
  obtain ⟨l, hl⟩ := mapM_ok (l := (if single = true then t.facetCells[f].take 1 else t.facetCells[f]))
    (f := fun c => (t.cellFacets[c]?).bind fun row => (row.findIdx? (· == f)).map fun k => (c, k)) fun c hc => by
      obtain ⟨row, h1, k, h2, -⟩ := hone c (hsub c hc)
      rw [h1, Option.bind_some, h2]; rfl
  obtain ⟨l1, l2⟩ := mapM_spec hl
  have hentry : ∀ (i : Nat) p, l[i]? = some p → ∃ c, (if single = true then t.facetCells[f].take 1 else t.facetCells[f])[i]? = some c ∧
      p.1 = c ∧ ∃ row, t.cellFacets[c]? = some row ∧ row[p.2]? = some f := by
    intro i p hp
    have hi : i < (if single = true then t.facetCells[f].take 1 else t.facetCells[f]).length := by
      rw [← l1]; exact (List.getElem?_eq_some_iff.1 hp).1
    obtain ⟨b, e1, e2⟩ := l2 i _ (List.getElem?_eq_getElem hi)
    obtain ⟨row, h1, k, h2, h3⟩ := hone _ (hsub _ (List.getElem_mem hi))
    rw [h1, Option.bind_some, h2, Option.map_some] at e1
    rw [hp] at e2
    have : p = _ := (Option.some.inj e2).trans (Option.some.inj e1).symm
    subst this
    exact ⟨_, List.getElem?_eq_getElem hi, rfl, row, h1, h3⟩
  refine ⟨l, ?_, ?_, ?_, ?_, ?_⟩
  · unfold facetEntries
    rw [hcells, Option.bind_some]
    exact hl
  · rw [l1]
    cases single with
    | true => simp; omega
    | false => simp [hf]
  · rw [List.nodup_iff_pairwise_ne, List.pairwise_iff_getElem]
    intro i j hi hj hij he
    obtain ⟨c, a1, a2, -⟩ := hentry i _ (List.getElem?_eq_getElem hi)
    obtain ⟨c', b1, b2, -⟩ := hentry j _ (List.getElem?_eq_getElem hj)
    rw [← he, a2] at b2
    subst b2
    obtain ⟨x1, y1⟩ := List.getElem?_eq_some_iff.1 a1
    obtain ⟨x2, y2⟩ := List.getElem?_eq_some_iff.1 b1
    have := (List.Nodup.getElem_inj_iff hnd').1 (y1.trans y2.symm)
    omega
  · intro p hp
    obtain ⟨i, hi, rfl⟩ := List.mem_iff_getElem.1 hp
    obtain ⟨c, -, a2, row, a3, a4⟩ := hentry i _ (List.getElem?_eq_getElem hi)
    exact ⟨row, by rw [a2]; exact a3, a4⟩
  · intro hsing c k row hc hk
    subst hsing
    have hcm : c ∈ t.facetCells[f] := (ht.agree f c _ hcells).2 ⟨row, hc, List.mem_of_getElem? hk⟩
    obtain ⟨i, hi, rfl⟩ := List.mem_iff_getElem.1 hcm
    obtain ⟨b, e1, e2⟩ := l2 i t.facetCells[f][i] (by simp [hi])
    obtain ⟨row', h1, k', h2, h3⟩ := hone _ (List.getElem_mem hi)
    rw [h1, Option.bind_some, h2, Option.map_some] at e1
    rw [hc] at h1
    obtain rfl := Option.some.inj h1
    obtain ⟨x1, y1⟩ := List.getElem?_eq_some_iff.1 hk
    obtain ⟨x2, y2⟩ := List.getElem?_eq_some_iff.1 h3
    have hkk : k = k' := (List.Nodup.getElem_inj_iff (ht.rows _ (List.mem_of_getElem? hc))).1 (y1.trans y2.symm)
    subst hkk
    have := Option.some.inj e1
    rw [this]
    exact List.mem_of_getElem? e2

/-- **C65** (`create_facets_from_ids`): every facet asked for is given by its cells and its position in them (by one of its
cells if only one is asked for), nothing else is given, nothing twice, and `get_facet_ids` gives the facets back. -/
theorem C65_from_ids (t : Topology) (ht : t.Ok) (ids : List Nat) (hids : ∀ f ∈ ids, f < t.facetCells.length) (hnd : ids.Nodup)
    (single : Bool) :
    ∃ a ids', fromIds t ids single = some a ∧ a.Nodup ∧ facetIds t a = some ids' ∧
      (single = true → ids' = ids) ∧ (∀ f, f ∈ ids' ↔ f ∈ ids) ∧
      (single = false → ∀ c k, (c, k) ∈ a ↔ ∃ row f, t.cellFacets[c]? = some row ∧ row[k]? = some f ∧ f ∈ ids) := by
  obtain ⟨ls, hls⟩ := mapM_ok (l := ids) (f := facetEntries t single) fun f hf => by
    obtain ⟨l, h, -⟩ := facetEntries_spec t ht single f (hids f hf)
    rw [h]; rfl
  obtain ⟨l1, l2⟩ := mapM_spec hls
  have hspec : ∀ (i : Nat) (hi : i < ids.length), ∃ l, ls[i]? = some l ∧
      l.length = (if single = true then 1 else (t.facetCells.getD ids[i] []).length) ∧ l.Nodup ∧
      (∀ p ∈ l, ∃ row, t.cellFacets[p.1]? = some row ∧ row[p.2]? = some ids[i]) ∧
      (single = false → ∀ (c k : Nat) row, t.cellFacets[c]? = some row → row[k]? = some ids[i] → (c, k) ∈ l) := by
    intro i hi
    obtain ⟨l, e1, e2⟩ := l2 i _ (List.getElem?_eq_getElem hi)
    obtain ⟨l', f1, f2, f3, f4, f5⟩ := facetEntries_spec t ht single ids[i] (hids _ (List.getElem_mem hi))
    rw [e1] at f1
    obtain rfl := Option.some.inj f1
    exact ⟨l, e2, f2, f3, f4, f5⟩
  -- by position
  have hpos : ∀ l ∈ ls, ∃ f ∈ ids, l.length = (if single = true then 1 else (t.facetCells.getD f []).length) ∧ l.Nodup ∧
      ∀ p ∈ l, ∃ row, t.cellFacets[p.1]? = some row ∧ row[p.2]? = some f := by
    intro l hl
    obtain ⟨i, hi, rfl⟩ := List.mem_iff_getElem.1 hl
    obtain ⟨l, e1, e2, e3, e4, -⟩ := hspec i (by omega)
    rw [List.getElem?_eq_getElem hi] at e1
    rw [Option.some.inj e1]
    exact ⟨_, List.getElem_mem _, e2, e3, e4⟩
  have hsize : ls.flatten.length ≤ (if single = true then ids.length else ids.length * 2) := by
    rw [List.length_flatten]
    have hle : ∀ x ∈ ls.map List.length, x ≤ (if single = true then 1 else 2) := by
      intro x hx
      obtain ⟨l, hl, rfl⟩ := List.mem_map.1 hx
      obtain ⟨f, hf, h, -⟩ := hpos l hl
      have hf' := hids f hf
      have := (ht.cells _ (List.getElem_mem hf')).2.2
      rw [h, List.getD_eq_getElem _ _ hf']
      cases single <;> simp; exact this
    have := List.sum_le_card_nsmul _ _ hle
    rw [List.length_map, l1] at this
    cases single with
    | true => simpa using this
    | false => simpa using this
  have hndf : ls.flatten.Nodup := by
    rw [List.nodup_flatten]
    refine ⟨fun l hl => (hpos l hl).choose_spec.2.2.1, ?_⟩
    rw [List.pairwise_iff_getElem]
    intro i j hi hj hij
    obtain ⟨l, a1, -, -, a4, -⟩ := hspec i (by omega)
    obtain ⟨l', b1, -, -, b4, -⟩ := hspec j (by omega)
    rw [List.getElem?_eq_getElem hi] at a1
    rw [List.getElem?_eq_getElem hj] at b1
    rw [Option.some.inj a1, Option.some.inj b1]
    intro p hp hp'
    obtain ⟨row, c1, c2⟩ := a4 p hp
    obtain ⟨row', d1, d2⟩ := b4 p hp'
    rw [c1] at d1
    obtain rfl := Option.some.inj d1
    rw [c2] at d2
    have := (List.Nodup.getElem_inj_iff hnd).1 (Option.some.inj d2)
    omega
  obtain ⟨ids', hids'⟩ := mapM_ok (l := ls.flatten)
    (f := fun p : Nat × Nat => (t.cellFacets[p.1]?).bind fun row => row[p.2]?) fun p hp => by
      obtain ⟨l, hl, hpl⟩ := List.mem_flatten.1 hp
      obtain ⟨f, -, -, -, h⟩ := hpos l hl
      obtain ⟨row, h1, h2⟩ := h p hpl
      rw [h1, Option.bind_some, h2]; rfl
  obtain ⟨i1, i2⟩ := mapM_spec hids'
  have hval : ∀ (k : Nat) p f row, ls.flatten[k]? = some p → t.cellFacets[p.1]? = some row → row[p.2]? = some f → ids'[k]? = some f := by
    intro k p f row hk h1 h2
    obtain ⟨b, e1, e2⟩ := i2 k p hk
    rw [h1, Option.bind_some, h2] at e1
    rw [e2, Option.some.inj e1]
  refine ⟨ls.flatten, ids', ?_, hndf, hids', ?_, ?_, ?_⟩
  · unfold fromIds
    rw [hls, Option.bind_some, if_pos hsize]
  · intro hsing
    subst hsing
    have hsingle : ∀ (ls : List Facets), (∀ l ∈ ls, l.length = 1) → ls.flatten.length = ls.length ∧
        ∀ (i : Nat) l, ls[i]? = some l → ∃ p, l = [p] ∧ ls.flatten[i]? = some p := by
      intro ls
      induction ls with
      | nil => intro _; exact ⟨rfl, by simp⟩
      | cons x ls ih =>
        intro h
        obtain ⟨p, rfl⟩ := List.length_eq_one_iff.1 (h x (List.mem_cons_self ..))
        obtain ⟨h1, h2⟩ := ih fun l hl => h l (List.mem_cons_of_mem _ hl)
        refine ⟨by simp [h1], fun i l hi => ?_⟩
        cases i with
        | zero => simp at hi; exact ⟨p, hi.symm, by simp⟩
        | succ i => obtain ⟨q, a, b⟩ := h2 i l (by simpa using hi); exact ⟨q, a, by simpa using b⟩
    obtain ⟨s1, s2⟩ := hsingle ls fun l hl => by
      obtain ⟨f, -, h, -⟩ := hpos l hl
      simpa using h
    refine List.ext_getElem? fun k => ?_
    by_cases hk : k < ids.length
    · obtain ⟨l, e1, -, -, e4, -⟩ := hspec k hk
      obtain ⟨p, rfl, hp⟩ := s2 k l e1
      obtain ⟨row, c1, c2⟩ := e4 p (by simp)
      rw [hval k p _ row hp c1 c2, List.getElem?_eq_getElem hk]
    · rw [List.getElem?_eq_none (by omega), List.getElem?_eq_none (by omega)]
  · intro f
    constructor
    · intro hf
      obtain ⟨k, hk, rfl⟩ := List.mem_iff_getElem.1 hf
      have hk' : k < ls.flatten.length := by omega
      obtain ⟨l, hl, hpl⟩ := List.mem_flatten.1 (List.getElem_mem hk')
      obtain ⟨f, hfi, -, -, h⟩ := hpos l hl
      obtain ⟨row, h1, h2⟩ := h _ hpl
      have := hval k _ f row (List.getElem?_eq_getElem hk') h1 h2
      rw [List.getElem?_eq_getElem hk] at this
      rw [Option.some.inj this]; exact hfi
    · intro hf
      obtain ⟨i, hi, rfl⟩ := List.mem_iff_getElem.1 hf
      obtain ⟨l, e1, e2, -, e4, -⟩ := hspec i hi
      have hlpos : 0 < l.length := by
        rw [e2]
        have hf' := hids _ (List.getElem_mem hi)
        rw [List.getD_eq_getElem _ _ hf']
        have := (ht.cells _ (List.getElem_mem hf')).2.1
        cases single <;> simp; omega
      have hpm : l[0] ∈ ls.flatten := List.mem_flatten.2 ⟨l, List.mem_of_getElem? e1, List.getElem_mem hlpos⟩
      obtain ⟨row, c1, c2⟩ := e4 _ (List.getElem_mem hlpos)
      obtain ⟨k, hk, hke⟩ := List.mem_iff_getElem.1 hpm
      exact List.mem_of_getElem? (hval k _ _ row (by rw [List.getElem?_eq_getElem hk, hke]) c1 c2)
  · intro hsing c k
    constructor
    · intro hm
      obtain ⟨l, hl, hpl⟩ := List.mem_flatten.1 hm
      obtain ⟨f, hfi, -, -, h⟩ := hpos l hl
      obtain ⟨row, h1, h2⟩ := h _ hpl
      exact ⟨row, f, h1, h2, hfi⟩
    · rintro ⟨row, f, h1, h2, hf⟩
      obtain ⟨i, hi, rfl⟩ := List.mem_iff_getElem.1 hf
      obtain ⟨l, e1, -, -, -, e5⟩ := hspec i hi
      exact List.mem_flatten.2 ⟨l, List.mem_of_getElem? e1, e5 hsing c k row h1 h2⟩

/-- **C65** (facets of the mesh, `_partial`: only for the process whose first facet has global number 0, that is in serial runs
and in the first process): the facets of the exterior and the interior ones are those of the mesh, with no facet in both. -/
theorem C65_interior_exterior_partial (t : Topology) (ht : t.Ok) (hown : t.owned ≤ t.facetCells.length) (shared : Nat → Bool)
    (single : Bool) :
    ∃ e i a eIds iIds aIds, exteriorFacets t shared = some e ∧ interiorFacets t shared (0, t.owned) single = some i ∧
      allFacets t (0, t.owned) single = some a ∧ facetIds t e = some eIds ∧ facetIds t i = some iIds ∧ facetIds t a = some aIds ∧
      (∀ f, f ∈ aIds ↔ f < t.owned) ∧
      (∀ f, f ∈ eIds ↔ f < t.owned ∧ (t.facetCells.getD f []).length = 1 ∧ shared f = false) ∧
      (∀ f, f ∈ iIds ↔ f < t.owned ∧ f ∉ eIds) ∧ e.Nodup ∧ i.Nodup ∧ a.Nodup := by
  have hext : ∀ f, f ∈ exteriorIds t shared ↔ f < t.owned ∧ (t.facetCells.getD f []).length = 1 ∧ shared f = false := by
    intro f; simp [exteriorIds]
  obtain ⟨e, eIds, e1, e2, e3, -, e5, -⟩ := C65_from_ids t ht (exteriorIds t shared)
    (fun f hf => by have := (hext f).1 hf; omega) (List.nodup_range.filter _) true
  obtain ⟨i, iIds, i1, i2, i3, -, i5, -⟩ := C65_from_ids t ht
    ((List.range' 0 (t.owned - 0)).filter fun f => !(exteriorIds t shared).contains f)
    (fun f hf => by have := List.mem_range'_1.1 (List.mem_filter.1 hf).1; omega) (List.Nodup.filter _ List.nodup_range') single
  obtain ⟨a, aIds, a1, a2, a3, -, a5, -⟩ := C65_from_ids t ht (List.range' 0 (t.owned - 0))
    (fun f hf => by have := List.mem_range'_1.1 hf; omega) List.nodup_range' single
  refine ⟨e, i, a, eIds, iIds, aIds, e1, i1, a1, e3, i3, a3, ?_, ?_, ?_, e2, i2, a2⟩
  · intro f; rw [a5, List.mem_range'_1]; omega
  · intro f; rw [e5, hext]
  · intro f
    rw [i5, List.mem_filter, List.mem_range'_1, e5]
    simp

/-- **C65** fails in the other processes: the facets are taken in the range of global numbers. A process with the three facets 4, 5, 6
(global numbers), that is 0, 1, 2 in the process, and two cells: an exception instead of its facets. -/
theorem C65_other_processes_fail :
    Topology.Ok ⟨3, [[0, 1], [1, 2]], [[0], [0, 1], [1]]⟩ ∧ allFacets ⟨3, [[0, 1], [1, 2]], [[0], [0, 1], [1]]⟩ (4, 7) false = none ∧
    interiorFacets ⟨3, [[0, 1], [1, 2]], [[0], [0, 1], [1]]⟩ (fun _ => false) (4, 7) false = none ∧
    allFacets ⟨3, [[0, 1], [1, 2]], [[0], [0, 1], [1]]⟩ (0, 3) false = some [(0, 0), (0, 1), (1, 0), (1, 1)] := by
  refine ⟨⟨?_, by decide, by decide⟩, by decide, by decide, by decide⟩
  intro f c cells h
  match f with
  | 0 =>
    simp at h; subst h
    match c with
    | 0 => simp
    | 1 => simp
    | c + 2 => simp
  | 1 =>
    simp at h; subst h
    match c with
    | 0 => simp
    | 1 => simp
    | c + 2 => simp
  | 2 =>
    simp at h; subst h
    match c with
    | 0 => simp
    | 1 => simp
    | c + 2 => simp
  | f + 3 => simp at h

/-- C65 non-vacuity of `C65_original`. -/
example : toOriginal ⟨some [4, 2], [], [1, 0], []⟩ 2 [(0, 1), (1, 3)] = some [(2, 0), (4, 3)] := by decide

end Qugar.Py
