import Verif.Lemmas.GeneralCtor
import Verif.Lemmas.ReparamMesh
import Verif.Props.MeshHistory
import Verif.Props.CreateReparam
/-
Property theorems on the reparameterization of general implicit functions.
-/
namespace Qugar.General
open Roots Mesh Poly Reparam Spec TS
variable {K : Type} [Field K] [LinearOrder K] [IsStrictOrderedRing K]

/-- What `orient_*_cells_positively` does to the last cells. -/
def OrientsTail (m1 : Mesh K) (n0 : Nat) (orient : Option (Mesh K)) : Prop :=
  ∃ m2, orient = some m2 ∧ SameShape m1 m2 ∧ m2.conn.take (n0 * ppc m1) = m1.conn.take (n0 * ppc m1) ∧ SameOrFlipped m1 m2

/-- After the constructor: orientation and wirebasket. -/
theorem finish {B : Box K} {m m1 : Mesh K} (hg : Grown B m m1) (hdim : 0 < m.dim) (hdim3 : m.dim ≤ 3) (ho : 1 < m.order)
    (hw : m.conn.length % m.order ^ m.dim = 0) (val : List K → K) (domain : Box K) (wtol : K) (orient : Mesh K → List Nat → Option (Mesh K))
    (hor : ∀ n0 cells, (∀ c ∈ cells, n0 ≤ c ∧ c < m1.conn.length / ppc m1) → OrientsTail m1 n0 (orient m1 cells)) :
    ∃ m' n0 n1, numCells m = some n0 ∧ numCells m1 = some n1 ∧
      ((orient m1 (List.range' n0 (n1 - n0))).bind fun m => generateWirebasket m [val] (List.range' n0 (n1 - n0)) domain wtol) = some m' ∧
      ∃ (P : List (List K)) (C : List Nat) (W : List (List Nat)) (k : Nat),
        m' = ⟨m.dim, m.range, m.order, m.points ++ P, m.conn ++ C, m.wires ++ W.flatten⟩ ∧
        P.length = k * m.order ^ m.dim ∧ C.Perm (List.range' m.points.length P.length) ∧
        (∀ p ∈ P, p.length = m.range ∧ ∀ k, k < m.range → InAt B p k) ∧
        (∀ e ∈ W, e.length = m.order ∧ ∀ i ∈ e, m.points.length ≤ i ∧ i < m.points.length + P.length) ∧ m1.points = m.points ++ P ∧
        m'.conn.length = m1.conn.length ∧ SameOrFlipped m1 m' := by
  obtain ⟨P, C, k, e1, c1, c2, c3⟩ := hg
  obtain ⟨n0, hn0⟩ : ∃ n0, n0 = m.conn.length / m.order ^ m.dim := ⟨_, rfl⟩
  have hpos : 0 < m.order ^ m.dim := Nat.pow_pos (by omega)
  have hn0P : m.conn.length = n0 * m.order ^ m.dim := by
    rw [hn0]; exact (Nat.div_mul_cancel (Nat.dvd_of_mod_eq_zero hw)).symm
  have hn0' : numCells m = some n0 := by unfold numCells ppc; rw [if_pos hw, hn0]
  have hCl : C.length = k * m.order ^ m.dim := by rw [c1.length_eq, List.length_range', c2]
  have hm1len : m1.conn.length = (n0 + k) * m.order ^ m.dim := by
    rw [e1]
    show (m.conn ++ C).length = _
    rw [List.length_append, hn0P, hCl, Nat.add_mul]
  have hppc1 : ppc m1 = m.order ^ m.dim := by rw [e1]; rfl
  have hlen1 : m1.conn.length % ppc m1 = 0 := by rw [hm1len, hppc1, Nat.mul_mod_left]
  have hdiv1 : m1.conn.length / ppc m1 = n0 + k := by rw [hm1len, hppc1, Nat.mul_div_cancel _ hpos]
  have hn1 : numCells m1 = some (n0 + k) := by unfold numCells; rw [if_pos hlen1, hdiv1]
  have hcells : ∀ c ∈ List.range' n0 (n0 + k - n0), n0 ≤ c ∧ c < m1.conn.length / ppc m1 := by
    intro c hc
    rw [List.mem_range'_1] at hc
    rw [hdiv1]
    omega
  obtain ⟨m2, hm2, hs, htake, hflip⟩ := hor n0 _ hcells
  rw [hppc1, ← hn0P] at htake
  have hconn2 : ∃ C2 : List Nat, m2.conn = m.conn ++ C2 ∧ C2.Perm C := by
    have ht1 : m1.conn.take m.conn.length = m.conn := by rw [e1]; simp
    rw [ht1] at htake
    refine ⟨m2.conn.drop m.conn.length, ?_, ?_⟩
    · conv_lhs => rw [← List.take_append_drop m.conn.length m2.conn]
      rw [htake]
    · have hp := hs.perm
      rw [← List.take_append_drop m.conn.length m2.conn, htake] at hp
      have e1c : m1.conn = m.conn ++ C := by rw [e1]
      rw [e1c] at hp
      exact (List.perm_append_left_iff _).1 hp
  obtain ⟨C2, hC2, hC2p⟩ := hconn2
  have hpts2 : m2.points = m.points ++ P := by rw [hs.points, e1]
  have hwir2 : m2.wires = m.wires := by rw [hs.wires, e1]
  have hdim2 : m2.dim = m.dim := by rw [hs.dim, e1]
  have hord2 : m2.order = m.order := by rw [hs.order, e1]
  have hran2 : m2.range = m.range := by rw [hs.range, e1]
  have hC2len : C2.length = k * m.order ^ m.dim := by rw [hC2p.length_eq, hCl]
  have hnew : ∀ j, m.conn.length ≤ j → ∀ i, m2.conn[j]? = some i → m.points.length ≤ i ∧ i < m.points.length + P.length := by
    intro j hj i hi
    rw [hC2, List.getElem?_append_right hj] at hi
    have := hC2p.mem_iff.1 (List.mem_of_getElem? hi)
    have := c1.mem_iff.1 this
    rw [List.mem_range'_1] at this
    exact this
  have hdiv2 : m2.conn.length / m2.order ^ m2.dim = n0 + k := by
    rw [hC2, List.length_append, hn0P, hC2len, hord2, hdim2, ← Nat.add_mul, Nat.mul_div_cancel _ hpos]
  have hw3 : ∃ W : List (List Nat), generateWirebasket m2 [val] (List.range' n0 (n0 + k - n0)) domain wtol =
      some { m2 with wires := m.wires ++ W.flatten } ∧
      ∀ e ∈ W, e.length = m.order ∧ ∀ i ∈ e, m.points.length ≤ i ∧ i < m.points.length + P.length := by
    unfold generateWirebasket
    rw [if_pos (by simp)]
    rcases Nat.lt_or_ge 1 m.dim with hd1 | hd1
    · have hd23 : m2.dim = 2 ∨ m2.dim = 3 := by omega
      have hcells2 : ∀ c ∈ List.range' n0 (n0 + k - n0), c < m2.conn.length / m2.order ^ m2.dim := by
        intro c hc
        rw [hdiv2]
        have := (hcells c hc).2
        omega
      have hblock : ∀ c ∈ List.range' n0 (n0 + k - n0), ∀ j, c * m2.order ^ m2.dim ≤ j → m.conn.length ≤ j := by
        intro c hc j hj
        rw [hn0P]
        rw [hord2, hdim2] at hj
        exact le_trans (Nat.mul_le_mul_right _ (hcells c hc).1) hj
      rw [addWires_eq m2 _ _ _ _ _ hd23 (by rw [hord2]; exact ho) hcells2
        (fun c hc j hj _ i hi => by rw [hpts2, List.length_append]; exact (hnew j (hblock c hc j hj) i hi).2)]
      refine ⟨_, by rw [hwir2], ?_⟩
      intro e he
      unfold newWires at he
      have he := (List.mem_filter.1 he).1
      obtain ⟨c, hc, he⟩ := List.mem_flatMap.1 he
      obtain ⟨ed, _, rfl⟩ := List.mem_map.1 he
      refine ⟨by unfold edgeOf; rw [sortEdge_length]; simp [rawEdge, hord2], ?_⟩
      intro i hi
      obtain ⟨j, j1, _, j3⟩ := edgeOf_mem m2 hd23 (by rw [hord2]; exact ho) (hcells2 c hc) hi
      exact hnew j (hblock c hc j j1) i j3
    · unfold addWires
      rw [if_neg (by omega)]
      exact ⟨[], by rw [← hwir2]; simp, by simp⟩
  obtain ⟨W, hW1, hW2⟩ := hw3
  refine ⟨{ m2 with wires := m.wires ++ W.flatten }, n0, n0 + k, hn0', hn1, by rw [hm2, Option.bind_some]; exact hW1, P, C2, W, k, ?_, c2, hC2p.trans c1, c3, hW2, by rw [e1], hs.perm.length_eq, hflip⟩
  rw [hdim2, hran2, hord2, hpts2, hC2]

/-- The parameters, the oracles and the mesh are fine. The domain is much larger than the tolerance: each level may halve it
`maxSubdivs` times. -/
structure Setup (E : Env K) (F : Fn K) (m : Mesh K) (domain : Box K) (dim : Nat) : Prop where
  roots : RootsOk F
  tol0 : 0 ≤ E.tol
  tol1 : E.tol < 1
  sort : IsRootSort E.srt
  order : 1 < m.order
  nodes : ∀ i, i < m.order → 0 ≤ pointIn01 E.cheb m.order i ∧ pointIn01 E.cheb m.order i ≤ 1
  range : m.range = 2 ∨ m.range = 3
  dim : m.dim = dim
  whole : m.conn.length % m.order ^ m.dim = 0
  box : domain.length = m.range
  wide : ∀ iv ∈ domain, E.tol * 2 ^ (maxSubdivs * (m.range - 1)) < iv.2 - iv.1

omit [IsStrictOrderedRing K] in
theorem getD_mem_box {domain : Box K} {k : Nat} (h : k < domain.length) : domain.getD k (0, 0) ∈ domain := by
  rw [List.getD_eq_getElem _ _ h]; exact List.getElem_mem h

theorem Setup.lt {E : Env K} {F : Fn K} {m : Mesh K} {domain : Box K} {dim : Nat} (h : Setup E F m domain dim) :
    ∀ iv ∈ domain, iv.1 < iv.2 := by
  intro iv hiv
  have := lt_of_le_of_lt (mul_nonneg h.tol0 (pow_nonneg (by norm_num) _)) (h.wide iv hiv)
  linarith

theorem Setup.sub {E : Env K} {F : Fn K} {m : Mesh K} {domain : Box K} {dim : Nat} (h : Setup E F m domain dim) :
    SubBox m.range domain domain := by
  refine ⟨h.box, ?_⟩
  intro k hk
  have := h.lt _ (getD_mem_box (by rw [h.box]; exact hk))
  unfold sideAt
  simp only [if_true, one_ne_zero, if_false]
  exact ⟨le_refl _, le_of_lt this, le_refl _⟩

theorem Setup.wide' {E : Env K} {F : Fn K} {m : Mesh K} {domain : Box K} {dim : Nat} (h : Setup E F m domain dim) :
    Wide E.tol m.range (maxSubdivs * (m.range - 1)) domain := by
  intro k hk
  exact h.wide _ (getD_mem_box (by rw [h.box]; exact hk))

/-- The constructor of the highest object. -/
theorem runCtor_grown {E : Env K} {F : Fn K} {m : Mesh K} {domain : Box K} {d : Nat} (h : Setup E F m domain d) (fc : Option Nat)
    (hfc : ∀ k, some k = fc → k < m.range) (hS : E.S = true → fc = none) (hd : d = m.range - (if E.S = true ∨ fc.isSome = true then 1 else 0))
    (p : Psi) : ∃ m1, runCtor E F m (m.range - (if fc.isSome then 1 else 0))
      (match fc with | none => List.replicate m.range true | some j => (List.replicate m.range true).set j false) p domain = some m1 ∧
      Grown domain m m1 := by
  obtain ⟨E', hE'⟩ : ∃ E' : Env K, E' = { E with order := m.order } := ⟨_, rfl⟩
  have hp : Par E' F m.range d fc := by
    rw [hE']
    exact ⟨h.roots, h.tol0, h.tol1, h.sort, h.order, h.nodes, h.range, hd, hS⟩
  obtain ⟨free, hfree⟩ : ∃ free, free = (match fc with | none => List.replicate m.range true | some j => (List.replicate m.range true).set j false) :=
    ⟨_, rfl⟩
  have hr2 : 2 ≤ m.range := by rcases h.range with h' | h' <;> omega
  have hst : St E' m.range fc domain free [] (m.range - (if fc.isSome then 1 else 0)) := by
    refine ⟨?_, hfc, ?_, ?_, by simp, ?_, ?_, by simp, by rw [hE']; exact hS⟩
    · rw [hfree]; cases fc <;> simp
    · intro k hk
      rw [hfree]
      cases fc with
      | none => simp [List.getD_eq_getElem, hk]
      | some j =>
        simp only [List.map_nil, List.not_mem_nil, not_false_eq_true, true_and, ne_eq, Option.some.injEq]
        by_cases c : k = j
        · subst c
          rw [getD_set_self (by simpa using hk)]; simp
        · rw [getD_set_ne c]; simp [List.getD_eq_getElem, hk, c]
    · exact ⟨by simp, ⟨by simp, by simp⟩, by simp, by simp, by simp, by simp⟩
    · rw [hfree]
      cases fc with
      | none => simp
      | some j =>
        have := hfc j rfl
        rw [List.count_set (by simpa using this)]
        simp
    · rw [List.length_nil]
      split <;> omega
  obtain ⟨j, hj⟩ : ∃ j, m.range - (if fc.isSome then 1 else 0) = j + 1 :=
    ⟨m.range - (if fc.isSome then 1 else 0) - 1, by split <;> omega⟩
  have hw' : Wide E'.tol m.range (maxSubdivs * j) domain := by
    rw [hE']
    exact h.wide'.mono h.tol0 (Nat.mul_le_mul_left _ (by omega))
  rw [hj] at hst
  obtain ⟨acts, a1, a2⟩ := ctor_fine hp j free (p :: List.replicate (nFacets m.range - 1) E.psi0) 1 domain [] hst h.sub hw' (by simp)
  have hcheb : E'.cheb = E.cheb := by rw [hE']
  have hord : E'.order = m.order := by rw [hE']
  rw [hcheb, hord] at a2
  obtain ⟨st, s1, s2⟩ := a2 m h.dim rfl rfl (by rw [← h.dim]; exact h.whole)
  refine ⟨st.1, ?_, s2⟩
  unfold runCtor
  rw [← hfree, hj, ← hE', a1]
  simp only [Option.bind_eq_bind, Option.bind_some]
  rw [s1]
  rfl

theorem inBox_forall2 {domain : Box K} {p : List K} (hl : p.length = domain.length) (h : ∀ k, k < domain.length → InAt domain p k) :
    List.Forall₂ (fun (iv : K × K) x => iv.1 ≤ x ∧ x ≤ iv.2) domain p := by
  rw [List.forall₂_iff_get]
  refine ⟨hl.symm, ?_⟩
  intro k h1 h2
  have := h k h1
  unfold InAt vat at this
  rw [List.getD_eq_getElem _ _ h1, List.getD_eq_getElem _ _ h2] at this
  exact this

/-- The reparameterization, with the result of the constructor. -/
theorem general_core (norm : List K → K) (E : Env K) (F : Fn K) (outer : List K → List K) (wtol : K) (m : Mesh K) (domain : Box K)
    (h : Setup E F m domain (m.range - if E.S then 1 else 0)) :
    ∃ (P : List (List K)) (C : List Nat) (W : List (List Nat)) (k : Nat),
      reparameterize norm E F outer wtol m domain = some ⟨m.dim, m.range, m.order, m.points ++ P, m.conn ++ C, m.wires ++ W.flatten⟩ ∧
      P.length = k * m.order ^ m.dim ∧ C.Perm (List.range' m.points.length P.length) ∧
      (∀ p ∈ P, List.Forall₂ (fun (iv : K × K) x => iv.1 ≤ x ∧ x ≤ iv.2) domain p) ∧
      (∀ e ∈ W, e.length = m.order ∧ ∀ i ∈ e, m.points.length ≤ i ∧ i < m.points.length + P.length) ∧
      ∃ m1, runCtor E F m m.range (List.replicate m.range true) ⟨List.replicate m.range 0, -1⟩ domain = some m1 ∧ m1.points = m.points ++ P ∧
        (m.conn ++ C).length = m1.conn.length ∧
        SameOrFlipped m1 ⟨m.dim, m.range, m.order, m.points ++ P, m.conn ++ C, m.wires ++ W.flatten⟩ := by
  obtain ⟨m1, r1, r2⟩ := runCtor_grown h none (by simp) (fun _ => rfl) (by simp) ⟨List.replicate m.range 0, -1⟩
  simp only [Option.isSome_none, Bool.false_eq_true, if_false, Nat.sub_zero] at r1
  have hr := h.range
  have hd := h.dim
  have hd0 : 0 < m.dim := by rw [hd]; split <;> omega
  have hd3 : m.dim ≤ 3 := by rw [hd]; omega
  obtain ⟨w1, w2, w3, w4, w5⟩ := r2.whole h.whole
  obtain ⟨m', n0, n1, f1, f2, f3, P, C, W, k, p1, p2, p3, p4, p5, p6, p7, p8⟩ := finish r2 hd0 hd3 h.order h.whole F.val domain wtol
    (orientNew E.cheb norm E.S outer) (by
      intro n0 cells hc
      have hlen1 : m1.conn.length % ppc m1 = 0 := by unfold ppc; rw [w1, w3]; exact w5
      unfold OrientsTail orientNew
      cases hS : E.S with
      | true =>
        obtain ⟨m2', g1, g2, g3, g4⟩ := orientLevelset_tail E.cheb norm m1 outer (by rw [w1]; exact hd0) (by rw [w3]; exact h.order) hlen1 n0 _ hc
        exact ⟨m2', by rw [if_pos rfl, g1], g2, g3, g4⟩
      | false =>
        obtain ⟨m2', g1, g2, g3, g4⟩ := orientCells_tail E.cheb m1 (by rw [w1]; exact hd0) (by rw [w3]; exact h.order) hlen1 n0 _ hc
        exact ⟨m2', by rw [if_neg (by simp), g1], g2, g3, g4⟩)
  refine ⟨P, C, W, k, ?_, p2, p3, ?_, p5, m1, r1, p6, by rw [p1] at p7; exact p7, by rw [← p1]; exact p8⟩
  · rw [← p1]
    unfold reparameterize
    rw [f1]
    simp only [Option.bind_eq_bind, Option.bind_some]
    rw [r1]
    simp only [Option.bind_some]
    rw [f2]
    simp only [Option.bind_some]
    exact f3
  · intro p hp
    obtain ⟨q1, q2⟩ := p4 p hp
    exact inBox_forall2 (by rw [q1, h.box]) (by rw [h.box]; exact q2)

/-- **C59**: reparameterizing the negative region (or the zero level set) of a general implicit function in a box into a mesh always
succeeds, leaves the points, cells and wirebasket the mesh had as they were, and appends whole cells: their vertices are the
new points, each of them used exactly once, and all in the box; the appended wirebasket edges have `order` new points each. -/
theorem C59_general_appends (norm : List K → K) (E : Env K) (F : Fn K) (outer : List K → List K) (wtol : K) (m : Mesh K) (domain : Box K)
    (h : Setup E F m domain (m.range - if E.S then 1 else 0)) :
    ∃ (P : List (List K)) (C : List Nat) (W : List (List Nat)) (k : Nat),
      reparameterize norm E F outer wtol m domain = some ⟨m.dim, m.range, m.order, m.points ++ P, m.conn ++ C, m.wires ++ W.flatten⟩ ∧
      P.length = k * m.order ^ m.dim ∧ C.Perm (List.range' m.points.length P.length) ∧
      (∀ p ∈ P, List.Forall₂ (fun (iv : K × K) x => iv.1 ≤ x ∧ x ≤ iv.2) domain p) ∧
      ∀ e ∈ W, e.length = m.order ∧ ∀ i ∈ e, m.points.length ≤ i ∧ i < m.points.length + P.length := by
  obtain ⟨P, C, W, k, p1, p2, p3, p4, p5, _⟩ := general_core norm E F outer wtol m domain h
  exact ⟨P, C, W, k, p1, p2, p3, p4, p5⟩

/-- **C59** (facets): the same for the part of a facet of the box. -/
theorem C59_general_facet_appends (norm : List K → K) (E : Env K) (F : Fn K) (wtol : K) (m : Mesh K) (domain : Box K) (facet : Nat)
    (hf : facet < 2 * m.range) (h : Setup E F m domain (m.range - 1)) :
    ∃ (P : List (List K)) (C : List Nat) (W : List (List Nat)) (k : Nat),
      reparameterizeFacet norm E F wtol m domain facet = some ⟨m.dim, m.range, m.order, m.points ++ P, m.conn ++ C, m.wires ++ W.flatten⟩ ∧
      P.length = k * m.order ^ m.dim ∧ C.Perm (List.range' m.points.length P.length) ∧
      (∀ p ∈ P, List.Forall₂ (fun (iv : K × K) x => iv.1 ≤ x ∧ x ≤ iv.2) domain p) ∧
      ∀ e ∈ W, e.length = m.order ∧ ∀ i ∈ e, m.points.length ≤ i ∧ i < m.points.length + P.length := by
  obtain ⟨E', hE'⟩ : ∃ E' : Env K, E' = { E with S := false } := ⟨_, rfl⟩
  have h' : Setup E' F m domain (m.range - 1) := by
    rw [hE']
    exact ⟨h.roots, h.tol0, h.tol1, h.sort, h.order, h.nodes, h.range, h.dim, h.whole, h.box, h.wide⟩
  have hS' : E'.S = false := by rw [hE']
  obtain ⟨m1, r1, r2⟩ := runCtor_grown h' (some (facet / 2)) (by intro k hk; simp only [Option.some.injEq] at hk; omega)
    (by rw [hS']; simp) (by simp) ⟨(List.replicate m.range 0).set (facet / 2) (facet % 2), -1⟩
  simp only [Option.isSome_some, if_true] at r1
  have hr := h.range
  have hd := h.dim
  have hd0 : 0 < m.dim := by rw [hd]; omega
  have hd3 : m.dim ≤ 3 := by rw [hd]; omega
  obtain ⟨w1, w2, w3, w4, w5⟩ := r2.whole h.whole
  obtain ⟨m', n0, n1, f1, f2, f3, P, C, W, k, p1, p2, p3, p4, p5, _⟩ := finish r2 hd0 hd3 h.order h.whole F.val domain wtol
    (fun m cells => orientFacet E.cheb norm m facet cells) (by
      intro n0 cells hc
      have hlen1 : m1.conn.length % ppc m1 = 0 := by unfold ppc; rw [w1, w3]; exact w5
      unfold OrientsTail orientFacet facetNormal Ids.facetConstantDir Ids.facetSide
      rw [w2, if_pos (by omega), if_pos (by omega)]
      simp only [Option.bind_eq_bind, Option.bind_some]
      obtain ⟨m2', g1, g2, g3, g4⟩ := orientLevelset_tail E.cheb norm m1 _ (by rw [w1]; exact hd0) (by rw [w3]; exact h.order) hlen1 n0 _ hc
      exact ⟨m2', g1, g2, g3, g4⟩)
  refine ⟨P, C, W, k, ?_, p2, p3, ?_, p5⟩
  · rw [← p1]
    unfold reparameterizeFacet Ids.facetConstantDir Ids.facetSide
    rw [if_pos (by omega), if_pos (by omega)]
    simp only [Option.bind_eq_bind, Option.bind_some]
    rw [f1]
    simp only [Option.bind_some]
    rw [← hE', r1]
    simp only [Option.bind_some]
    rw [f2]
    simp only [Option.bind_some]
    exact f3
  · intro p hp
    obtain ⟨q1, q2⟩ := p4 p hp
    exact inBox_forall2 (by rw [q1, h.box]) (by rw [h.box]; exact q2)

/-- The routine `reparam_general` for cut cells, as `create_reparameterization` uses it; the normal `outer` is the gradient of
the function. impl_reparam.cpp:86-89, impl_reparam_general.cpp:942-948. -/
def generalCutCell (norm : List K → K) (E : Env K) (F : Fn K) (outer : List K → List K) (wtol : K) (m : Mesh K) (box : Box K) :
    Option (Mesh K) := reparameterize norm E F outer wtol m box

/-- **C58** (general domains): the routine for general functions is an admissible routine for cut cells, and always succeeds, so
that the theorems on `create_reparameterization` apply; the function, its interval evaluations and the root finder are the
parameter `F`. -/
theorem C58_general (norm : List K → K) (E : Env K) (F : Fn K) (outer : List K → List K) (wtol : K) (g : Grid K) (hv : g.Valid)
    (hg : g.length = 2 ∨ g.length = 3) (order : Nat) (ho : 1 < order) (hF : RootsOk F) (h0 : 0 ≤ E.tol) (h1 : E.tol < 1)
    (hs : IsRootSort E.srt) (hn : ∀ i, i < order → 0 ≤ pointIn01 E.cheb order i ∧ pointIn01 E.cheb order i ≤ 1)
    (hw : ∀ c box, g.cellDomain c = some box → ∀ iv ∈ box, E.tol * 2 ^ (maxSubdivs * (g.length - 1)) < iv.2 - iv.1) :
    CutCellOk g (paramDim g E.S) g.length order (generalCutCell norm E F outer wtol) ∧
    ∀ (m : Mesh K) (c : Nat) (box : Box K), Inv m → m.dim = paramDim g E.S → m.range = g.length → m.order = order →
      g.cellDomain c = some box → ∃ m', generalCutCell norm E F outer wtol m box = some m' := by
  have key : ∀ (m : Mesh K) (c : Nat) (box : Box K), Inv m → m.dim = paramDim g E.S → m.range = g.length → m.order = order →
      g.cellDomain c = some box → Setup E F m box (m.range - if E.S then 1 else 0) := by
    intro m c box hi m1 m2 m3 hb
    have hcl : c < g.numCells := by
      by_contra h
      unfold Grid.cellDomain at hb
      have hn' : ¬ (unflat c g.numCellsDir).isSome := fun hs => h (((C01_domain _).2 c).1 hs)
      rw [Option.not_isSome_iff_eq_none.1 hn'] at hb
      simp at hb
    obtain ⟨b, b1, b2, _⟩ := cellDomain_facts g hv c hcl
    rw [hb] at b1
    cases b1
    refine ⟨hF, h0, h1, hs, by rw [m3]; exact ho, by rw [m3]; exact hn, by rw [m2]; exact hg, ?_, hi.whole, by rw [b2, m2], ?_⟩
    · rw [m1, m2]; unfold paramDim; split <;> rfl
    · rw [m2]; exact hw c box hb
  constructor
  · intro m m' c box hi m1 m2 m3 hb hm
    obtain ⟨P, C, W, k, p1, p2, p3, p4, p5⟩ := C59_general_appends norm E F outer wtol m box (key m c box hi m1 m2 m3 hb)
    unfold generalCutCell at hm
    rw [p1] at hm
    have hm := (Option.some.inj hm).symm
    rw [m1, m2, m3] at hm
    rw [m1, m3] at p2
    rw [m3] at p5
    refine ⟨P, C, W, hm, by rw [p2, Nat.mul_mod_left], p3, fun p hp => ?_, p5⟩
    refine (p4 p hp).imp fun iv x h => ?_
    rw [sub_zero, add_zero]; exact h
  · intro m c box hi m1 m2 m3 hb
    obtain ⟨P, C, W, k, p1, _⟩ := C59_general_appends norm E F outer wtol m box (key m c box hi m1 m2 m3 hb)
    exact ⟨_, p1⟩

end Qugar.General
