import Verif.Lemmas.ReparamEvents
import Verif.Lemmas.ReparamMesh
import Verif.Props.MeshHistory
import Mathlib.Tactic.IntervalCases
/-
Property theorems on the reparameterization of Bézier implicit domains.
-/
namespace Qugar.Reparam
open Roots Mesh Poly Spec TS
variable {K : Type} [Field K] [LinearOrder K] [IsStrictOrderedRing K]

/-- What is assumed of the successive eliminations in dimension `n`: the height direction exists, and the roots found are in
[0,1]; the elimination goes on while there are polynomials. -/
def ElimOk : Nat → List (PolySet K) → Prop
  | 0, _ => True
  | _ + 1, [] => False
  | n + 1, phi :: rest => phi.count = 0 ∨
      (phi.dir < n + 1 ∧ (∀ i p r, r ∈ phi.roots i p → 0 ≤ r ∧ r ≤ 1) ∧ ElimOk n rest)

theorem build_spec : ∀ (dim : Nat) (phis : List (PolySet K)) (parents : List (Level K)), ElimOk dim phis → DirsOk dim parents →
    RootsOk parents → (build dim phis parents).1 + (build dim phis parents).2.length = dim + parents.length ∧
      DirsOk (build dim phis parents).1 (build dim phis parents).2 ∧ RootsOk (build dim phis parents).2 := by
  intro dim
  induction dim with
  | zero => intro phis parents _ hd hr; rw [build]; exact ⟨rfl, hd, hr⟩
  | succ n ih =>
    intro phis parents he hd hr
    cases phis with
    | nil => exact absurd he (by simp [ElimOk])
    | cons phi rest =>
      rw [build]
      by_cases hc : phi.count = 0
      · rw [if_pos hc]; exact ⟨rfl, hd, hr⟩
      · rw [if_neg hc]
        rw [ElimOk] at he
        obtain ⟨h1, h2, h3⟩ := he.resolve_left hc
        generalize baseDirOf n rest = bd
        obtain ⟨i1, i2, i3⟩ := ih rest (⟨phi, if n = 0 then 0 else phi.dir, bd⟩ :: parents) h3
          ⟨by show (if n = 0 then 0 else phi.dir) ≤ n; split <;> omega, hd⟩
          (by
            intro L hL
            rcases List.mem_cons.1 hL with rfl | hL
            · exact h2
            · exact hr L hL)
        refine ⟨?_, i2, i3⟩
        rw [i1, List.length_cons]
        omega

/-- When the elimination goes down to dimension 1, the backup strategy always has a direction. -/
theorem build_base (E : Env K) : ∀ (dim : Nat) (phis : List (PolySet K)) (parents : List (Level K)), ElimOk dim phis →
    ((dim = 0 ∨ ∃ phi rest, phis = phi :: rest ∧ phi.count ≠ 0) → BaseOk E dim parents) →
    (build dim phis parents).1 = 0 → BaseOk E (build dim phis parents).1 (build dim phis parents).2 := by
  intro dim
  induction dim with
  | zero =>
    intro phis parents _ hp _
    rw [build]
    exact hp (Or.inl rfl)
  | succ n ih =>
    intro phis parents he hp h0
    cases phis with
    | nil => exact absurd he (by simp [ElimOk])
    | cons phi rest =>
      rw [build] at h0 ⊢
      by_cases hc : phi.count = 0
      · rw [if_pos hc] at h0; exact absurd h0 (by simp)
      · rw [if_neg hc] at h0 ⊢
        rw [ElimOk] at he
        obtain ⟨h1, h2, h3⟩ := he.resolve_left hc
        have hb := hp (Or.inr ⟨phi, rest, rfl, hc⟩)
        refine ih rest _ h3 ?_ h0
        rintro (hn | ⟨base, rest', rfl, hbc⟩)
        · exact ⟨Or.inl hn, hb⟩
        · refine ⟨?_, hb⟩
          by_cases hn : n = 0
          · exact Or.inl hn
          · right; left
            show baseDirOf n (base :: rest') < n
            rw [baseDirOf, if_neg hbc]
            obtain ⟨k, rfl⟩ := Nat.exists_eq_succ_of_ne_zero hn
            rw [ElimOk] at h3
            have := (h3.resolve_left hbc).1
            split <;> omega

/-- Number of cells of the reparameterization: the number of cells found over the reference point, or the full cell (volume)
or none (level set) when there are no polynomials. -/
def cellCount (E : Env K) (bl : Nat × List (Level K)) : Nat :=
  if bl.2.isEmpty then (if E.S then 0 else 1) else (allCells E bl.1 bl.2).length

/-- The parameters, the oracle and the mesh are fine. `dim` is 1, 2 or 3, `range` is `dim` (volume) or `dim + 1` (level set). -/
structure Setup (cheb : Nat → Nat → K) (E : Env K) (phis : List (PolySet K)) (m : Mesh K) : Prop where
  env : EnvOk E
  order : E.order = m.order
  order2 : 1 < m.order
  dim : 0 < m.dim
  dim3 : m.dim ≤ 3
  range : m.range = m.dim + (if E.S then 1 else 0)
  whole : m.conn.length % m.order ^ m.dim = 0
  nodes : ∀ i, i < m.order → 0 ≤ pointIn01 cheb m.order i ∧ pointIn01 cheb m.order i ≤ 1
  elim : ElimOk m.range phis

theorem create_spec (cheb : Nat → Nat → K) (E : Env K) (phis : List (BezierPoly K) → List (PolySet K)) (m : Mesh K)
    (polys : List (BezierPoly K)) (h : Setup cheb E (phis (keptPolys polys)) m) :
    (∀ m', create cheb E phis m polys = some m' → ∃ (P : List (List K)) (C : List Nat),
      m' = { m with points := m.points ++ P, conn := m.conn ++ C } ∧
      C.Perm (List.range' m.points.length P.length) ∧
      P.length = cellCount E (build m.range (phis (keptPolys polys)) []) * m.order ^ m.dim ∧
      ∀ p ∈ P, p.length = m.range ∧ InCube p) ∧
    (((build m.range (phis (keptPolys polys)) []).2 ≠ [] →
      BaseOk E (build m.range (phis (keptPolys polys)) []).1 (build m.range (phis (keptPolys polys)) []).2) →
      ∃ m', create cheb E phis m polys = some m') := by
  obtain ⟨bl, hbl⟩ : ∃ bl, bl = build m.range (phis (keptPolys polys)) [] := ⟨_, rfl⟩
  obtain ⟨b1, b2, b3⟩ := build_spec m.range (phis (keptPolys polys)) [] h.elim trivial (by intro L hL; simp at hL)
  rw [← hbl] at b1 b2 b3
  unfold create
  rw [← hbl]
  dsimp only
  have hpos : 0 < m.order ^ m.dim := Nat.pow_pos (by have := h.order2; omega)
  cases hE : bl.2.isEmpty with
  | true =>
    rw [if_pos rfl]
    unfold cellCount
    rw [hE, if_pos rfl]
    cases hS : E.S with
    | true =>
      simp only [if_true]
      refine ⟨?_, fun _ => ⟨m, rfl⟩⟩
      intro m' hm'
      cases hm'
      exact ⟨[], [], by simp, by simp, by simp, by simp⟩
    | false =>
      have hr : m.range = m.dim := by rw [h.range, hS]; simp
      simp only [Bool.false_eq_true, if_false]
      have hpe := pushFullCell_eq cheb m (unitBox m.range) h.dim h.order2
      have hfull : addFullCell cheb m (unitBox m.range) false = some (pushFullCell cheb m (unitBox m.range)) := by
        unfold addFullCell numCells ppc
        rw [hpe]
        dsimp only
        rw [if_pos (by rw [List.length_append, List.length_range', Nat.add_mod_right]; exact h.whole)]
        rfl
      rw [hfull, hpe]
      refine ⟨?_, fun _ => ⟨_, rfl⟩⟩
      intro m' hm'
      cases hm'
      have hl : ((indices (List.replicate m.dim m.order)).map (fullCellPoint cheb m.order (unitBox m.range))).length =
          m.order ^ m.dim := by
        rw [List.length_map, length_indices, listProd_replicate]
      refine ⟨_, _, rfl, by rw [hl], by rw [hl]; omega, ?_⟩
      intro p hp
      obtain ⟨t, ht, rfl⟩ := List.mem_map.1 hp
      rw [mem_indices_iff] at ht
      unfold fullCellPoint unitBox
      refine ⟨by rw [List.length_zipWith, List.length_replicate, ht.1, hr]; simp, ?_⟩
      intro x hx
      obtain ⟨k, hk, rfl⟩ := List.getElem_of_mem hx
      rw [List.length_zipWith] at hk
      rw [List.getElem_zipWith, List.getElem_replicate]
      have := h.nodes _ (ht.2 _ (List.getElem_mem (by omega : k < t.length)))
      constructor
      · simpa using this.1
      · simpa using this.2
  | false =>
    have hne : bl.2 ≠ [] := by intro h0; rw [h0] at hE; simp at hE
    rw [if_neg (by simp)]
    obtain ⟨hev, htot⟩ := events_spec E h.env bl.1 bl.2 hne b3 b2
    have hdim : bl.1 + bl.2.length - (if E.S then 1 else 0) = m.dim := by
      rw [b1, h.range]; simp
    have hcc : cellCount E bl = (allCells E bl.1 bl.2).length := by unfold cellCount; rw [hE]; simp
    have key : ∀ evs, events E bl.1 bl.2 = some evs → ∃ st, evs.foldlM insertPoint (m, []) = some st ∧ ∃ C, After m evs st C ∧
        C.Perm (List.range' m.points.length evs.length) ∧ evs.length = cellCount E bl * m.order ^ m.dim := by
      intro evs he
      obtain ⟨e1, e2, e3⟩ := hev evs he
      rw [hdim, h.order] at e2
      have hpt : ∀ e ∈ evs, e.pt ∈ indices (List.replicate m.dim m.order) := fun e hee =>
        ((e2 e.cell e.pt).1 (List.mem_map.2 ⟨e, hee, rfl⟩)).2
      obtain ⟨st, hst, C, hA⟩ := insert_all m h.order2 h.whole evs hpt e1
      obtain ⟨p1, p2⟩ := after_perm h.order2 h.whole hpt e1
        (cells_nodup E bl.2 (List.replicate bl.1 (1 / 2)) (List.replicate bl.1 0) (by simpa using b2)) e2 hA
      refine ⟨st, hst, C, hA, p1, ?_⟩
      have := p1.length_eq
      rw [List.length_range', hA.len, p2] at this
      rw [← this, hcc]
      rfl
    constructor
    · intro m' hm'
      simp only [Option.bind_eq_bind] at hm'
      obtain ⟨evs, he, hm'⟩ := Option.bind_eq_some_iff.1 hm'
      obtain ⟨st', hst', hm'⟩ := Option.bind_eq_some_iff.1 hm'
      cases hm'
      obtain ⟨st, hst, C, hA, p1, p2⟩ := key evs he
      rw [hst] at hst'
      cases hst'
      refine ⟨evs.map fun e => e.point.reverse, C, hA.mesh, by rw [List.length_map]; exact p1, by rw [List.length_map]; exact p2, ?_⟩
      intro p hp
      obtain ⟨e, hee, rfl⟩ := List.mem_map.1 hp
      obtain ⟨-, -, e3⟩ := hev evs he
      obtain ⟨q1, q2⟩ := e3 e hee
      refine ⟨by rw [List.length_reverse, q1, b1]; simp, ?_⟩
      intro x hx
      exact q2 x (List.mem_reverse.1 hx)
    · intro hb
      obtain ⟨evs, he⟩ := htot (hb hne)
      obtain ⟨st, hst, _⟩ := key evs he
      rw [he]
      simp only [Option.bind_eq_bind, Option.bind_some]
      rw [hst]
      exact ⟨_, rfl⟩

theorem scale_in_box : ∀ (domain : Box K) (p : List K), p.length = domain.length → InCube p → (∀ iv ∈ domain, iv.1 ≤ iv.2) →
    List.Forall₂ (fun (iv : K × K) x => iv.1 ≤ x ∧ x ≤ iv.2) domain (scalePoint (unitBox domain.length) domain p) := by
  intro domain
  induction domain with
  | nil => intro p hl _ _; rw [List.length_eq_zero_iff.1 hl]; simp [scalePoint]
  | cons iv domain ih =>
    intro p hl hp hd
    cases p with
    | nil => simp at hl
    | cons x p =>
      have h1 := ih p (by simpa using hl) (fun y hy => hp y (by simp [hy])) (fun iv hiv => hd iv (by simp [hiv]))
      have h2 := hp x (by simp)
      have h3 := hd iv (by simp)
      unfold scalePoint unitBox at *
      rw [List.length_cons, List.replicate_succ, List.zip_cons_cons, List.zipWith_cons_cons]
      refine List.Forall₂.cons ?_ h1
      have e : (iv.2 - iv.1) / (1 - 0) * x + (iv.1 - 0 * ((iv.2 - iv.1) / (1 - 0))) = iv.1 * (1 - x) + iv.2 * x := by
        rw [sub_zero, div_one]; ring
      dsimp only
      rw [e]
      have a := mul_le_mul_of_nonneg_right h3 h2.1
      have b := mul_le_mul_of_nonneg_right h3 (sub_nonneg.2 h2.2)
      constructor <;> linarith

/-- `C53_reparam_appends`, and where the points come from. -/
theorem reparam_appends (cheb : Nat → Nat → K) (norm : List K → K) (E : Env K) (phis : List (BezierPoly K) → List (PolySet K))
    (outer : List K → List K) (wtol : K) (m : Mesh K) (polys : List (BezierPoly K)) (domain : Box K)
    (h : Setup cheb E (phis (keptPolys polys)) m) (hd : domain.length = m.range) (hd2 : ∀ iv ∈ domain, iv.1 ≤ iv.2) (m' : Mesh K)
    (hm' : reparameterize cheb norm E phis outer wtol m polys domain = some m') :
    ∃ (P : List (List K)) (C : List Nat) (W : List (List Nat)),
      m' = ⟨m.dim, m.range, m.order, m.points ++ P, m.conn ++ C, m.wires ++ W.flatten⟩ ∧
      P.length = cellCount E (build m.range (phis (keptPolys polys)) []) * m.order ^ m.dim ∧
      C.Perm (List.range' m.points.length P.length) ∧
      (∀ p ∈ P, List.Forall₂ (fun (iv : K × K) x => iv.1 ≤ x ∧ x ≤ iv.2) domain p) ∧
      (∀ e ∈ W, e.length = m.order ∧ ∀ i ∈ e, m.points.length ≤ i ∧ i < m.points.length + P.length) ∧
      ∃ P0, (create cheb E phis m polys).map (·.points) = some (m.points ++ P0) ∧ P = P0.map (scalePoint (unitBox m.range) domain) := by
  obtain ⟨n0, hn0⟩ : ∃ n0, n0 = m.conn.length / m.order ^ m.dim := ⟨_, rfl⟩
  have hpos : 0 < m.order ^ m.dim := Nat.pow_pos (by have := h.order2; omega)
  have hn0P : m.conn.length = n0 * m.order ^ m.dim := by
    rw [hn0]; exact (Nat.div_mul_cancel (Nat.dvd_of_mod_eq_zero h.whole)).symm
  unfold reparameterize at hm'
  simp only [Option.bind_eq_bind] at hm'
  obtain ⟨n0', hn0', hm'⟩ := Option.bind_eq_some_iff.1 hm'
  obtain ⟨m1, hm1, hm'⟩ := Option.bind_eq_some_iff.1 hm'
  obtain ⟨n1, hn1, hm'⟩ := Option.bind_eq_some_iff.1 hm'
  obtain ⟨m2, hm2, hm'⟩ := Option.bind_eq_some_iff.1 hm'
  obtain ⟨m3, hm3, hm'⟩ := Option.bind_eq_some_iff.1 hm'
  have e0 : n0' = n0 := by
    unfold numCells ppc at hn0'
    rw [if_pos h.whole] at hn0'
    cases hn0'
    exact hn0.symm
  subst e0
  obtain ⟨P, C, e1, c1, c2, c3⟩ := (create_spec cheb E phis m polys h).1 m1 hm1
  obtain ⟨k, hk⟩ : ∃ k, k = cellCount E (build m.range (phis (keptPolys polys)) []) := ⟨_, rfl⟩
  rw [← hk] at c2 ⊢
  have hCl : C.length = k * m.order ^ m.dim := by rw [c1.length_eq, List.length_range', c2]
  have hm1len : m1.conn.length = (n0' + k) * m.order ^ m.dim := by
    rw [e1]
    show (m.conn ++ C).length = _
    rw [List.length_append, hn0P, hCl, Nat.add_mul]
  have hppc1 : ppc m1 = m.order ^ m.dim := by rw [e1]; rfl
  have hlen1 : m1.conn.length % ppc m1 = 0 := by rw [hm1len, hppc1, Nat.mul_mod_left]
  have hn1e : n1 = n0' + k := by
    unfold numCells at hn1
    rw [if_pos hlen1] at hn1
    cases hn1
    rw [hm1len, hppc1, Nat.mul_div_cancel _ hpos]
  have hdiv1 : m1.conn.length / ppc m1 = n0' + k := by rw [hm1len, hppc1, Nat.mul_div_cancel _ hpos]
  have hcells : ∀ c ∈ List.range' n0' (n1 - n0'), n0' ≤ c ∧ c < m1.conn.length / ppc m1 := by
    intro c hc
    rw [List.mem_range'_1] at hc
    rw [hdiv1]
    omega
  have hdim1 : 0 < m1.dim := by rw [e1]; exact h.dim
  have ho1 : 1 < m1.order := by rw [e1]; exact h.order2
  have hor : SameShape m1 m2 ∧ m2.conn.take (n0' * ppc m1) = m1.conn.take (n0' * ppc m1) := by
    unfold orientNew at hm2
    cases hS : E.S with
    | true =>
      obtain ⟨m2', g1, g2, g3, _⟩ := orientLevelset_tail cheb norm m1 outer hdim1 ho1 hlen1 n0' _ hcells
      rw [hS, if_pos rfl, g1] at hm2
      cases hm2
      exact ⟨g2, g3⟩
    | false =>
      obtain ⟨m2', g1, g2, g3, _⟩ := orientCells_tail cheb m1 hdim1 ho1 hlen1 n0' _ hcells
      rw [hS, if_neg (by simp), g1] at hm2
      cases hm2
      exact ⟨g2, g3⟩
  obtain ⟨hs, htake⟩ := hor
  rw [hppc1, ← hn0P] at htake
  have hconn2 : ∃ C2 : List Nat, m2.conn = m.conn ++ C2 ∧ C2.Perm C := by
    have ht1 : m1.conn.take m.conn.length = m.conn := by rw [e1]; simp
    rw [ht1] at htake
    refine ⟨m2.conn.drop m.conn.length, ?_, ?_⟩
    · conv_lhs => rw [← List.take_append_drop m.conn.length m2.conn]
      rw [htake]
    · have hp := hs.perm
      rw [← List.take_append_drop m.conn.length m2.conn, htake] at hp
      have e1c : m1.conn = m.conn ++ C := by rw [e1]
      rw [e1c] at hp
      exact (List.perm_append_left_iff _).1 hp
  obtain ⟨C2, hC2, hC2p⟩ := hconn2
  have hpts2 : m2.points = m.points ++ P := by rw [hs.points, e1]
  have hwir2 : m2.wires = m.wires := by rw [hs.wires, e1]
  have hdim2 : m2.dim = m.dim := by rw [hs.dim, e1]
  have hord2 : m2.order = m.order := by rw [hs.order, e1]
  have hran2 : m2.range = m.range := by rw [hs.range, e1]
  have hC2len : C2.length = k * m.order ^ m.dim := by rw [hC2p.length_eq, hCl]
  have hnew : ∀ j, m.conn.length ≤ j → ∀ i, m2.conn[j]? = some i → m.points.length ≤ i ∧ i < m.points.length + P.length := by
    intro j hj i hi
    rw [hC2, List.getElem?_append_right hj] at hi
    have := hC2p.mem_iff.1 (List.mem_of_getElem? hi)
    have := c1.mem_iff.1 this
    rw [List.mem_range'_1] at this
    exact this
  have hdiv2 : m2.conn.length / m2.order ^ m2.dim = n0' + k := by
    rw [hC2, List.length_append, hn0P, hC2len, hord2, hdim2, ← Nat.add_mul, Nat.mul_div_cancel _ hpos]
  have hw3 : ∃ W : List (List Nat), m3 = { m2 with wires := m.wires ++ W.flatten } ∧
      ∀ e ∈ W, e.length = m.order ∧ ∀ i ∈ e, m.points.length ≤ i ∧ i < m.points.length + P.length := by
    unfold generateWirebasket at hm3
    split at hm3
    · rcases Nat.lt_or_ge 1 m.dim with hd1 | hd1
      · have hd23 : m2.dim = 2 ∨ m2.dim = 3 := by have := h.dim3; omega
        have hcells2 : ∀ c ∈ List.range' n0' (n1 - n0'), c < m2.conn.length / m2.order ^ m2.dim := by
          intro c hc
          rw [hdiv2]
          have := (hcells c hc).2
          omega
        have hblock : ∀ c ∈ List.range' n0' (n1 - n0'), ∀ j, c * m2.order ^ m2.dim ≤ j → m.conn.length ≤ j := by
          intro c hc j hj
          rw [hn0P]
          rw [hord2, hdim2] at hj
          exact le_trans (Nat.mul_le_mul_right _ (hcells c hc).1) hj
        rw [addWires_eq m2 _ _ _ _ _ hd23 (by rw [hord2]; exact h.order2) hcells2
          (fun c hc j hj _ i hi => by rw [hpts2, List.length_append]; exact (hnew j (hblock c hc j hj) i hi).2)] at hm3
        cases hm3
        refine ⟨_, by rw [hwir2], ?_⟩
        intro e he
        unfold newWires at he
        have he := (List.mem_filter.1 he).1
        obtain ⟨c, hc, he⟩ := List.mem_flatMap.1 he
        obtain ⟨ed, _, rfl⟩ := List.mem_map.1 he
        refine ⟨by unfold edgeOf; rw [sortEdge_length]; simp [rawEdge, hord2], ?_⟩
        intro i hi
        obtain ⟨j, j1, _, j3⟩ := edgeOf_mem m2 hd23 (by rw [hord2]; exact h.order2) (hcells2 c hc) hi
        exact hnew j (hblock c hc j j1) i j3
      · unfold addWires at hm3
        rw [if_neg (by omega)] at hm3
        cases hm3
        exact ⟨[], by rw [← hwir2]; simp, by simp⟩
    · exact absurd hm3 (by simp)
  obtain ⟨W, hW1, hW2⟩ := hw3
  have hp1 : m1.points.length - m.points.length = P.length := by rw [e1]; simp
  rw [hp1] at hm'
  have hsc := scalePoints_tail m3 (unitBox m3.range) domain P m.points (by rw [hW1]; exact hpts2)
  rw [hsc] at hm'
  cases hm'
  have hr3 : m3.range = domain.length := by rw [hW1, hd]; exact hran2
  refine ⟨P.map (scalePoint (unitBox m3.range) domain), C2, W, ?_, by rw [List.length_map]; exact c2,
    by rw [List.length_map]; exact hC2p.trans c1, ?_, by rw [List.length_map]; exact hW2, P, by rw [hm1, e1]; rfl, ?_⟩
  · rw [hW1]
    simp [hdim2, hran2, hord2, hC2]
  · intro p hp
    obtain ⟨q, hq, rfl⟩ := List.mem_map.1 hp
    obtain ⟨q1, q2⟩ := c3 q hq
    rw [hr3]
    exact scale_in_box domain q (by rw [q1, hd]) q2 hd2
  · rw [hW1]; exact congrArg (fun n => P.map (scalePoint (unitBox n) domain)) hran2

/-- **C53**: reparameterizing a Bézier domain into a mesh leaves the points, cells and wirebasket the mesh had as they were,
and appends whole cells: their vertices are the new points, each of them used exactly once, and all in the given domain; the
appended wirebasket edges have `order` points each, all of them new. -/
theorem C53_reparam_appends (cheb : Nat → Nat → K) (norm : List K → K) (E : Env K) (phis : List (BezierPoly K) → List (PolySet K))
    (outer : List K → List K) (wtol : K) (m : Mesh K) (polys : List (BezierPoly K)) (domain : Box K)
    (h : Setup cheb E (phis (keptPolys polys)) m) (hd : domain.length = m.range) (hd2 : ∀ iv ∈ domain, iv.1 ≤ iv.2) (m' : Mesh K)
    (hm' : reparameterize cheb norm E phis outer wtol m polys domain = some m') :
    ∃ (P : List (List K)) (C : List Nat) (W : List (List Nat)),
      m' = ⟨m.dim, m.range, m.order, m.points ++ P, m.conn ++ C, m.wires ++ W.flatten⟩ ∧
      P.length = cellCount E (build m.range (phis (keptPolys polys)) []) * m.order ^ m.dim ∧
      C.Perm (List.range' m.points.length P.length) ∧
      (∀ p ∈ P, List.Forall₂ (fun (iv : K × K) x => iv.1 ≤ x ∧ x ≤ iv.2) domain p) ∧
      ∀ e ∈ W, e.length = m.order ∧ ∀ i ∈ e, m.points.length ≤ i ∧ i < m.points.length + P.length := by
  obtain ⟨P, C, W, h1, h2, h3, h4, h5, -⟩ := reparam_appends cheb norm E phis outer wtol m polys domain h hd hd2 m' hm'
  exact ⟨P, C, W, h1, h2, h3, h4, h5⟩

/-- **C53** (totality): with one polynomial, the reparameterization succeeds when the elimination goes down to dimension 1, and
also otherwise if the number of roots over the base stays the same (all away from the ends). -/
theorem C53_reparam_succeeds_partial (cheb : Nat → Nat → K) (norm : List K → K) (E : Env K) (phis : List (BezierPoly K) → List (PolySet K))
    (outer : List K → List K) (wtol : K) (m : Mesh K) (polys : List (BezierPoly K)) (domain : Box K)
    (h : Setup cheb E (phis (keptPolys polys)) m) (hone : polys.length = 1)
    (hb : (build m.range (phis (keptPolys polys)) []).1 = 0 ∨ (build m.range (phis (keptPolys polys)) []).2 = [] ∨
      BaseOk E (build m.range (phis (keptPolys polys)) []).1 (build m.range (phis (keptPolys polys)) []).2) :
    ∃ m', reparameterize cheb norm E phis outer wtol m polys domain = some m' := by
  obtain ⟨m1, hm1⟩ := (create_spec cheb E phis m polys h).2 (by
    intro hne
    rcases hb with hb | hb | hb
    · exact build_base E m.range _ [] h.elim (fun _ => trivial) hb
    · exact absurd hb hne
    · exact hb)
  obtain ⟨n0, hn0⟩ : ∃ n0, n0 = m.conn.length / m.order ^ m.dim := ⟨_, rfl⟩
  have hpos : 0 < m.order ^ m.dim := Nat.pow_pos (by have := h.order2; omega)
  have hn0P : m.conn.length = n0 * m.order ^ m.dim := by
    rw [hn0]; exact (Nat.div_mul_cancel (Nat.dvd_of_mod_eq_zero h.whole)).symm
  obtain ⟨P, C, e1, c1, c2, c3⟩ := (create_spec cheb E phis m polys h).1 m1 hm1
  obtain ⟨k, hk⟩ : ∃ k, k = cellCount E (build m.range (phis (keptPolys polys)) []) := ⟨_, rfl⟩
  rw [← hk] at c2
  have hCl : C.length = k * m.order ^ m.dim := by rw [c1.length_eq, List.length_range', c2]
  have hm1len : m1.conn.length = (n0 + k) * m.order ^ m.dim := by
    rw [e1]
    show (m.conn ++ C).length = _
    rw [List.length_append, hn0P, hCl, Nat.add_mul]
  have hppc1 : ppc m1 = m.order ^ m.dim := by rw [e1]; rfl
  have hlen1 : m1.conn.length % ppc m1 = 0 := by rw [hm1len, hppc1, Nat.mul_mod_left]
  have hdiv1 : m1.conn.length / ppc m1 = n0 + k := by rw [hm1len, hppc1, Nat.mul_div_cancel _ hpos]
  have hn1 : numCells m1 = some (n0 + k) := by unfold numCells; rw [if_pos hlen1, hdiv1]
  have hn0' : numCells m = some n0 := by unfold numCells ppc; rw [if_pos h.whole, hn0]
  have hcells : ∀ c ∈ List.range' n0 (n0 + k - n0), n0 ≤ c ∧ c < m1.conn.length / ppc m1 := by
    intro c hc
    rw [List.mem_range'_1] at hc
    rw [hdiv1]
    omega
  have hdim1 : 0 < m1.dim := by rw [e1]; exact h.dim
  have ho1 : 1 < m1.order := by rw [e1]; exact h.order2
  have hor : ∃ m2, orientNew cheb norm E.S outer m1 (List.range' n0 (n0 + k - n0)) = some m2 ∧ SameShape m1 m2 ∧
      m2.conn.take (n0 * ppc m1) = m1.conn.take (n0 * ppc m1) := by
    unfold orientNew
    cases hS : E.S with
    | true =>
      obtain ⟨m2', g1, g2, g3, _⟩ := orientLevelset_tail cheb norm m1 outer hdim1 ho1 hlen1 n0 _ hcells
      exact ⟨m2', by rw [if_pos rfl, g1], g2, g3⟩
    | false =>
      obtain ⟨m2', g1, g2, g3, _⟩ := orientCells_tail cheb m1 hdim1 ho1 hlen1 n0 _ hcells
      exact ⟨m2', by rw [if_neg (by simp), g1], g2, g3⟩
  obtain ⟨m2, hm2, hs, htake⟩ := hor
  rw [hppc1, ← hn0P] at htake
  have hpts2 : m2.points = m.points ++ P := by rw [hs.points, e1]
  have hdim2 : m2.dim = m.dim := by rw [hs.dim, e1]
  have hord2 : m2.order = m.order := by rw [hs.order, e1]
  have hnew : ∀ j, m.conn.length ≤ j → ∀ i, m2.conn[j]? = some i → i < m2.points.length := by
    intro j hj i hi
    have ht1 : m1.conn.take m.conn.length = m.conn := by rw [e1]; simp
    rw [ht1] at htake
    have hp := hs.perm
    rw [← List.take_append_drop m.conn.length m2.conn, htake] at hp
    have e1c : m1.conn = m.conn ++ C := by rw [e1]
    rw [e1c] at hp
    have hp := (List.perm_append_left_iff _).1 hp
    have hmem : i ∈ m2.conn.drop m.conn.length := by
      refine List.mem_of_getElem? (i := j - m.conn.length) ?_
      rw [List.getElem?_drop, ← hi]
      congr 1
      omega
    have := c1.mem_iff.1 (hp.mem_iff.1 hmem)
    rw [List.mem_range'_1] at this
    rw [hpts2, List.length_append]
    exact this.2
  have hw : ∃ m3, generateWirebasket m2 (polys.map (·.value)) (List.range' n0 (n0 + k - n0)) (unitBox m2.range) wtol = some m3 ∧
      m3.points = m2.points := by
    unfold generateWirebasket
    rw [if_pos (by simpa using hone)]
    rcases Nat.lt_or_ge 1 m.dim with hd1 | hd1
    · have hd23 : m2.dim = 2 ∨ m2.dim = 3 := by have := h.dim3; omega
      refine ⟨_, addWires_eq m2 _ _ _ _ _ hd23 (by rw [hord2]; exact h.order2) ?_ ?_, rfl⟩
      · intro c hc
        have := (hcells c hc).2
        rw [← hs.ppc, ← hs.len] at this
        exact this
      · intro c hc j hj _ i hi
        refine hnew j ?_ i hi
        rw [hn0P]
        rw [hord2, hdim2] at hj
        exact le_trans (Nat.mul_le_mul_right _ (hcells c hc).1) hj
    · refine ⟨m2, ?_, rfl⟩
      unfold addWires
      rw [if_neg (by omega)]
  obtain ⟨m3, hm3, hp3⟩ := hw
  have hsc := scalePoints_tail m3 (unitBox m3.range) domain P m.points (by rw [hp3, hpts2])
  refine ⟨{ m3 with points := m.points ++ P.map (scalePoint (unitBox m3.range) domain) }, ?_⟩
  · unfold reparameterize
    rw [hn0']
    simp only [Option.bind_eq_bind, Option.bind_some]
    rw [hm1]
    simp only [Option.bind_some]
    rw [hn1]
    simp only [Option.bind_some]
    rw [hm2]
    simp only [Option.bind_some]
    rw [hm3]
    simp only [Option.bind_some]
    have hp1 : m1.points.length - m.points.length = P.length := by rw [e1]; simp
    rw [hp1]
    exact hsc

/-! ### The cells -/

/-- Interval `i` over `q` is longer than the tolerance and its mid-point is inside. -/
def InsideInterval (E : Env K) (L : Level K) (q : List K) (i : Nat) : Prop :=
  i + 1 < (breaks E L q).length ∧ E.tol < |((breaks E L q).getD i (0, -1)).1 - ((breaks E L q).getD (i + 1) (0, -1)).1| ∧
    ∀ k, k < L.phi.count → L.phi.eval k (midPoint L (breaks E L q) q i) ≤ 0

/-- The sequences of intervals that give a cell: an interval longer than the tolerance on the line over the reference point, then
one over its mid-point, and so on; on the last line, an interval whose mid-point is inside (volume), or an interval such that
exactly one of it and the next one is inside (level set). -/
def Column (E : Env K) : List (Level K) → List K → List Nat → Prop
  | L :: Ls, q, i :: is => i + 1 < (breaks E L q).length ∧
      (if Ls.isEmpty then is = [] ∧
        (if E.S then i + 2 < (breaks E L q).length ∧ ¬ (InsideInterval E L q i ↔ InsideInterval E L q (i + 1))
          else InsideInterval E L q i)
      else E.tol < |((breaks E L q).getD i (0, -1)).1 - ((breaks E L q).getD (i + 1) (0, -1)).1| ∧
        Column E Ls (midPoint L (breaks E L q) q i) is)
  | _, _, _ => False

/-- The sequences, in the order of the cells. -/
def paths (E : Env K) : List (Level K) → List K → List (List Nat)
  | [], _ => []
  | L :: Ls, q =>
    (List.range (actives E (L :: Ls) q).length).flatMap fun i =>
      if (actives E (L :: Ls) q).getD i false then
        if Ls.isEmpty then [[i]] else (paths E Ls (midPoint L (breaks E L q) q i)).map (i :: ·)
      else []

theorem paths_length (E : Env K) : ∀ (Ls : List (Level K)) (q : List K) (tid : List Nat),
    (paths E Ls q).length = (cells E Ls q tid).length := by
  intro Ls
  induction Ls with
  | nil => intro q tid; rfl
  | cons L Ls ih =>
    intro q tid
    rw [paths, cells, List.length_flatMap, List.length_flatMap]
    congr 1
    apply List.map_congr_left
    intro i _
    split
    · split
      · rfl
      · rw [List.length_map]; exact ih _ _
    · rfl

theorem paths_nodup (E : Env K) : ∀ (Ls : List (Level K)) (q : List K), (paths E Ls q).Nodup := by
  intro Ls
  induction Ls with
  | nil => intro q; simp [paths]
  | cons L Ls ih =>
    intro q
    rw [paths, List.nodup_flatMap]
    constructor
    · intro i _
      split
      · split
        · simp
        · exact (ih _).map fun a b hab => by simpa using hab
      · simp
    · refine List.Pairwise.imp_of_mem ?_ (List.nodup_range (n := (actives E (L :: Ls) q).length))
      intro i j _ _ hij
      have key : ∀ (i : Nat) (x : List Nat), x ∈ (if (actives E (L :: Ls) q).getD i false then
          if Ls.isEmpty then [[i]] else (paths E Ls (midPoint L (breaks E L q) q i)).map (i :: ·) else []) → x.head? = some i := by
        intro i x hx
        have hx := (mem_ite_nil hx).2
        split at hx
        · rw [List.mem_singleton.1 hx]; rfl
        · obtain ⟨y, _, rfl⟩ := List.mem_map.1 hx; rfl
      intro x hx hx'
      have h1 := key i x hx
      rw [key j x hx'] at h1
      exact hij (Option.some.inj h1).symm

theorem nonDeg_iff (E : Env K) (rts : List (Root K)) (i : Nat) : nonDeg E rts i = true ↔
    E.tol < |(rts.getD i (0, -1)).1 - (rts.getD (i + 1) (0, -1)).1| := by
  unfold nonDeg Tol.equal
  simp

theorem top_flag (E : Env K) (acts : List K → List Bool) (L : Level K) (q : List K) (i : Nat) :
    (flags E acts true L q).getD i false = true ↔ InsideInterval E L q i := by
  rw [flags_getD]
  simp only [if_true, Bool.and_eq_true, decide_eq_true_eq, nonDeg_iff, InsideInterval, inside, List.all_eq_true, List.mem_range,
    Bool.not_eq_true', decide_eq_false_iff_not, not_lt]
  constructor
  · rintro ⟨a, b, c⟩; exact ⟨by omega, b, c⟩
  · rintro ⟨a, b, c⟩; exact ⟨by omega, b, c⟩

theorem mem_paths (E : Env K) : ∀ (Ls : List (Level K)) (q : List K) (x : List Nat), x ∈ paths E Ls q ↔ Column E Ls q x := by
  intro Ls
  induction Ls with
  | nil => intro q x; simp [paths, Column]
  | cons L Ls ih =>
    intro q x
    have hlen := actives_length E L Ls q
    have hany : ∀ (Ls : List (Level K)) (q : List K) (y : List Nat), y ∈ paths E Ls q → (actives E Ls q).any id = true := by
      intro Ls q y hy
      cases Ls with
      | nil => simp [paths] at hy
      | cons L Ls =>
        rw [paths] at hy
        obtain ⟨i, hi, hy⟩ := List.mem_flatMap.1 hy
        have := (mem_ite_nil hy).1
        rw [any_id_iff]
        exact List.any_eq_true.2 ⟨i, hi, this⟩
    rw [paths]
    constructor
    · intro hx
      obtain ⟨i, hi, hx⟩ := List.mem_flatMap.1 hx
      have hi := List.mem_range.1 hi
      obtain ⟨ha, hx⟩ := mem_ite_nil hx
      have hib : i + 1 < (breaks E L q).length := by omega
      cases hE : Ls.isEmpty with
      | true =>
        rw [hE, if_pos rfl, List.mem_singleton] at hx
        subst hx
        rw [Column, hE, if_pos rfl]
        refine ⟨hib, rfl, ?_⟩
        rw [actives, hE] at ha
        cases hS : E.S with
        | true =>
          rw [hS] at ha
          simp only [Bool.and_self, if_true] at ha
          unfold jumps at ha
          have hfl : (flags E (actives E Ls) true L q).length = (breaks E L q).length - 1 := by simp [flags]
          rw [hfl] at ha
          have : i < (breaks E L q).length - 1 := by omega
          simp only [List.getD_eq_getElem?_getD, List.getElem?_map, List.getElem?_range this, Option.map_some, Option.getD_some,
            Bool.and_eq_true, decide_eq_true_eq, bne_iff_ne, ne_eq] at ha
          rw [if_pos rfl]
          refine ⟨by omega, ?_⟩
          intro hiff
          apply ha.2
          have h1 := top_flag E (actives E Ls) L q i
          have h2 := top_flag E (actives E Ls) L q (i + 1)
          rw [List.getD_eq_getElem?_getD] at h1 h2
          rw [Bool.eq_iff_iff, h1, h2]
          exact hiff
        | false =>
          rw [hS] at ha
          simp only [Bool.and_false, Bool.false_eq_true, if_false] at ha
          rw [if_neg (by simp)]
          exact (top_flag E (actives E Ls) L q i).1 ha
      | false =>
        rw [hE, if_neg (by simp)] at hx
        obtain ⟨y, hy, rfl⟩ := List.mem_map.1 hx
        rw [Column, hE, if_neg (by simp)]
        refine ⟨hib, ?_, (ih _ y).1 hy⟩
        obtain ⟨L', Ls', rfl⟩ := List.exists_cons_of_ne_nil (l := Ls) (by rintro rfl; simp at hE)
        exact (nonDeg_iff E _ i).1 (active_nonDeg ha).2
    · intro hx
      cases x with
      | nil => simp [Column] at hx
      | cons i is =>
        rw [Column] at hx
        obtain ⟨hib, hx⟩ := hx
        rw [List.mem_flatMap]
        refine ⟨i, List.mem_range.2 (by omega), ?_⟩
        cases hE : Ls.isEmpty with
        | true =>
          rw [hE, if_pos rfl] at hx
          obtain ⟨rfl, hx⟩ := hx
          rw [if_pos ?_]
          · simp
          rw [actives, hE]
          cases hS : E.S with
          | true =>
            rw [hS, if_pos rfl] at hx
            simp only [Bool.and_self, if_true]
            unfold jumps
            have hfl : (flags E (actives E Ls) true L q).length = (breaks E L q).length - 1 := by simp [flags]
            rw [hfl]
            have : i < (breaks E L q).length - 1 := by omega
            simp only [List.getD_eq_getElem?_getD, List.getElem?_map, List.getElem?_range this, Option.map_some, Option.getD_some,
              Bool.and_eq_true, decide_eq_true_eq, bne_iff_ne, ne_eq]
            refine ⟨by omega, ?_⟩
            intro heq
            apply hx.2
            have h1 := top_flag E (actives E Ls) L q i
            have h2 := top_flag E (actives E Ls) L q (i + 1)
            rw [List.getD_eq_getElem?_getD] at h1 h2
            rw [← h1, ← h2, heq]
          | false =>
            rw [hS, if_neg (by simp)] at hx
            simp only [Bool.and_false, Bool.false_eq_true, if_false]
            exact (top_flag E (actives E Ls) L q i).2 hx
        | false =>
          rw [hE, if_neg (by simp)] at hx
          have hy := (ih _ is).2 hx.2
          have hact : (actives E (L :: Ls) q).getD i false = true := by
            rw [actives, hE]
            simp only [Bool.false_and, Bool.false_eq_true, if_false]
            rw [flags_getD]
            simp only [Bool.false_eq_true, if_false, Bool.and_eq_true, decide_eq_true_eq]
            exact ⟨by omega, (nonDeg_iff E _ i).2 hx.1, hany _ _ _ hy⟩
          rw [if_pos hact]
          simp only [Bool.false_eq_true, if_false]
          exact List.mem_map.2 ⟨is, hy, rfl⟩

/-- **C54**: the number of cells the reparameterization appends is the number of sequences of reference intervals that are
inside the domain (volume), or that are followed by a change between inside and outside (level set). -/
theorem C54_number_of_cells (E : Env K) (b : Nat) (Ls : List (Level K)) (hne : Ls ≠ []) :
    ∃ ps : List (List Nat), ps.Nodup ∧ (∀ x, x ∈ ps ↔ Column E Ls (List.replicate b (1 / 2)) x) ∧ cellCount E (b, Ls) = ps.length := by
  refine ⟨paths E Ls (List.replicate b (1 / 2)), paths_nodup E _ _, mem_paths E _ _, ?_⟩
  unfold cellCount allCells
  rw [paths_length E Ls _ (List.replicate b 0), if_neg]
  simpa using hne

/-! ### Examples -/

/-- Insertion of a root in a sorted list. -/
def exInsert (a : Root ℚ) : List (Root ℚ) → List (Root ℚ)
  | [] => [a]
  | b :: l => if a.1 ≤ b.1 then a :: b :: l else b :: exInsert a l

def exSort : List (Root ℚ) → List (Root ℚ)
  | [] => []
  | a :: l => exInsert a (exSort l)

theorem exInsert_perm (a : Root ℚ) (l : List (Root ℚ)) : (exInsert a l).Perm (a :: l) := by
  induction l with
  | nil => rfl
  | cons b l ih =>
    rw [exInsert]
    split
    · rfl
    · exact (ih.cons b).trans (List.Perm.swap a b l)

theorem exInsert_sorted (a : Root ℚ) (l : List (Root ℚ)) (h : l.Pairwise (fun a b => a.1 ≤ b.1)) :
    (exInsert a l).Pairwise (fun a b => a.1 ≤ b.1) := by
  induction l with
  | nil => simp [exInsert]
  | cons b l ih =>
    rw [List.pairwise_cons] at h
    rw [exInsert]
    split
    · next hab =>
      rw [List.pairwise_cons, List.pairwise_cons]
      refine ⟨?_, h⟩
      intro c hc
      rcases List.mem_cons.1 hc with rfl | hc
      · exact hab
      · exact le_trans hab (h.1 c hc)
    · next hab =>
      rw [List.pairwise_cons]
      refine ⟨?_, ih h.2⟩
      intro c hc
      rcases List.mem_cons.1 ((exInsert_perm a l).mem_iff.1 hc) with rfl | hc
      · exact le_of_lt (not_le.1 hab)
      · exact h.1 c hc

theorem exSort_spec : IsRootSort exSort := by
  intro l
  induction l with
  | nil => exact ⟨List.Perm.refl _, List.Pairwise.nil⟩
  | cons a l ih => exact ⟨(exInsert_perm a _).trans (ih.1.cons a), exInsert_sorted a _ ih.2⟩

/-- The half plane where the last coordinate (in the order of the elimination) is at most 1/2. -/
def exPhi : PolySet ℚ := ⟨1, 1, fun _ _ => [1/2], fun _ x => vat x 1 - 1/2⟩
def exPhis : List (PolySet ℚ) := [exPhi, ⟨0, 0, fun _ _ => [], fun _ _ => 0⟩]
def exEnv (S : Bool) : Env ℚ := ⟨1/100, 2, fun j => (j : ℚ), exSort, [1/2, 9/10], S⟩
def exPoly : BezierPoly ℚ := ⟨false, 0, fun x => vat x 0 - 1/2⟩
def exCheb (i n : Nat) : ℚ := (i : ℚ) / ((n - 1 : Nat) : ℚ)
def exMesh (dim : Nat) : Mesh ℚ := ⟨dim, 2, 2, [[9, 9]], List.replicate (2 ^ dim) 0, []⟩

theorem exSetup (S : Bool) : Setup exCheb (exEnv S) exPhis (exMesh (if S then 1 else 2)) where
  env := ⟨by norm_num [exEnv], by norm_num [exEnv], exSort_spec,
    by intro j hj; have : j < 2 := hj; interval_cases j <;> norm_num [exEnv], by norm_num [exEnv]⟩
  order := rfl
  order2 := by norm_num [exMesh]
  dim := by cases S <;> simp [exMesh]
  dim3 := by cases S <;> simp [exMesh]
  range := by cases S <;> simp [exMesh, exEnv]
  whole := by cases S <;> rfl
  nodes := by intro i hi; have : i < 2 := hi; interval_cases i <;> (cases S <;> decide +kernel)
  elim := by
    refine Or.inr ⟨by norm_num [exPhi], ?_, Or.inl rfl⟩
    intro i p r hr
    have : r = 1/2 := by simpa [exPhi] using hr
    rw [this]; norm_num

-- Reparameterization of half of the box [0,2]×[0,4] into a mesh that already has a cell: its volume, and its level set.
example : reparameterize exCheb (fun _ => 1) (exEnv false) (fun _ => exPhis) (fun _ => [1, 0]) (1/1000) (exMesh 2) [exPoly]
    [(0, 2), (0, 4)] = some ⟨2, 2, 2, [[9, 9], [0, 0], [1, 0], [0, 4], [1, 4]], [0, 0, 0, 0, 1, 2, 3, 4],
      [1, 3, 2, 4, 1, 2, 3, 4]⟩ := by decide +kernel

example : reparameterize exCheb (fun _ => 1) (exEnv true) (fun _ => exPhis) (fun _ => [1, 0]) (1/1000) (exMesh 1) [exPoly]
    [(0, 2), (0, 4)] = some ⟨1, 2, 2, [[9, 9], [1, 0], [1, 4]], [0, 0, 1, 2], []⟩ := by decide +kernel

example : Column (exEnv false) (build 2 exPhis []).2 [1/2] [0] ∧ ¬ Column (exEnv false) (build 2 exPhis []).2 [1/2] [1] := by
  constructor
  · refine ⟨by decide +kernel, rfl, ⟨by decide +kernel, by decide +kernel, ?_⟩⟩
    intro k hk
    have : k < 1 := hk
    interval_cases k
    decide +kernel
  · rintro ⟨_, _, h⟩
    have := h.2.2 0 (by decide +kernel)
    revert this
    decide +kernel

/-- **C53** (backup strategy). When the base has no polynomials, the direction along which the backup strategy interpolates
does not exist: if the number of roots differs from that of the reference, a component outside of the point is accessed. -/
theorem C53_backup_out_of_bounds (E : Env K) (L : Level K) (i : Nat) (refPt p refRoots : List K) (hb : p.length ≤ L.baseDir)
    (hn : (endRoots E L i refPt p refRoots ((L.phi.roots i p).filter fun r => !(Tol.equal E.tol r 0 || Tol.equal E.tol r 1))).length ≠
      refRoots.length) : similarRoots E L i refPt p refRoots = none := by
  unfold similarRoots
  dsimp only
  rw [if_neg hn]
  unfold backupDir
  dsimp only
  rw [if_neg (by have := Nat.le_max_left L.baseDir (p.length - 1); omega)]
  rfl

/-- A curve whose number of roots over the ends of the base differs from that over the centre. -/
def exPhi2 : PolySet ℚ := ⟨1, 1, fun _ p => if vat p 0 = 1/2 then [1/2] else [], fun _ x => vat x 1 - 1/2⟩

-- The failure happens: the reparameterization of such a curve, with a base without polynomials, accesses memory out of bounds.
example : reparameterize exCheb (fun _ => 1) (exEnv false) (fun _ => [exPhi2, ⟨0, 0, fun _ _ => [], fun _ _ => 0⟩]) (fun _ => [1, 0])
    (1/1000) (exMesh 2) [exPoly] [(0, 2), (0, 4)] = none := by decide +kernel

end Qugar.Reparam
