import Verif.Lemmas.MeshHistory
/-
`generate_wirebasket`: exactly which edges are added.
-/
namespace Qugar.Mesh
open Spec Poly TS
variable {K : Type} [Field K] [LinearOrder K]

/-- The points of an edge. -/
def ptsOf (m : Mesh K) (e : List Nat) : List (List K) := e.map fun i => m.points.getD i []

/-- All the points coincide with the first one. -/
def degB (m : Mesh K) (tol : K) (ps : List (List K)) : Bool := ps.all fun p => coincident tol m.range (ps.headD []) p

/-- All the points share at least `sub` bounds of the domain with the first one. -/
def subB (tol : K) (domain : Box K) (sub : Nat) (ps : List (List K)) : Bool :=
  ps.all fun p => !decide (((List.zip (getBounds tol domain (ps.headD [])) (getBounds tol domain p)).filter
    fun xy => decide (0 ≤ xy.1) && decide (xy.1 = xy.2)).length < sub)

/-- The edge is added. -/
def keepB (m : Mesh K) (tol : K) (domain : Box K) (cf ci : List K → Bool) (ps : List (List K)) : Bool :=
  !degB m tol ps && (subB tol domain (m.range - 1) ps || if subB tol domain 1 ps then ps.all cf else ps.all ci)

theorem points_mapM (m : Mesh K) (e : List Nat) (h : ∀ i ∈ e, i < m.points.length) :
    (e.mapM fun i => m.points[i]?) = some (ptsOf m e) := by
  refine mapM_some _ _ _ fun i hi => ?_
  have := h i hi
  rw [List.getD_eq_getElem _ _ this, List.getElem?_eq_getElem this]

theorem head_pts (m : Mesh K) (e : List Nat) (hne : e ≠ []) (h : ∀ i ∈ e, i < m.points.length) :
    ∃ i, e.head? = some i ∧ m.points[i]? = some ((ptsOf m e).headD []) := by
  cases e with
  | nil => exact absurd rfl hne
  | cons a e =>
    refine ⟨a, rfl, ?_⟩
    have := h a (by simp)
    simp only [ptsOf, List.map_cons, List.headD_cons]
    rw [List.getD_eq_getElem _ _ this, List.getElem?_eq_getElem this]

theorem degenerate_eq (m : Mesh K) (tol : K) (e : List Nat) (hne : e ≠ []) (h : ∀ i ∈ e, i < m.points.length) :
    degenerate m tol e = some (degB m tol (ptsOf m e)) := by
  obtain ⟨i, h1, h2⟩ := head_pts m e hne h
  unfold degenerate
  rw [h1]
  simp only [Option.bind_eq_bind, Option.bind_some]
  rw [h2, points_mapM m e h]
  rfl

theorem edgeInSubdomain_eq (sub : Nat) (m : Mesh K) (tol : K) (domain : Box K) (e : List Nat) (hne : e ≠ [])
    (h : ∀ i ∈ e, i < m.points.length) : edgeInSubdomain sub m tol domain e = some (subB tol domain sub (ptsOf m e)) := by
  obtain ⟨i, h1, h2⟩ := head_pts m e hne h
  unfold edgeInSubdomain
  rw [h1]
  simp only [Option.bind_eq_bind, Option.bind_some]
  rw [h2, points_mapM m e h]
  rfl

/-- The edge of a cell, as it is stored. -/
def edgeOf (m : Mesh K) (cell edge : Nat) : List Nat := sortEdge m.order (rawEdge m cell edge)

theorem edgeOf_mem (m : Mesh K) {cell edge : Nat} (hd : m.dim = 2 ∨ m.dim = 3) (ho : 1 < m.order)
    (hc : cell < m.conn.length / m.order ^ m.dim) {i : Nat} (hi : i ∈ edgeOf m cell edge) :
    ∃ k, cell * m.order ^ m.dim ≤ k ∧ k < (cell + 1) * m.order ^ m.dim ∧ m.conn[k]? = some i := by
  have hi' : i ∈ rawEdge m cell edge := by
    unfold edgeOf at hi
    rcases sortEdge_cases m.order (rawEdge m cell edge) with hc | hc
    · rwa [hc] at hi
    · rw [hc] at hi; exact List.mem_reverse.1 hi
  obtain ⟨j, hj, rfl⟩ := List.mem_map.1 hi'
  have hm := edgeIndex_mem m.dim m.order edge j hd ho (List.mem_range.1 hj)
  have hb := cell_bound hc hm
  have hlt := flatIndex_lt' hm
  rw [Vtu.listProd_replicate] at hlt
  refine ⟨cell * m.order ^ m.dim + flatIndex (edgeIndex m.dim m.order edge j) (List.replicate m.dim m.order), Nat.le_add_right _ _, ?_, ?_⟩
  · rw [Nat.succ_mul]; omega
  · rw [List.getD_eq_getElem _ _ hb, List.getElem?_eq_getElem hb]

/-- The edges added for a list of cells. -/
def newWires (m : Mesh K) (cells : List Nat) (domain : Box K) (tol : K) (cf ci : List K → Bool) : List (List Nat) :=
  (cells.flatMap fun c => (List.range (numEdges m.dim)).map fun e => edgeOf m c e).filter
    fun e => keepB m tol domain cf ci (ptsOf m e)

theorem foldlM_wires {α : Type} (m : Mesh K) (step : Mesh K → α → Option (Mesh K)) (g : α → List Nat) (L : List α)
    (h : ∀ a ∈ L, ∀ w, step ⟨m.dim, m.range, m.order, m.points, m.conn, w⟩ a = some ⟨m.dim, m.range, m.order, m.points, m.conn, w ++ g a⟩) :
    ∀ w, L.foldlM step ⟨m.dim, m.range, m.order, m.points, m.conn, w⟩ = some ⟨m.dim, m.range, m.order, m.points, m.conn, w ++ L.flatMap g⟩ := by
  induction L with
  | nil => intro w; simp
  | cons a L ih =>
    intro w
    rw [List.foldlM_cons, h a (by simp)]
    simp only [Option.bind_eq_bind, Option.bind_some]
    rw [ih fun b hb => h b (by simp [hb])]
    rw [List.flatMap_cons, List.append_assoc]

theorem addWires_eq (m : Mesh K) (cells : List Nat) (domain : Box K) (tol : K) (cf ci : List K → Bool)
    (hd : m.dim = 2 ∨ m.dim = 3) (ho : 1 < m.order) (hc : ∀ c ∈ cells, c < m.conn.length / m.order ^ m.dim)
    (hconn : ∀ c ∈ cells, ∀ k, c * m.order ^ m.dim ≤ k → k < (c + 1) * m.order ^ m.dim → ∀ i, m.conn[k]? = some i → i < m.points.length) :
    addWires m cells domain tol cf ci = some { m with wires := m.wires ++ (newWires m cells domain tol cf ci).flatten } := by
  unfold addWires
  rw [if_pos (by omega)]
  have key := foldlM_wires m (fun m cell => (List.range (numEdges m.dim)).foldlM (fun m edge => do
      let e ← edgePoints m cell edge
      let deg ← degenerate m tol e
      if deg then some m
      else
        let onEdge ← edgeInSubdomain (m.range - 1) m tol domain e
        let onFace ← edgeInSubdomain 1 m tol domain e
        let pts ← e.mapM fun i => m.points[i]?
        if onEdge || (if onFace then pts.all cf else pts.all ci) then
          some { m with wires := m.wires ++ e }
        else some m) m)
    (fun c => (List.range (numEdges m.dim)).flatMap fun e => if keepB m tol domain cf ci (ptsOf m (edgeOf m c e)) then edgeOf m c e else [])
    cells ?_ m.wires
  · refine key.trans ?_
    congr 2
    congr 1
    unfold newWires
    clear key hconn hc
    induction cells with
    | nil => rfl
    | cons c cells ih =>
      rw [List.flatMap_cons, List.flatMap_cons, List.filter_append, List.flatten_append, ih]
      congr 1
      induction List.range (numEdges m.dim) with
      | nil => rfl
      | cons e es ih =>
        rw [List.flatMap_cons, List.map_cons, List.filter_cons, ih]
        split
        · rw [List.flatten_cons]
        · simp
  · intro c hcm w
    have hc' := hc c hcm
    refine foldlM_wires m _ (fun e => if keepB m tol domain cf ci (ptsOf m (edgeOf m c e)) then edgeOf m c e else []) _ ?_ w
    intro e he w
    have hep := edgePoints_eq ⟨m.dim, m.range, m.order, m.points, m.conn, w⟩ c e hd ho (List.mem_range.1 he) hc'
    have hpe : edgePoints ⟨m.dim, m.range, m.order, m.points, m.conn, w⟩ c e = some (edgeOf m c e) := hep
    have hlt : ∀ i ∈ edgeOf m c e, i < m.points.length := by
      intro i hi
      obtain ⟨k, h1, h2, h3⟩ := edgeOf_mem m hd ho hc' hi
      exact hconn c hcm k h1 h2 i h3
    have hne : edgeOf m c e ≠ [] := by
      intro h0
      have : (edgeOf m c e).length = m.order := by unfold edgeOf; rw [sortEdge_length]; simp [rawEdge]
      rw [h0] at this
      simp at this
      omega
    have h1 := degenerate_eq ⟨m.dim, m.range, m.order, m.points, m.conn, w⟩ tol (edgeOf m c e) hne hlt
    have h2 := fun sub => edgeInSubdomain_eq sub ⟨m.dim, m.range, m.order, m.points, m.conn, w⟩ tol domain (edgeOf m c e) hne hlt
    have h3 := points_mapM ⟨m.dim, m.range, m.order, m.points, m.conn, w⟩ (edgeOf m c e) hlt
    simp only [Option.bind_eq_bind]
    rw [hpe]
    simp only [Option.bind_some]
    rw [h1]
    simp only [Option.bind_some]
    have k1 : ptsOf (⟨m.dim, m.range, m.order, m.points, m.conn, w⟩ : Mesh K) (edgeOf m c e) = ptsOf m (edgeOf m c e) := rfl
    have k2 : degB (⟨m.dim, m.range, m.order, m.points, m.conn, w⟩ : Mesh K) tol = degB m tol := rfl
    rw [k1, k2]
    unfold keepB
    cases hdeg : degB m tol (ptsOf m (edgeOf m c e)) with
    | true => simp
    | false =>
      rw [h2, h2, h3, k1]
      simp only [Option.bind_some, Bool.false_eq_true, if_false, Bool.not_false, Bool.true_and]
      generalize (subB tol domain (m.range - 1) (ptsOf m (edgeOf m c e)) ||
        if subB tol domain 1 (ptsOf m (edgeOf m c e)) = true then (ptsOf m (edgeOf m c e)).all cf else (ptsOf m (edgeOf m c e)).all ci) = b
      cases b <;> simp

end Qugar.Mesh
