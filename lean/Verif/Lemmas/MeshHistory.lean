import Verif.Lemmas.MeshEdges
import Verif.Props.Points
/-
Lemmas on the operations of `ReparamMesh`: what each of them does to the data, and the invariant of the meshes built
with them.
-/
namespace Qugar.Mesh
open Spec Poly TS
variable {K : Type} [Field K] [LinearOrder K]

theorem foldlM_inv {α β : Type} (P : β → Prop) (f : β → α → Option β) (hf : ∀ b a b', P b → f b a = some b' → P b') :
    ∀ (l : List α) (b b' : β), P b → l.foldlM f b = some b' → P b' := by
  intro l
  induction l with
  | nil => intro b b' hb h; cases h; exact hb
  | cons a l ih =>
    intro b b' hb h
    rw [List.foldlM_cons] at h
    cases hfa : f b a with
    | none => rw [hfa] at h; exact absurd h (by simp)
    | some c => rw [hfa] at h; exact ih c b' (hf b a c hb hfa) h

theorem mapM_eq_some {α β : Type} (f : α → Option β) : ∀ (l : List α) (r : List β), l.mapM f = some r →
    List.Forall₂ (fun a b => f a = some b) l r := by
  intro l
  induction l with
  | nil => intro r h; cases h; exact List.Forall₂.nil
  | cons a l ih =>
    intro r h
    rw [List.mapM_cons] at h
    cases hfa : f a with
    | none => rw [hfa] at h; exact absurd h (by simp)
    | some b =>
      rw [hfa] at h
      cases hl : l.mapM f with
      | none => rw [hl] at h; exact absurd h (by simp)
      | some r' =>
        rw [hl] at h
        cases h
        exact List.Forall₂.cons hfa (ih r' hl)

theorem forall2_mem_right {α β : Type} {R : α → β → Prop} {l : List α} {r : List β} (h : List.Forall₂ R l r) {b : β} (hb : b ∈ r) :
    ∃ a ∈ l, R a b := by
  induction h with
  | nil => simp at hb
  | @cons x y l r hxy _ ih =>
    rcases List.mem_cons.1 hb with rfl | hb
    · exact ⟨x, List.mem_cons_self .., hxy⟩
    · obtain ⟨a, ha, hr⟩ := ih hb
      exact ⟨a, List.mem_cons_of_mem _ ha, hr⟩

theorem forall2_mem_left {α β : Type} {R : α → β → Prop} {l : List α} {r : List β} (h : List.Forall₂ R l r) {a : α} (ha : a ∈ l) :
    ∃ b ∈ r, R a b := by
  induction h with
  | nil => simp at ha
  | @cons x y l r hxy _ ih =>
    rcases List.mem_cons.1 ha with rfl | ha
    · exact ⟨y, List.mem_cons_self .., hxy⟩
    · obtain ⟨b, hb, hr⟩ := ih ha
      exact ⟨b, List.mem_cons_of_mem _ hb, hr⟩

/-- The invariant of meshes: entries of unfilled places are 0, all the others refer to points. -/
structure Inv (m : Mesh K) : Prop where
  dim : 0 < m.dim
  dim3 : m.dim ≤ 3
  order : 1 < m.order
  whole : m.conn.length % m.order ^ m.dim = 0
  conn : ∀ i ∈ m.conn, i < m.points.length ∨ i = 0
  wires : ∀ i ∈ m.wires, i < m.points.length
  wholeWires : m.wires.length % m.order = 0

theorem edgePoints_facts {m : Mesh K} (h : Inv m) (hd : 1 < m.dim) {cell edge : Nat} (he : edge < numEdges m.dim) {e : List Nat}
    (hs : edgePoints m cell edge = some e) : e.length = m.order ∧ ∀ i ∈ e, i ∈ m.conn := by
  have hd' : m.dim = 2 ∨ m.dim = 3 := by have := h.dim3; omega
  obtain ⟨dirs, sides, h1, h2, h3⟩ := visit_edge m.dim m.order edge hd' h.order he
  unfold edgePoints at hs
  rw [h1, h2] at hs
  simp only [Option.bind_eq_bind, Option.bind_some] at hs
  rw [h3] at hs
  obtain ⟨ids, hi1, hi2⟩ := Option.bind_eq_some_iff.1 hs
  cases hi2
  have hf := mapM_eq_some _ _ _ hi1
  refine ⟨by rw [sortEdge_length, ← hf.length_eq]; simp, fun i hi => ?_⟩
  have hi' : i ∈ ids := by
    rcases sortEdge_cases m.order ids with hc | hc
    · rwa [hc] at hi
    · rw [hc] at hi; exact List.mem_reverse.1 hi
  obtain ⟨t, _, ht⟩ := forall2_mem_right hf hi'
  obtain ⟨k, _, hk⟩ := Option.bind_eq_some_iff.1 ht
  exact List.mem_of_getElem? hk

/-! ### Adding cells -/

theorem foldl_push (pt : List Nat → List K) : ∀ (L : List (List Nat)) (m : Mesh K),
    L.foldl (fun m tid => { m with conn := m.conn ++ [m.points.length], points := m.points ++ [pt tid] }) m =
      { m with conn := m.conn ++ List.range' m.points.length L.length, points := m.points ++ L.map pt } := by
  intro L
  induction L with
  | nil => intro m; simp
  | cons t L ih =>
    intro m
    rw [List.foldl_cons, ih]
    simp [List.range'_succ]

theorem pushFullCell_eq (cheb : Nat → Nat → K) (m : Mesh K) (domain : Box K) (hd : 0 < m.dim) (ho : 1 < m.order) :
    pushFullCell cheb m domain = { m with
      conn := m.conn ++ List.range' m.points.length (m.order ^ m.dim)
      points := m.points ++ (indices (List.replicate m.dim m.order)).map (fullCellPoint cheb m.order domain) } := by
  unfold pushFullCell
  rw [visitAll_ofUpper (by simp; omega) (fun n hn => by rw [List.eq_of_mem_replicate hn]; omega)]
  have hfun : ∀ (L : List (List Nat)) (m0 : Mesh K), m0.order = m.order →
      L.foldl (fun m tid => ({ m with conn := m.conn ++ [m.points.length], points := m.points ++ [fullCellPoint cheb m.order domain tid] } : Mesh K)) m0 =
      L.foldl (fun m' tid => ({ m' with conn := m'.conn ++ [m'.points.length], points := m'.points ++ [fullCellPoint cheb m.order domain tid] } : Mesh K)) m0 := by
    intro L
    induction L with
    | nil => intro m0 _; rfl
    | cons t L ih =>
      intro m0 h0
      rw [List.foldl_cons, List.foldl_cons, h0]
      exact ih _ rfl
  rw [hfun _ _ rfl, foldl_push, length_indices, Vtu.listProd_replicate]

theorem pushFullCell_inv (cheb : Nat → Nat → K) (m : Mesh K) (domain : Box K) (h : Inv m) : Inv (pushFullCell cheb m domain) := by
  rw [pushFullCell_eq cheb m domain h.dim h.order]
  have hpos : 0 < m.order ^ m.dim := Nat.pow_pos (by have := h.order; omega)
  refine ⟨h.dim, h.dim3, h.order, ?_, ?_, ?_, h.wholeWires⟩
  · show (m.conn ++ _).length % m.order ^ m.dim = 0
    rw [List.length_append, List.length_range', Nat.add_mod_right]; exact h.whole
  · intro i hi
    show i < (m.points ++ _).length ∨ i = 0
    rw [List.length_append, List.length_map, length_indices, Vtu.listProd_replicate]
    rcases List.mem_append.1 hi with hi | hi
    · rcases h.conn i hi with h1 | h1
      · left; omega
      · right; exact h1
    · left
      rw [List.mem_range'_1] at hi
      omega
  · intro i hi
    show i < (m.points ++ _).length
    rw [List.length_append]
    have := h.wires i hi
    omega

theorem addFullCell_inv (cheb : Nat → Nat → K) (m m' : Mesh K) (domain : Box K) (wb : Bool) (hwb : wb = true → 1 < m.dim) (h : Inv m)
    (hs : addFullCell cheb m domain wb = some m') : Inv m' ∧ m'.dim = m.dim ∧ m'.range = m.range ∧ m'.order = m.order ∧
      m'.conn = (pushFullCell cheb m domain).conn ∧ m'.points = (pushFullCell cheb m domain).points := by
  have hi := pushFullCell_inv cheb m domain h
  have hpe := pushFullCell_eq cheb m domain h.dim h.order
  have hpos : 0 < m.order ^ m.dim := Nat.pow_pos (by have := h.order; omega)
  unfold addFullCell at hs
  simp only [Option.bind_eq_bind] at hs
  obtain ⟨n, hn, hs⟩ := Option.bind_eq_some_iff.1 hs
  generalize hp : pushFullCell cheb m domain = p at hs hi hn hpe
  have hpt : 0 < p.points.length := by
    rw [hpe]
    show 0 < (m.points ++ _).length
    rw [List.length_append, List.length_map, length_indices, Vtu.listProd_replicate]; omega
  have hdim : p.dim = m.dim := by rw [hpe]
  have hdims : p.range = m.range ∧ p.order = m.order := by rw [hpe]; exact ⟨rfl, rfl⟩
  cases wb with
  | false =>
    simp only [Bool.false_eq_true, if_false, Option.some.injEq] at hs
    subst hs
    exact ⟨hi, hdim, hdims.1, hdims.2, rfl, rfl⟩
  | true =>
    rw [if_pos rfl] at hs
    have key : ∀ (L : List Nat) (b b' : Mesh K), (∀ e ∈ L, e < numEdges p.dim) →
        (Inv b ∧ b.dim = p.dim ∧ b.range = p.range ∧ b.order = p.order ∧ b.conn = p.conn ∧ b.points = p.points) →
        L.foldlM (fun m' edge => (edgePoints m' (n - 1) edge).bind fun e => some { m' with wires := m'.wires ++ e }) b = some b' →
        (Inv b' ∧ b'.dim = p.dim ∧ b'.range = p.range ∧ b'.order = p.order ∧ b'.conn = p.conn ∧ b'.points = p.points) := by
      intro L
      induction L with
      | nil => intro b b' _ hb hf; cases hf; exact hb
      | cons e L ih =>
        intro b b' hL hb hf
        rw [List.foldlM_cons] at hf
        cases hE : edgePoints b (n - 1) e with
        | none => rw [hE] at hf; exact absurd hf (by simp)
        | some ed =>
          rw [hE] at hf
          simp only [Option.bind_some, Option.bind_eq_bind] at hf
          refine ih _ b' (fun x hx => hL x (List.mem_cons_of_mem _ hx)) ?_ hf
          obtain ⟨b1, b2, b3, b4, b5, b6⟩ := hb
          obtain ⟨f1, f2⟩ := edgePoints_facts b1 (by rw [b2, hdim]; exact hwb rfl) (by rw [b2]; exact hL e (List.mem_cons_self ..)) hE
          refine ⟨⟨b1.dim, b1.dim3, b1.order, b1.whole, b1.conn, ?_, ?_⟩, b2, b3, b4, b5, b6⟩
          · intro i hi'
            show i < b.points.length
            rcases List.mem_append.1 hi' with hi' | hi'
            · exact b1.wires i hi'
            · rcases b1.conn i (f2 i hi') with h1 | h1
              · exact h1
              · rw [h1, b6]; exact hpt
          · show (b.wires ++ ed).length % b.order = 0
            rw [List.length_append, f1, Nat.add_mod_right]; exact b1.wholeWires
    obtain ⟨k1, k2, k3, k4, k5, k6⟩ := key _ p m' (fun e he => List.mem_range.1 he) ⟨hi, rfl, rfl, rfl, rfl, rfl⟩ hs
    exact ⟨k1, k2.trans hdim, k3.trans hdims.1, k4.trans hdims.2, k5, k6⟩

theorem addFullCells_inv (cheb : Nat → Nat → K) (m m' : Mesh K) (g : Grid K) (cells : List Nat) (wb : Bool) (hwb : wb = true → 1 < m.dim)
    (h : Inv m) (hs : addFullCells cheb m g cells wb = some m') : Inv m' ∧ m'.dim = m.dim ∧ m'.range = m.range ∧ m'.order = m.order := by
  unfold addFullCells at hs
  refine foldlM_inv (fun b => Inv b ∧ b.dim = m.dim ∧ b.range = m.range ∧ b.order = m.order) _ ?_ cells m m' ⟨h, rfl, rfl, rfl⟩ hs
  rintro b c b' ⟨b1, b2, b3, b4⟩ hb
  obtain ⟨dom, _, hb⟩ := Option.bind_eq_some_iff.1 hb
  obtain ⟨c1, c2, c3, c4, _⟩ := addFullCell_inv cheb b b' dom wb (by rw [b2]; exact hwb) b1 hb
  exact ⟨c1, c2.trans b2, c3.trans b3, c4.trans b4⟩

/-! ### The other operations -/

theorem merge_inv (m o m' : Mesh K) (h : Inv m) (ho : Inv o) (hd : o.dim = m.dim) (hne : o.points ≠ [] ∨ o.conn = [])
    (hs : merge m o = some m') : Inv m' := by
  unfold merge at hs
  split_ifs at hs with hor
  cases hs
  have key : ∀ i ∈ o.conn, i < o.points.length := by
    intro i hi
    rcases hne with hne | hne
    · rcases ho.conn i hi with h1 | h1
      · exact h1
      · rw [h1]; exact List.length_pos_iff.2 hne
    · rw [hne] at hi; simp at hi
  refine ⟨h.dim, h.dim3, h.order, ?_, ?_, ?_, ?_⟩
  · show (m.conn ++ _).length % m.order ^ m.dim = 0
    rw [List.length_append, List.length_map, Nat.add_mod, h.whole, hor, ← hd, ho.whole]; simp
  · intro i hi
    show i < (m.points ++ _).length ∨ i = 0
    rw [List.length_append]
    rcases List.mem_append.1 hi with hi | hi
    · rcases h.conn i hi with h1 | h1
      · left; omega
      · right; exact h1
    · obtain ⟨j, hj, rfl⟩ := List.mem_map.1 hi
      have := key j hj
      left; omega
  · intro i hi
    show i < (m.points ++ _).length
    rw [List.length_append]
    rcases List.mem_append.1 hi with hi | hi
    · have := h.wires i hi; omega
    · obtain ⟨j, hj, rfl⟩ := List.mem_map.1 hi
      have := ho.wires j hj
      omega
  · show (m.wires ++ _).length % m.order = 0
    rw [List.length_append, List.length_map, Nat.add_mod, h.wholeWires, hor, ho.wholeWires]; simp

theorem allocate_inv (m : Mesh K) (n : Nat) (h : Inv m) : Inv (allocateCells m n).1 := by
  refine ⟨h.dim, h.dim3, h.order, ?_, ?_, h.wires, h.wholeWires⟩
  · show (m.conn ++ List.replicate (n * ppc m) 0).length % m.order ^ m.dim = 0
    unfold ppc
    rw [List.length_append, List.length_replicate, Nat.add_mul_mod_self_right]; exact h.whole
  · intro i hi
    rcases List.mem_append.1 hi with hi | hi
    · exact h.conn i hi
    · right; exact List.eq_of_mem_replicate hi

theorem insert_inv (m m' : Mesh K) (p : List K) (cell pt : Nat) (h : Inv m) (hs : insertCellPoint m p cell pt = some m') : Inv m' := by
  unfold insertCellPoint at hs
  split_ifs at hs with hc
  cases hs
  refine ⟨h.dim, h.dim3, h.order, ?_, ?_, ?_, h.wholeWires⟩
  · show (m.conn.set _ _).length % m.order ^ m.dim = 0
    rw [List.length_set]; exact h.whole
  · intro i hi
    show i < (m.points ++ [p]).length ∨ i = 0
    rw [List.length_append, List.length_singleton]
    rcases List.mem_or_eq_of_mem_set hi with hi | hi
    · rcases h.conn i hi with h1 | h1
      · left; omega
      · right; exact h1
    · left; omega
  · intro i hi
    show i < (m.points ++ [p]).length
    rw [List.length_append, List.length_singleton]
    have := h.wires i hi
    omega

theorem scale_inv (m m' : Mesh K) (ids : List Nat) (old new : Box K) (h : Inv m) (hs : scalePoints m ids old new = some m') : Inv m' := by
  unfold scalePoints at hs
  refine foldlM_inv Inv _ ?_ ids m m' h hs
  intro b i b' hb hf
  obtain ⟨p, _, hf⟩ := Option.bind_eq_some_iff.1 hf
  cases hf
  refine ⟨hb.dim, hb.dim3, hb.order, hb.whole, ?_, ?_, hb.wholeWires⟩
  · intro j hj
    show j < (b.points.set _ _).length ∨ j = 0
    rw [List.length_set]; exact hb.conn j hj
  · intro j hj
    show j < (b.points.set _ _).length
    rw [List.length_set]; exact hb.wires j hj

theorem sameShape_inv {m m' : Mesh K} (h : Inv m) (hs : SameShape m m') : Inv m' := by
  refine ⟨by rw [hs.dim]; exact h.dim, by rw [hs.dim]; exact h.dim3, by rw [hs.order]; exact h.order, ?_, ?_, ?_, ?_⟩
  · rw [hs.len, hs.order, hs.dim]; exact h.whole
  · intro i hi
    rw [hs.points]; exact h.conn i (hs.perm.mem_iff.1 hi)
  · intro i hi
    rw [hs.points]; rw [hs.wires] at hi; exact h.wires i hi
  · rw [hs.wires, hs.order]; exact h.wholeWires

theorem permute_sameShape (m m' : Mesh K) (cell : Nat) (h : Inv m) (hs : permuteCell m cell = some m') : SameShape m m' := by
  have hw : m.conn.length % ppc m = 0 := h.whole
  have hc : cell < m.conn.length / ppc m := by
    by_contra hc
    unfold permuteCell numCells at hs
    rw [if_pos hw] at hs
    simp only [Option.bind_eq_bind, Option.bind_some] at hs
    rw [if_neg hc] at hs
    exact absurd hs (by simp)
  obtain ⟨m1, e1, e2, _⟩ := permute_vert m cell h.dim h.order hw hc
  rw [e1] at hs
  cases hs
  exact e2

theorem orientCells_sameShape (cheb : Nat → Nat → K) (m m' : Mesh K) (cells : List Nat) (h : Inv m)
    (hs : orientCells cheb m cells = some m') : SameShape m m' := by
  unfold orientCells at hs
  simp only [Option.bind_eq_bind] at hs
  obtain ⟨D, _, hs⟩ := Option.bind_eq_some_iff.1 hs
  refine foldlM_inv (fun b => SameShape m b) _ ?_ cells m m' (SameShape.refl m) hs
  intro b c b' hb hf
  obtain ⟨n, _, hf⟩ := Option.bind_eq_some_iff.1 hf
  split_ifs at hf
  · exact hb.trans (permute_sameShape b b' c (sameShape_inv h hb) hf)
  · cases hf; exact hb

theorem orientLevelset_sameShape (cheb : Nat → Nat → K) (norm : List K → K) (m m' : Mesh K) (cells : List Nat) (outer : List K → List K)
    (h : Inv m) (hs : orientLevelset cheb norm m cells outer = some m') : SameShape m m' := by
  unfold orientLevelset at hs
  simp only [Option.bind_eq_bind] at hs
  obtain ⟨B, _, hs⟩ := Option.bind_eq_some_iff.1 hs
  obtain ⟨D, _, hs⟩ := Option.bind_eq_some_iff.1 hs
  refine foldlM_inv (fun b => SameShape m b) _ ?_ cells m m' (SameShape.refl m) hs
  intro b c b' hb hf
  obtain ⟨n, _, hf⟩ := Option.bind_eq_some_iff.1 hf
  split_ifs at hf
  · exact hb.trans (permute_sameShape b b' c (sameShape_inv h hb) hf)
  · cases hf; exact hb

theorem addWires_inv (m m' : Mesh K) (cells : List Nat) (domain : Box K) (tol : K) (cf ci : List K → Bool) (h : Inv m)
    (hs : addWires m cells domain tol cf ci = some m') : Inv m' ∧ m'.dim = m.dim ∧ m'.range = m.range ∧ m'.order = m.order ∧
      m'.points = m.points ∧ m'.conn = m.conn := by
  unfold addWires at hs
  split_ifs at hs with hd
  · refine foldlM_inv (fun b => Inv b ∧ b.dim = m.dim ∧ b.range = m.range ∧ b.order = m.order ∧ b.points = m.points ∧ b.conn = m.conn)
      _ ?_ cells m m' ⟨h, rfl, rfl, rfl, rfl, rfl⟩ hs
    intro b c b' hb hf
    have key : ∀ (L : List Nat) (b b' : Mesh K), (∀ e ∈ L, e < numEdges m.dim) →
        (Inv b ∧ b.dim = m.dim ∧ b.range = m.range ∧ b.order = m.order ∧ b.points = m.points ∧ b.conn = m.conn) →
        L.foldlM (fun m edge => do
          let e ← edgePoints m c edge
          let deg ← degenerate m tol e
          if deg then some m
          else
            let onEdge ← edgeInSubdomain (m.range - 1) m tol domain e
            let onFace ← edgeInSubdomain 1 m tol domain e
            let pts ← e.mapM fun i => m.points[i]?
            if onEdge || (if onFace then pts.all cf else pts.all ci) then
              some { m with wires := m.wires ++ e }
            else some m) b = some b' →
        (Inv b' ∧ b'.dim = m.dim ∧ b'.range = m.range ∧ b'.order = m.order ∧ b'.points = m.points ∧ b'.conn = m.conn) := by
      intro L
      induction L with
      | nil => intro b b' _ hb hf; cases hf; exact hb
      | cons e L ih =>
        intro b b' hL hb hf
        rw [List.foldlM_cons] at hf
        simp only [Option.bind_eq_bind] at hf
        obtain ⟨b1, hb1, hf⟩ := Option.bind_eq_some_iff.1 hf
        refine ih b1 b' (fun x hx => hL x (List.mem_cons_of_mem _ hx)) ?_ hf
        obtain ⟨ed, hE, hb1⟩ := Option.bind_eq_some_iff.1 hb1
        obtain ⟨deg, _, hb1⟩ := Option.bind_eq_some_iff.1 hb1
        split at hb1
        · cases hb1; exact hb
        · obtain ⟨oe, _, hb1⟩ := Option.bind_eq_some_iff.1 hb1
          obtain ⟨of', _, hb1⟩ := Option.bind_eq_some_iff.1 hb1
          obtain ⟨pts, hpts, hb1⟩ := Option.bind_eq_some_iff.1 hb1
          generalize (oe || if of' = true then pts.all cf else pts.all ci) = cnd at hb1
          cases cnd with
          | true =>
            rw [if_pos rfl] at hb1
            cases hb1
            obtain ⟨i1, i2, i3, i4, i5, i6⟩ := hb
            obtain ⟨f1, f2⟩ := edgePoints_facts i1 (by rw [i2]; exact hd) (by rw [i2]; exact hL e (List.mem_cons_self ..)) hE
            refine ⟨⟨i1.dim, i1.dim3, i1.order, i1.whole, i1.conn, ?_, ?_⟩, i2, i3, i4, i5, i6⟩
            · intro i hi
              show i < b.points.length
              rcases List.mem_append.1 hi with hi | hi
              · exact i1.wires i hi
              · obtain ⟨p, _, hp⟩ := forall2_mem_left (mapM_eq_some _ _ _ hpts) hi
                exact (List.getElem?_eq_some_iff.1 hp).1
            · show (b.wires ++ ed).length % b.order = 0
              rw [List.length_append, f1, Nat.add_mod_right]; exact i1.wholeWires
          | false =>
            rw [if_neg (by simp)] at hb1
            cases hb1; exact hb
    exact key _ b b' (fun e he => by rw [← hb.2.1]; exact List.mem_range.1 he) hb hf
  · cases hs; exact ⟨h, rfl, rfl, rfl, rfl, rfl⟩

end Qugar.Mesh
