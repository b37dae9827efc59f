import Verif.Model.CreateReparam
import Verif.Props.MeshHistory
import Verif.Props.Partition
import Verif.Lemmas.Domain
/-
Lemmas about `create_reparameterization`: the mesh is a sequence of blocks, one per processed cell.
-/
namespace Qugar.Mesh
open Spec Poly TS Tree
variable {K : Type} [Field K] [LinearOrder K] [IsStrictOrderedRing K]

/-- The part of the mesh that comes from one cell of the grid: its points, the entries of the connectivity and the
wirebasket edges. -/
structure Block (K : Type) where
  pts : List (List K)
  conn : List Nat
  edges : List (List Nat)

/-- The block stands in the mesh after `off` points: whole cells, their vertices are the points of the block, each used once; the
points are in the box; the edges have `order` points of the block. -/
structure Fits (dim order : Nat) (box : Box K) (off : Nat) (b : Block K) : Prop where
  perm : b.conn.Perm (List.range' off b.pts.length)
  whole : b.pts.length % order ^ dim = 0
  inBox : ∀ p ∈ b.pts, InClosedBox 0 box p
  edges : ∀ e ∈ b.edges, e.length = order ∧ ∀ i ∈ e, off ≤ i ∧ i < off + b.pts.length

/-- A mesh followed by a block. -/
def addBlock (m : Mesh K) (b : Block K) : Mesh K :=
  ⟨m.dim, m.range, m.order, m.points ++ b.pts, m.conn ++ b.conn, m.wires ++ b.edges.flatten⟩

/-- The blocks stand one after the other, each in its box. -/
def Seq (dim order : Nat) : Nat → List (Box K × Block K) → Prop
  | _, [] => True
  | off, x :: xs => Fits dim order x.1 off x.2 ∧ Seq dim order (off + x.2.pts.length) xs

theorem fits_len {dim order off : Nat} {box : Box K} {b : Block K} (h : Fits dim order box off b) : b.conn.length = b.pts.length := by
  rw [h.perm.length_eq, List.length_range']

theorem seq_append {dim order : Nat} : ∀ (xs ys : List (Box K × Block K)) (off : Nat),
    Seq dim order off (xs ++ ys) ↔ Seq dim order off xs ∧ Seq dim order (off + ((xs.map (·.2.pts)).flatten).length) ys
  | [], ys, off => by simp [Seq]
  | x :: xs, ys, off => by
    simp only [List.cons_append, Seq, seq_append xs ys, List.map_cons, List.flatten_cons, List.length_append, and_assoc, Nat.add_assoc]

/-- The mesh made of the blocks. -/
def ofBlocks (dim range order : Nat) (xs : List (Box K × Block K)) : Mesh K :=
  ⟨dim, range, order, (xs.map (·.2.pts)).flatten, (xs.map (·.2.conn)).flatten, ((xs.map (·.2.edges)).flatten).flatten⟩

theorem ofBlocks_snoc (dim range order : Nat) (xs : List (Box K × Block K)) (x : Box K × Block K) :
    ofBlocks dim range order (xs ++ [x]) = addBlock (ofBlocks dim range order xs) x.2 := by
  simp [ofBlocks, addBlock]

theorem seq_conn_len {dim order : Nat} : ∀ (xs : List (Box K × Block K)) (off : Nat), Seq dim order off xs →
    ((xs.map (·.2.conn)).flatten).length = ((xs.map (·.2.pts)).flatten).length ∧ ((xs.map (·.2.pts)).flatten).length % order ^ dim = 0
  | [], _, _ => by simp
  | x :: xs, off, h => by
    obtain ⟨h1, h2⟩ := seq_conn_len xs _ h.2
    simp only [List.map_cons, List.flatten_cons, List.length_append, fits_len h.1, h1, true_and]
    rw [Nat.add_mod, h.1.whole, h2]; simp

theorem seq_conn_perm {dim order : Nat} : ∀ (xs : List (Box K × Block K)) (off : Nat), Seq dim order off xs →
    ((xs.map (·.2.conn)).flatten).Perm (List.range' off ((xs.map (·.2.pts)).flatten).length)
  | [], _, _ => by simp
  | x :: xs, off, h => by
    simp only [List.map_cons, List.flatten_cons, List.length_append]
    rw [← List.range'_append_1]
    exact h.1.perm.append (seq_conn_perm xs _ h.2)

theorem seq_edges {dim order : Nat} : ∀ (xs : List (Box K × Block K)) (off : Nat), Seq dim order off xs →
    ∀ e ∈ (xs.map (·.2.edges)).flatten, e.length = order ∧ ∀ i ∈ e, off ≤ i ∧ i < off + ((xs.map (·.2.pts)).flatten).length
  | [], _, _ => by simp
  | x :: xs, off, h => by
    intro e he
    simp only [List.map_cons, List.flatten_cons, List.length_append, List.mem_append] at he ⊢
    rcases he with he | he
    · obtain ⟨h1, h2⟩ := h.1.edges e he
      exact ⟨h1, fun i hi => by have := h2 i hi; omega⟩
    · obtain ⟨h1, h2⟩ := seq_edges xs _ h.2 e he
      exact ⟨h1, fun i hi => by have := h2 i hi; omega⟩

theorem inv_ofBlocks (dim range order : Nat) (xs : List (Box K × Block K)) (hd : 0 < dim) (hd3 : dim ≤ 3) (ho : 1 < order)
    (h : Seq dim order 0 xs) : Inv (ofBlocks dim range order xs) := by
  obtain ⟨h1, h2⟩ := seq_conn_len xs 0 h
  refine ⟨hd, hd3, ho, by show _ % _ = 0; unfold ofBlocks; dsimp only; rw [h1, h2], fun i hi => ?_, fun i hi => ?_, ?_⟩
  · left
    have := (seq_conn_perm xs 0 h).mem_iff.1 hi
    rw [List.mem_range'_1] at this
    simpa [ofBlocks] using this
  · obtain ⟨e, he, hie⟩ := List.mem_flatten.1 hi
    have := (seq_edges xs 0 h e he).2 i hie
    simpa [ofBlocks] using this
  · exact flatten_length_mod _ _ fun e he => (seq_edges xs 0 h e he).1

/-- What a routine that reparameterizes one cell must do. -/
def Appends (m : Mesh K) (box : Box K) (m' : Mesh K) : Prop := ∃ b, m' = addBlock m b ∧ Fits m.dim m.order box m.points.length b

theorem getD_range' (off n k : Nat) (hk : k < n) : (List.range' off n).getD k 0 = off + k := by
  rw [List.getD_eq_getElem?_getD, List.getElem?_range' hk]; simp

/-- The block of a full cell, after `off` points. -/
def fullBlock (cheb : Nat → Nat → K) (dim order : Nat) (box : Box K) (off : Nat) : Block K where
  pts := (indices (List.replicate dim order)).map fun t => List.zipWith (fun (iv : K × K) i => iv.1 + (iv.2 - iv.1) * pointIn01 cheb order i) box t
  conn := List.range' off (order ^ dim)
  edges := (List.range (numEdges dim)).map fun e => (List.range order).map fun i => off + flatIndex (edgeIndex dim order e i) (List.replicate dim order)

theorem flatIndex_two (n a b : Nat) : flatIndex [a, b] [n, n] = a + n * b := by simp [flatIndex]
theorem flatIndex_three (n a b c : Nat) : flatIndex [a, b, c] [n, n, n] = a + n * (b + n * c) := by simp [flatIndex]

theorem edge_increasing (dim order e : Nat) (hd : dim = 2 ∨ dim = 3) (ho : 1 < order) :
    flatIndex (edgeIndex dim order e 0) (List.replicate dim order) < flatIndex (edgeIndex dim order e (order - 1)) (List.replicate dim order) := by
  have hp : 0 < order - 1 := by omega
  have h1 : 0 < order * (order - 1) := Nat.mul_pos (by omega) hp
  have h2 : 0 < order * (order * (order - 1)) := Nat.mul_pos (by omega) h1
  generalize hq : order - 1 = q at *
  rcases hd with rfl | rfl
  · have hr : List.replicate 2 order = [order, order] := rfl
    rw [hr]
    unfold edgeIndex
    simp only [if_true]
    rw [hq]
    by_cases c1 : e < 2
    · simp only [if_pos c1, flatIndex_two, Nat.mul_zero]; omega
    · simp only [if_neg c1, flatIndex_two]; omega
  · have hr : List.replicate 3 order = [order, order, order] := rfl
    rw [hr]
    unfold edgeIndex
    have h32 : ¬ (3 = 2) := by omega
    simp only [if_neg h32]
    rw [hq]
    by_cases c1 : e < 4
    · simp only [if_pos c1, flatIndex_three, Nat.mul_add, Nat.mul_zero]; omega
    · by_cases c2 : e < 8
      · simp only [if_neg c1, if_pos c2, flatIndex_three, Nat.mul_add, Nat.mul_zero]; omega
      · simp only [if_neg c1, if_neg c2, flatIndex_three]; omega

theorem sortEdge_increasing (order : Nat) (raw : List Nat) (h : raw.headD 0 < raw.getLastD 0) : sortEdge order raw = raw := by
  unfold sortEdge
  have h1 : ¬ (raw.getLastD 0 < raw.headD 0) := by omega
  have h2 : ¬ (raw.headD 0 = raw.getLastD 0 ∧ 2 < order) := by omega
  simp only [h1, h2, decide_false, if_false]
  simp

theorem addFullCell_block (cheb : Nat → Nat → K) (m : Mesh K) (box : Box K) (hd : m.dim = 2 ∨ m.dim = 3) (ho : 1 < m.order)
    (hw : m.conn.length % m.order ^ m.dim = 0) :
    addFullCell cheb m box true = some (addBlock m (fullBlock cheb m.dim m.order box m.points.length)) := by
  have hpos : 0 < m.order ^ m.dim := Nat.pow_pos (by omega)
  have hdvd : m.conn.length = m.conn.length / m.order ^ m.dim * m.order ^ m.dim := (Nat.div_mul_cancel (Nat.dvd_of_mod_eq_zero hw)).symm
  have hpe := pushFullCell_eq cheb m box (by omega) ho
  obtain ⟨p, hp⟩ : ∃ p, p = pushFullCell cheb m box := ⟨_, rfl⟩
  rw [← hp] at hpe
  have hpc : p.conn = m.conn ++ List.range' m.points.length (m.order ^ m.dim) := by rw [hpe]
  have hpd : p.dim = m.dim ∧ p.range = m.range ∧ p.order = m.order ∧ p.wires = m.wires := by rw [hpe]; exact ⟨rfl, rfl, rfl, rfl⟩
  have hnum : p.conn.length / m.order ^ m.dim = m.conn.length / m.order ^ m.dim + 1 := by
    rw [hpc, List.length_append, List.length_range', Nat.add_div_right _ hpos]
  have hnc : numCells p = some (m.conn.length / m.order ^ m.dim + 1) := by
    unfold numCells ppc
    rw [hpd.1, hpd.2.2.1, if_pos, hnum]
    rw [hpc, List.length_append, List.length_range', Nat.add_mod_right]; exact hw
  have hraw : ∀ e, rawEdge p (m.conn.length / m.order ^ m.dim) e =
      (List.range m.order).map fun i => m.points.length + flatIndex (edgeIndex m.dim m.order e i) (List.replicate m.dim m.order) := by
    intro e
    unfold rawEdge
    rw [hpd.1, hpd.2.2.1]
    refine List.map_congr_left fun i hi => ?_
    have hl := flatIndex_lt' (edgeIndex_mem m.dim m.order e i hd ho (List.mem_range.1 hi))
    rw [Vtu.listProd_replicate] at hl
    rw [← hdvd, hpc, getD_append_right', getD_range' _ _ _ hl]
  have hsort : ∀ e, sortEdge m.order (rawEdge p (m.conn.length / m.order ^ m.dim) e) =
      (List.range m.order).map fun i => m.points.length + flatIndex (edgeIndex m.dim m.order e i) (List.replicate m.dim m.order) := by
    intro e
    rw [hraw]
    apply sortEdge_increasing
    have hinc := edge_increasing m.dim m.order e hd ho
    obtain ⟨q, hq⟩ : ∃ q, m.order = q + 1 := ⟨m.order - 1, by omega⟩
    have e1 : ∀ f : Nat → Nat, ((List.range (q + 1)).map f).headD 0 = f 0 := by intro f; simp [List.range_succ_eq_map]
    have e2 : ∀ f : Nat → Nat, ((List.range (q + 1)).map f).getLastD 0 = f q := by intro f; simp [List.range_succ, List.getLastD_eq_getLast?]
    have hinc' := hinc
    rw [show m.order - 1 = q by omega] at hinc'
    obtain ⟨f, hf⟩ : ∃ f : Nat → Nat, f = fun i => m.points.length + flatIndex (edgeIndex m.dim m.order e i) (List.replicate m.dim m.order) := ⟨_, rfl⟩
    rw [← hf, show List.range m.order = List.range (q + 1) by rw [hq], e1, e2, hf]
    dsimp only
    omega
  have key : ∀ (L : List Nat) (b : Mesh K), (∀ e ∈ L, e < numEdges m.dim) →
      (b.dim = m.dim ∧ b.order = m.order ∧ b.conn = p.conn) →
      L.foldlM (fun m' edge => (edgePoints m' (m.conn.length / m.order ^ m.dim) edge).bind fun e => some { m' with wires := m'.wires ++ e }) b =
        some { b with wires := b.wires ++ (L.map fun e => sortEdge m.order (rawEdge p (m.conn.length / m.order ^ m.dim) e)).flatten } := by
    intro L
    induction L with
    | nil => intro b _ _; simp
    | cons e L ih =>
      intro b hL hb
      have hE' : edgePoints b (m.conn.length / m.order ^ m.dim) e = some (sortEdge m.order (rawEdge p (m.conn.length / m.order ^ m.dim) e)) := by
        rw [edgePoints_eq b _ e (by rw [hb.1]; exact hd) (by rw [hb.2.1]; exact ho) (by rw [hb.1]; exact hL e (List.mem_cons_self ..))
          (by rw [hb.1, hb.2.1, hb.2.2, hnum]; omega), hb.2.1]
        unfold rawEdge
        rw [hb.1, hb.2.1, hb.2.2, hpd.1, hpd.2.2.1]
      rw [List.foldlM_cons, hE', Option.bind_some]
      simp only [Option.bind_eq_bind, Option.bind_some]
      rw [ih _ (fun x hx => hL x (List.mem_cons_of_mem _ hx)) (by exact hb)]
      simp
  unfold addFullCell
  rw [← hp]
  dsimp only
  rw [hnc]
  simp only [Option.bind_eq_bind, Option.bind_some, if_true, Nat.add_sub_cancel]
  rw [show numEdges p.dim = numEdges m.dim by rw [hpd.1]]
  rw [key _ p (fun e he => List.mem_range.1 he) ⟨hpd.1, hpd.2.2.1, rfl⟩]
  simp only [hsort]
  rw [hpe]
  rfl

theorem fullBlock_fits (cheb : Nat → Nat → K) (dim order : Nat) (box : Box K) (off : Nat) (hd : dim = 2 ∨ dim = 3) (ho : 1 < order)
    (hn : ∀ i, i < order → 0 ≤ pointIn01 cheb order i ∧ pointIn01 cheb order i ≤ 1) (hl : box.length = dim) (hb : ∀ iv ∈ box, iv.1 ≤ iv.2) :
    Fits dim order box off (fullBlock cheb dim order box off) := by
  have hlen : (fullBlock cheb dim order box off).pts.length = order ^ dim := by
    unfold fullBlock
    rw [List.length_map, length_indices, Vtu.listProd_replicate]
  refine ⟨by rw [hlen]; exact List.Perm.refl _, by rw [hlen]; exact Nat.mod_self _, fun p hp => ?_, fun e he => ?_⟩
  · obtain ⟨t, ht, rfl⟩ := List.mem_map.1 hp
    rw [mem_indices] at ht
    clear hp hlen
    have : ∀ (box : Box K) (n : Nat) (t : List Nat), box.length = n → (∀ iv ∈ box, iv.1 ≤ iv.2) → List.Forall₂ (· < ·) t (List.replicate n order) →
        InClosedBox 0 box (List.zipWith (fun (iv : K × K) i => iv.1 + (iv.2 - iv.1) * pointIn01 cheb order i) box t) := by
      intro box
      induction box with
      | nil => intro n t _ _ _; exact List.Forall₂.nil
      | cons iv box ih =>
        intro n t hn' hb' ht'
        obtain ⟨n, rfl⟩ : ∃ k, n = k + 1 := ⟨n - 1, by simp at hn'; omega⟩
        rw [List.replicate_succ] at ht'
        obtain _ | ⟨h1, h2⟩ := ht'
        rename_i i t
        refine List.Forall₂.cons ?_ (ih n t (by simpa using hn') (fun x hx => hb' x (List.mem_cons_of_mem _ hx)) h2)
        obtain ⟨a, b⟩ := hn i h1
        have hiv := hb' iv (List.mem_cons_self ..)
        constructor <;> nlinarith
    exact this box dim t hl hb ht
  · obtain ⟨k, hk, rfl⟩ := List.mem_map.1 he
    refine ⟨by simp, fun i hi => ?_⟩
    obtain ⟨j, hj, rfl⟩ := List.mem_map.1 hi
    have hl := flatIndex_lt' (edgeIndex_mem dim order k j hd ho (List.mem_range.1 hj))
    rw [Vtu.listProd_replicate] at hl
    rw [hlen]
    omega

/-! ### The loops -/

/-- `x` stands for the box of the cell `c`. -/
def BoxOf (g : Grid K) (c : Nat) (x : Box K × Block K) : Prop := g.cellDomain c = some x.1

theorem addCutCells_blocks (g : Grid K) (cutCell : Mesh K → Box K → Option (Mesh K)) (dim range order : Nat) (hd : 0 < dim) (hd3 : dim ≤ 3)
    (ho : 1 < order)
    (hcut : ∀ (m m' : Mesh K) (c : Nat) (box : Box K), Inv m → m.dim = dim → m.range = range → m.order = order → g.cellDomain c = some box →
      cutCell m box = some m' → Appends m box m') :
    ∀ (cut : List Nat) (xs : List (Box K × Block K)) (m' : Mesh K), Seq dim order 0 xs →
      addCutCells g cutCell cut (ofBlocks dim range order xs) = some m' →
      ∃ ys, List.Forall₂ (BoxOf g) cut ys ∧ Seq dim order 0 (xs ++ ys) ∧ m' = ofBlocks dim range order (xs ++ ys) := by
  intro cut
  induction cut with
  | nil => intro xs m' hs h; cases h; exact ⟨[], List.Forall₂.nil, by simpa using hs, by simp⟩
  | cons c cut ih =>
    intro xs m' hs h
    unfold addCutCells at h
    rw [List.foldlM_cons] at h
    obtain ⟨m1, h1, h2⟩ := Option.bind_eq_some_iff.1 h
    obtain ⟨box, hb, h1⟩ := Option.bind_eq_some_iff.1 h1
    obtain ⟨b, hb1, hb2⟩ := hcut _ _ c box (inv_ofBlocks dim range order xs hd hd3 ho hs) rfl rfl rfl hb h1
    have hs1 : Seq dim order 0 (xs ++ [(box, b)]) := by
      rw [seq_append]
      refine ⟨hs, ?_, trivial⟩
      rw [Nat.zero_add]; exact hb2
    have hm1 : m1 = ofBlocks dim range order (xs ++ [(box, b)]) := by rw [hb1, ofBlocks_snoc]
    rw [hm1] at h2
    obtain ⟨ys, y1, y2, y3⟩ := ih _ m' hs1 h2
    exact ⟨(box, b) :: ys, List.Forall₂.cons hb y1, by simpa using y2, by simpa using y3⟩

theorem addCutCells_success (g : Grid K) (cutCell : Mesh K → Box K → Option (Mesh K)) (dim range order : Nat) (hd : 0 < dim) (hd3 : dim ≤ 3)
    (ho : 1 < order)
    (hcut : ∀ (m m' : Mesh K) (c : Nat) (box : Box K), Inv m → m.dim = dim → m.range = range → m.order = order → g.cellDomain c = some box →
      cutCell m box = some m' → Appends m box m') :
    ∀ (cut : List Nat) (xs : List (Box K × Block K)), Seq dim order 0 xs →
      (∀ c ∈ cut, ∃ box, g.cellDomain c = some box) →
      (∀ (m : Mesh K) (c : Nat) (box : Box K), Inv m → m.dim = dim → m.range = range → m.order = order → c ∈ cut → g.cellDomain c = some box →
        ∃ m', cutCell m box = some m') →
      ∃ m', addCutCells g cutCell cut (ofBlocks dim range order xs) = some m' := by
  intro cut
  induction cut with
  | nil => intro xs _ _ _; exact ⟨_, rfl⟩
  | cons c cut ih =>
    intro xs hs hb hsucc
    obtain ⟨box, hbox⟩ := hb c (List.mem_cons_self ..)
    have hinv := inv_ofBlocks dim range order xs hd hd3 ho hs
    obtain ⟨m1, h1⟩ := hsucc _ c box hinv rfl rfl rfl (List.mem_cons_self ..) hbox
    obtain ⟨b, hb1, hb2⟩ := hcut _ _ c box hinv rfl rfl rfl hbox h1
    have hs1 : Seq dim order 0 (xs ++ [(box, b)]) := by
      rw [seq_append]
      refine ⟨hs, ?_, trivial⟩
      rw [Nat.zero_add]; exact hb2
    have hm1 : m1 = ofBlocks dim range order (xs ++ [(box, b)]) := by rw [hb1, ofBlocks_snoc]
    obtain ⟨m', hm'⟩ := ih _ hs1 (fun c hc => hb c (List.mem_cons_of_mem _ hc))
      (fun m c box h1 h2 h3 h4 h5 => hsucc m c box h1 h2 h3 h4 (List.mem_cons_of_mem _ h5))
    refine ⟨m', ?_⟩
    unfold addCutCells at hm' ⊢
    rw [List.foldlM_cons, hbox]
    simp only [Option.bind_eq_bind, Option.bind_some]
    rw [h1, Option.bind_some, hm1]
    exact hm'

/-- The blocks of full cells. -/
def FullSeq (cheb : Nat → Nat → K) (dim order : Nat) : Nat → List (Box K × Block K) → Prop
  | _, [] => True
  | off, x :: xs => x.2 = fullBlock cheb dim order x.1 off ∧ FullSeq cheb dim order (off + order ^ dim) xs

theorem fullBlock_len (cheb : Nat → Nat → K) (dim order : Nat) (box : Box K) (off : Nat) : (fullBlock cheb dim order box off).pts.length = order ^ dim := by
  unfold fullBlock
  rw [List.length_map, length_indices, Vtu.listProd_replicate]

theorem addFullCells_blocks (cheb : Nat → Nat → K) (g : Grid K) (dim range order : Nat) (hd : dim = 2 ∨ dim = 3) (ho : 1 < order)
    (hn : ∀ i, i < order → 0 ≤ pointIn01 cheb order i ∧ pointIn01 cheb order i ≤ 1) :
    ∀ (full : List Nat) (xs : List (Box K × Block K)), (∀ c ∈ full, ∃ box, g.cellDomain c = some box ∧ box.length = dim ∧ ∀ iv ∈ box, iv.1 ≤ iv.2) →
      Seq dim order 0 xs →
      ∃ zs, List.Forall₂ (BoxOf g) full zs ∧ Seq dim order 0 (xs ++ zs) ∧ FullSeq cheb dim order ((xs.map (·.2.pts)).flatten).length zs ∧
        addFullCells cheb (ofBlocks dim range order xs) g full true = some (ofBlocks dim range order (xs ++ zs)) := by
  intro full
  induction full with
  | nil => intro xs _ hs; exact ⟨[], List.Forall₂.nil, by simpa using hs, trivial, by simp [addFullCells]⟩
  | cons c full ih =>
    intro xs hc hs
    obtain ⟨box, b1, b2, b3⟩ := hc c (List.mem_cons_self ..)
    obtain ⟨off, hoff⟩ : ∃ off, off = ((xs.map (·.2.pts)).flatten).length := ⟨_, rfl⟩
    have hstep := addFullCell_block cheb (ofBlocks dim range order xs) box hd ho
      (inv_ofBlocks dim range order xs (by omega) (by omega) ho hs).whole
    have hs1 : Seq dim order 0 (xs ++ [(box, fullBlock cheb dim order box off)]) := by
      rw [seq_append]
      refine ⟨hs, ?_, trivial⟩
      rw [Nat.zero_add, ← hoff]
      exact fullBlock_fits cheb dim order box off hd ho hn b2 b3
    obtain ⟨zs, z1, z2, z3, z4⟩ := ih _ (fun c hc' => hc c (List.mem_cons_of_mem _ hc')) hs1
    refine ⟨(box, fullBlock cheb dim order box off) :: zs, List.Forall₂.cons b1 z1, by simpa using z2, ⟨by rw [hoff], ?_⟩, ?_⟩
    · rw [← hoff]
      simpa [fullBlock_len, ← hoff] using z3
    · unfold addFullCells at z4 ⊢
      rw [List.foldlM_cons, b1]
      simp only [Option.bind_eq_bind, Option.bind_some]
      rw [hstep]
      have : addBlock (ofBlocks dim range order xs) (fullBlock cheb (ofBlocks dim range order xs).dim (ofBlocks dim range order xs).order box
          (ofBlocks dim range order xs).points.length) = ofBlocks dim range order (xs ++ [(box, fullBlock cheb dim order box off)]) := by
        rw [ofBlocks_snoc, hoff]; rfl
      rw [this, Option.bind_some]
      simpa using z4

/-! ### The cells of the mesh -/

theorem seq_cells (g : Grid K) (dim order : Nat) (ho : 1 < order) : ∀ (ids : List Nat) (xs : List (Box K × Block K)) (off : Nat),
    List.Forall₂ (BoxOf g) ids xs → Seq dim order off xs →
    ∃ origins : List Nat, origins.length * order ^ dim = ((xs.map (·.2.conn)).flatten).length ∧ (∀ c ∈ origins, c ∈ ids) ∧
      ∀ k (hk : k < origins.length), ∃ box, g.cellDomain origins[k] = some box ∧ ∀ j < order ^ dim, ∀ (pre : List (List K)), pre.length = off →
        InClosedBox 0 box ((pre ++ (xs.map (·.2.pts)).flatten).getD (((xs.map (·.2.conn)).flatten).getD (k * order ^ dim + j) 0) []) := by
  intro ids xs off hf
  induction hf generalizing off with
  | nil => intro _; exact ⟨[], by simp, by simp, by simp⟩
  | @cons c x ids xs hx hf ih =>
    intro hs
    have hpos : 0 < order ^ dim := Nat.pow_pos (by omega)
    obtain ⟨origins, o1, o2, o3⟩ := ih _ hs.2
    have hlen := fits_len hs.1
    obtain ⟨n, hn⟩ : ∃ n, x.2.pts.length = n * order ^ dim :=
      ⟨x.2.pts.length / order ^ dim, (Nat.div_mul_cancel (Nat.dvd_of_mod_eq_zero hs.1.whole)).symm⟩
    refine ⟨List.replicate n c ++ origins, ?_, ?_, ?_⟩
    · simp only [List.length_append, List.length_replicate, List.map_cons, List.flatten_cons]
      rw [Nat.add_mul, o1, hlen, hn]
    · intro d hd
      rcases List.mem_append.1 hd with hd | hd
      · rw [List.eq_of_mem_replicate hd]; exact List.mem_cons_self ..
      · exact List.mem_cons_of_mem _ (o2 d hd)
    · intro k hk
      simp only [List.map_cons, List.flatten_cons]
      by_cases hkn : k < n
      · refine ⟨x.1, by rw [List.getElem_append_left (by simpa using hkn), List.getElem_replicate]; exact hx, fun j hj pre hpre => ?_⟩
        have hi : k * order ^ dim + j < x.2.conn.length := by
          rw [hlen, hn]
          calc k * order ^ dim + j < k * order ^ dim + order ^ dim := by omega
            _ = (k + 1) * order ^ dim := by ring
            _ ≤ n * order ^ dim := Nat.mul_le_mul_right _ hkn
        rw [getD_append_left' _ _ _ _ hi]
        have hmem : x.2.conn.getD (k * order ^ dim + j) 0 ∈ x.2.conn := by
          rw [List.getD_eq_getElem?_getD, List.getElem?_eq_getElem hi]
          exact List.getElem_mem hi
        have hr := hs.1.perm.mem_iff.1 hmem
        rw [List.mem_range'_1] at hr
        obtain ⟨i, hi'⟩ : ∃ i, x.2.conn.getD (k * order ^ dim + j) 0 = pre.length + i := ⟨_, (Nat.add_sub_of_le (by omega)).symm⟩
        rw [hi'] at hr ⊢
        rw [getD_append_right', getD_append_left' _ _ _ _ (by omega)]
        apply hs.1.inBox
        rw [List.getD_eq_getElem?_getD, List.getElem?_eq_getElem (by omega)]
        exact List.getElem_mem _
      · have hk' : k - n < origins.length := by simp at hk; omega
        obtain ⟨box, q1, q2⟩ := o3 (k - n) hk'
        refine ⟨box, ?_, fun j hj pre hpre => ?_⟩
        · rw [List.getElem_append_right (by simpa using hkn)]
          simpa using q1
        · have := q2 j hj (pre ++ x.2.pts) (by rw [List.length_append, hpre])
          rw [List.append_assoc] at this
          have he : k * order ^ dim + j = x.2.conn.length + ((k - n) * order ^ dim + j) := by
            rw [hlen, hn, ← Nat.add_assoc, ← Nat.add_mul, Nat.add_sub_of_le (by omega)]
          rw [he, getD_append_right']
          exact this

theorem full_cells (cheb : Nat → Nat → K) (dim order : Nat) (ho : 1 < order) : ∀ (zs : List (Box K × Block K)) (off : Nat),
    FullSeq cheb dim order off zs →
    ((zs.map (·.2.conn)).flatten).length = zs.length * order ^ dim ∧
    ∀ k (hk : k < zs.length), ∀ t ∈ indices (List.replicate dim order), ∀ (pre : List (List K)), pre.length = off →
      (pre ++ (zs.map (·.2.pts)).flatten).getD (((zs.map (·.2.conn)).flatten).getD (k * order ^ dim + flatIndex t (List.replicate dim order)) 0) [] =
        List.zipWith (fun (iv : K × K) i => iv.1 + (iv.2 - iv.1) * pointIn01 cheb order i) zs[k].1 t := by
  intro zs
  induction zs with
  | nil => intro off _; exact ⟨by simp, by intro k hk; simp at hk⟩
  | cons z zs ih =>
    intro off h
    obtain ⟨i1, i2⟩ := ih _ h.2
    have hl : z.2.conn.length = order ^ dim := by rw [h.1]; simp [fullBlock]
    have hlp : z.2.pts.length = order ^ dim := by rw [h.1]; exact fullBlock_len ..
    refine ⟨by simp only [List.map_cons, List.flatten_cons, List.length_append, List.length_cons, i1, hl]; ring, fun k hk t ht pre hpre => ?_⟩
    have hlt := flatIndex_lt' ht
    rw [Vtu.listProd_replicate] at hlt
    simp only [List.map_cons, List.flatten_cons]
    cases k with
    | zero =>
      rw [Nat.zero_mul, Nat.zero_add, getD_append_left' z.2.conn _ _ _ (by omega)]
      have : z.2.conn.getD (flatIndex t (List.replicate dim order)) 0 = pre.length + flatIndex t (List.replicate dim order) := by
        rw [h.1]
        show (List.range' off (order ^ dim)).getD _ 0 = _
        rw [getD_range' _ _ _ hlt, hpre]
      rw [this, getD_append_right', getD_append_left' _ _ _ _ (by omega), h.1]
      show ((indices _).map _).getD _ _ = _
      rw [getD_indices_map _ _ _ _ ht]
      rfl
    | succ k =>
      have := i2 k (by simpa using hk) t ht (pre ++ z.2.pts) (by rw [List.length_append, hpre, hlp])
      rw [List.append_assoc] at this
      rw [show (k + 1) * order ^ dim + flatIndex t (List.replicate dim order) = z.2.conn.length + (k * order ^ dim + flatIndex t (List.replicate dim order)) by
        rw [hl]; ring, getD_append_right', this]
      rfl

end Qugar.Mesh
