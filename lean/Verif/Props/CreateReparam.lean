import Verif.Lemmas.CreateReparam
import Verif.Props.ReparamBezier
import Verif.Props.Grid
/-
Property theorem C58 (`create_reparameterization`).
-/
namespace Qugar.Mesh
open Spec Poly TS Tree
variable {K : Type} [Field K] [LinearOrder K] [IsStrictOrderedRing K]

/-- The routine that reparameterizes a cut cell into a mesh only appends: whole cells whose vertices are the new points, each of
them used once, all in the box of the cell; and wirebasket edges with `order` of the new points each. -/
def CutCellOk (g : Grid K) (dim range order : Nat) (cutCell : Mesh K → Box K → Option (Mesh K)) : Prop :=
  ∀ (m m' : Mesh K) (c : Nat) (box : Box K), Inv m → m.dim = dim → m.range = range → m.order = order → g.cellDomain c = some box →
    cutCell m box = some m' →
    ∃ (P : List (List K)) (C : List Nat) (W : List (List Nat)),
      m' = ⟨dim, range, order, m.points ++ P, m.conn ++ C, m.wires ++ W.flatten⟩ ∧ P.length % order ^ dim = 0 ∧
      C.Perm (List.range' m.points.length P.length) ∧ (∀ p ∈ P, InClosedBox 0 box p) ∧
      ∀ e ∈ W, e.length = order ∧ ∀ i ∈ e, m.points.length ≤ i ∧ i < m.points.length + P.length

/-- The dimension of the cells. -/
def paramDim (g : Grid K) (levelset : Bool) : Nat := if levelset then g.length - 1 else g.length

omit [IsStrictOrderedRing K] in
theorem cutCellOk_appends {g : Grid K} {dim range order : Nat} {cutCell : Mesh K → Box K → Option (Mesh K)}
    (h : CutCellOk g dim range order cutCell) (m m' : Mesh K) (c : Nat) (box : Box K) (hi : Inv m) (h1 : m.dim = dim) (h2 : m.range = range)
    (h3 : m.order = order) (hb : g.cellDomain c = some box) (hc : cutCell m box = some m') : Appends m box m' := by
  obtain ⟨P, C, W, p1, p2, p3, p4, p5⟩ := h m m' c box hi h1 h2 h3 hb hc
  subst h1; subst h2; subst h3
  exact ⟨⟨P, C, W⟩, p1, p3, p2, p4, p5⟩

theorem cellDomain_facts (g : Grid K) (hv : g.Valid) (c : Nat) (hc : c < g.numCells) :
    ∃ box, g.cellDomain c = some box ∧ box.length = g.length ∧ ∀ iv ∈ box, iv.1 ≤ iv.2 := by
  obtain ⟨box, b1, b2, b3⟩ := Grid.C07_cell_domain_inside g hv c hc
  refine ⟨box, b1, b2, fun iv hiv => ?_⟩
  obtain ⟨k, hk, rfl⟩ := List.getElem_of_mem hiv
  have hk' : k < g.length := by omega
  exact le_of_lt (b3 k box[k] _ (List.getElem?_eq_getElem hk) (List.getElem?_eq_getElem (by simpa [Grid.domain] using hk'))).2.1

/-- The lists of processed cells and the blocks of the mesh. -/
theorem create_blocks (cheb : Nat → Nat → K) (srt : (Nat → K) → List Nat → List Nat) (srtE : List (List Nat) → List (List Nat)) (tol : K)
    (g : Grid K) (hv : g.Valid) (hg : g.length = 2 ∨ g.length = 3) (t : Tree) (ht : Reachable g.numCellsDir t) (levelset : Bool)
    (cutCell : Mesh K → Box K → Option (Mesh K)) (cells : List Nat) (hc : ∀ c ∈ cells, c < g.numCells) (order : Nat) (ho : 1 < order)
    (hn : ∀ i, i < order → 0 ≤ pointIn01 cheb order i ∧ pointIn01 cheb order i ≤ 1)
    (hcut : CutCellOk g (paramDim g levelset) g.length order cutCell) :
    ∃ cut full : List Nat, (cut.Pairwise (· ≤ ·) ∧ (∀ c, HasStatus g.numCellsDir t c .cut → cut.count c = cells.count c) ∧
        ∀ c, ¬ HasStatus g.numCellsDir t c .cut → c ∉ cut) ∧
      (full.Pairwise (· ≤ ·) ∧ (∀ c, HasStatus g.numCellsDir t c .full → full.count c = cells.count c) ∧
        ∀ c, ¬ HasStatus g.numCellsDir t c .full → c ∉ full) ∧
      (∀ m, createReparam cheb srt srtE tol g t levelset cutCell cells order false = some m →
        ∃ ys zs, List.Forall₂ (BoxOf g) cut ys ∧ Seq (paramDim g levelset) order 0 (ys ++ zs) ∧
          m = ofBlocks (paramDim g levelset) g.length order (ys ++ zs) ∧
          (levelset = true → zs = []) ∧
          (levelset = false → List.Forall₂ (BoxOf g) full zs ∧
            FullSeq cheb (paramDim g levelset) order ((ys.map (·.2.pts)).flatten).length zs)) ∧
      ((∀ (m : Mesh K) (c : Nat) (box : Box K), Inv m → m.dim = paramDim g levelset → m.range = g.length → m.order = order →
          HasStatus g.numCellsDir t c .cut → g.cellDomain c = some box → ∃ m', cutCell m box = some m') →
        ∃ m, createReparam cheb srt srtE tol g t levelset cutCell cells order false = some m) := by
  have hne : g ≠ [] := by intro h; rw [h] at hg; simp at hg
  have hshape : GridShape g.numCellsDir := gridShape_of_valid hv hne
  have hsz : g.numCells = listProd g.numCellsDir := tsize_eq _
  have hperm : (sortIds cells).Perm cells := List.perm_insertionSort _ _
  have hsc : ∀ c ∈ sortIds cells, c < listProd g.numCellsDir := fun c h => by rw [← hsz]; exact hc c (hperm.mem_iff.1 h)
  obtain ⟨cut, c1, c2, c3, c4⟩ := (C10_target_queries _ hshape t ht .cut (sortIds cells)).1 hsc
  obtain ⟨full, f1, f2, f3, f4⟩ := (C10_target_queries _ hshape t ht .full (sortIds cells)).1 hsc
  have hcells : ∀ (st : Status) (ids : List Nat), (∀ c, HasStatus g.numCellsDir t c st → ids.count c = (sortIds cells).count c) →
      (∀ c, ¬ HasStatus g.numCellsDir t c st → c ∉ ids) → ∀ c ∈ ids, c < g.numCells := by
    intro st ids h1 h2 c hcm
    by_cases hs : HasStatus g.numCellsDir t c st
    · have := h1 c hs
      have hpos := List.count_pos_iff.2 hcm
      rw [this] at hpos
      rw [hsz]; exact hsc c (List.count_pos_iff.1 hpos)
    · exact absurd hcm (h2 c hs)
  have hd : 0 < paramDim g levelset := by unfold paramDim; split_ifs <;> omega
  have hd3 : paramDim g levelset ≤ 3 := by unfold paramDim; split_ifs <;> omega
  have hnew : Mesh.new (K := K) (paramDim g levelset) g.length order = some (ofBlocks (paramDim g levelset) g.length order []) := by
    unfold Mesh.new; rw [if_pos ho]; rfl
  have hcr : createReparam cheb srt srtE tol g t levelset cutCell cells order false =
      (addCutCells g cutCell cut (ofBlocks (paramDim g levelset) g.length order [])).bind fun m =>
        addFulls cheb g t levelset (sortIds cells) m := by
    unfold createReparam
    rw [if_pos ho]
    dsimp only
    rw [c1]
    have hnew' := hnew
    unfold paramDim at hnew'
    simp only [Option.bind_eq_bind, Option.bind_some]
    rw [hnew', Option.bind_some]
    congr 1
    funext m
    simp
  have happ := fun m m' c box => cutCellOk_appends hcut m m' c box
  have hfullcells : ∀ c ∈ full, ∃ box, g.cellDomain c = some box ∧ box.length = g.length ∧ ∀ iv ∈ box, iv.1 ≤ iv.2 := fun c hcm =>
    cellDomain_facts g hv c (hcells .full full f3 f4 c hcm)
  refine ⟨cut, full, ⟨c2, fun c h => (c3 c h).trans (hperm.count_eq c), c4⟩, ⟨f2, fun c h => (f3 c h).trans (hperm.count_eq c), f4⟩,
    fun m hm => ?_, fun hsucc => ?_⟩
  · rw [hcr] at hm
    obtain ⟨m1, h1, h2⟩ := Option.bind_eq_some_iff.1 hm
    obtain ⟨ys, y1, y2, y3⟩ := addCutCells_blocks g cutCell _ g.length order hd hd3 ho happ cut [] m1 trivial h1
    rw [List.nil_append] at y2 y3
    cases hl : levelset with
    | true =>
      subst hl
      unfold addFulls at h2
      rw [if_pos rfl] at h2
      cases h2
      exact ⟨ys, [], y1, by simpa using y2, by simpa using y3, fun _ => rfl, by simp⟩
    | false =>
      subst hl
      unfold addFulls at h2
      rw [if_neg (by simp), f1] at h2
      simp only [Option.bind_eq_bind, Option.bind_some] at h2
      obtain ⟨zs, z1, z2, z3, z4⟩ := addFullCells_blocks cheb g (paramDim g false) g.length order hg ho hn full ys hfullcells y2
      rw [y3, z4] at h2
      cases h2
      exact ⟨ys, zs, y1, z2, rfl, by simp, fun _ => ⟨z1, z3⟩⟩
  · obtain ⟨m1, h1⟩ := addCutCells_success g cutCell _ g.length order hd hd3 ho happ cut [] trivial
      (fun c hcm => by obtain ⟨b, hb, _⟩ := cellDomain_facts g hv c (hcells .cut cut c3 c4 c hcm); exact ⟨b, hb⟩)
      (fun m c box i1 i2 i3 i4 i5 i6 => hsucc m c box i1 i2 i3 i4 (by by_contra h; exact c4 c h i5) i6)
    obtain ⟨ys, y1, y2, y3⟩ := addCutCells_blocks g cutCell _ g.length order hd hd3 ho happ cut [] m1 trivial h1
    rw [List.nil_append] at y2 y3
    rw [hcr, h1, Option.bind_some]
    unfold addFulls
    cases hl : levelset with
    | true => exact ⟨_, by rw [if_pos rfl]⟩
    | false =>
      subst hl
      obtain ⟨zs, z1, z2, z3, z4⟩ := addFullCells_blocks cheb g (paramDim g false) g.length order hg ho hn full ys hfullcells y2
      rw [if_neg (by simp), f1, y3]
      simp only [Option.bind_eq_bind, Option.bind_some]
      exact ⟨_, z4⟩

theorem status_unique {n : List Nat} (hn : GridShape n) {t : Tree} (ht : Reachable n t) {c : Nat} {s s' : Status}
    (h : HasStatus n t c s) (h' : HasStatus n t c s') : s = s' := by
  obtain ⟨q1, q2, q3, _⟩ := C09_cells_by_status n hn t ht
  obtain ⟨i1, a1, _, a3, _⟩ := q1 s
  obtain ⟨i2, b1, _, b3, _⟩ := q1 s'
  have hl := q3 s i1 c a1 ((a3 c).2 h)
  exact (q2 c hl).unique ⟨i1, a1, (a3 c).2 h⟩ ⟨i2, b1, (b3 c).2 h'⟩

/-- **C58** (no merging of points): the reparameterization of an unfitted domain, restricted to a list of cells of the grid (repeated
cells count as often as they are given). Every mesh cell has an origin, which is one of the requested cells, cut (or full, for
volumes), and all its vertices are in the closed box of its origin. Every requested full cell is the origin of exactly one mesh
cell per request, with its vertices at the tensor-product nodes of the box; level sets have none. The connectivity uses every point
exactly once and the edges of the wirebasket have `order` points of the mesh. -/
theorem C58_cells (cheb : Nat → Nat → K) (srt : (Nat → K) → List Nat → List Nat) (srtE : List (List Nat) → List (List Nat)) (tol : K)
    (g : Grid K) (hv : g.Valid) (hg : g.length = 2 ∨ g.length = 3) (t : Tree) (ht : Reachable g.numCellsDir t) (levelset : Bool)
    (cutCell : Mesh K → Box K → Option (Mesh K)) (cells : List Nat) (hc : ∀ c ∈ cells, c < g.numCells) (order : Nat) (ho : 1 < order)
    (hn : ∀ i, i < order → 0 ≤ pointIn01 cheb order i ∧ pointIn01 cheb order i ≤ 1)
    (hcut : CutCellOk g (paramDim g levelset) g.length order cutCell) (m : Mesh K)
    (hm : createReparam cheb srt srtE tol g t levelset cutCell cells order false = some m) :
    m.dim = paramDim g levelset ∧ m.range = g.length ∧ m.order = order ∧
    m.conn.Perm (List.range m.points.length) ∧
    (∃ W : List (List Nat), m.wires = W.flatten ∧ ∀ e ∈ W, e.length = order ∧ ∀ i ∈ e, i < m.points.length) ∧
    ∃ origins : List Nat, numCells m = some origins.length ∧
      (∀ k (hk : k < origins.length), origins[k] ∈ cells ∧
        (HasStatus g.numCellsDir t origins[k] .cut ∨ (levelset = false ∧ HasStatus g.numCellsDir t origins[k] .full)) ∧
        ∃ box, g.cellDomain origins[k] = some box ∧
          (∀ i ∈ indices (List.replicate m.dim order), InClosedBox 0 box (vertex m.dim order m.points m.conn k i)) ∧
          (HasStatus g.numCellsDir t origins[k] .full → ∀ i ∈ indices (List.replicate m.dim order),
            vertex m.dim order m.points m.conn k i =
              List.zipWith (fun (iv : K × K) j => iv.1 + (iv.2 - iv.1) * pointIn01 cheb order j) box i)) ∧
      (levelset = false → ∀ c, HasStatus g.numCellsDir t c .full → origins.count c = cells.count c) := by
  have hne : g ≠ [] := by intro h; rw [h] at hg; simp at hg
  have hshape : GridShape g.numCellsDir := gridShape_of_valid hv hne
  obtain ⟨cut, full, ⟨_, c2, c3⟩, ⟨_, f2, f3⟩, hb, _⟩ := create_blocks cheb srt srtE tol g hv hg t ht levelset cutCell cells hc order ho hn hcut
  obtain ⟨ys, zs, y1, y2, y3, y4, y5⟩ := hb m hm
  obtain ⟨d, hd⟩ : ∃ d, d = paramDim g levelset := ⟨_, rfl⟩
  rw [← hd] at y2 y3 y5
  have hmem : ∀ (st : Status) (ids : List Nat), (∀ c, HasStatus g.numCellsDir t c st → ids.count c = cells.count c) →
      (∀ c, ¬ HasStatus g.numCellsDir t c st → c ∉ ids) → ∀ c ∈ ids, c ∈ cells ∧ HasStatus g.numCellsDir t c st := by
    intro st ids h1 h2 c hcm
    have hs : HasStatus g.numCellsDir t c st := by by_contra h; exact h2 c h hcm
    exact ⟨List.count_pos_iff.1 (by rw [← h1 c hs]; exact List.count_pos_iff.2 hcm), hs⟩
  have hpos : 0 < order ^ d := Nat.pow_pos (by omega)
  obtain ⟨o, o1, o2, o3⟩ := seq_cells g d order ho cut ys 0 y1 ((seq_append ys zs 0).1 y2).1
  obtain ⟨l1, l2⟩ := seq_conn_len _ _ y2
  obtain ⟨l3, l4⟩ := seq_conn_len _ _ ((seq_append ys zs 0).1 y2).1
  have hmd : m.dim = d := by rw [y3]; rfl
  have hp : m.points = (ys.map (·.2.pts)).flatten ++ (zs.map (·.2.pts)).flatten := by rw [y3]; simp [ofBlocks]
  have hcn : m.conn = (ys.map (·.2.conn)).flatten ++ (zs.map (·.2.conn)).flatten := by rw [y3]; simp [ofBlocks]
  obtain ⟨fl, hfl, z1, z2⟩ : ∃ fl : List Nat, (fl = if levelset then [] else full) ∧ List.Forall₂ (BoxOf g) fl zs ∧
      FullSeq cheb d order ((ys.map (·.2.pts)).flatten).length zs := by
    cases hl : levelset with
    | true => rw [y4 hl]; exact ⟨[], by simp, List.Forall₂.nil, trivial⟩
    | false => exact ⟨full, by simp, (y5 hl).1, (y5 hl).2⟩
  obtain ⟨q1, q2⟩ := full_cells cheb d order ho zs _ z2
  have hzl : zs.length = fl.length := z1.length_eq.symm
  have hconnlen : m.conn.length = (o ++ fl).length * order ^ d := by
    rw [hcn, List.length_append, q1, ← o1, List.length_append, hzl, Nat.add_mul]
  refine ⟨by rw [hmd, hd], by rw [y3]; rfl, by rw [y3]; rfl, ?_, ?_, o ++ fl, ?_, fun k hk => ?_, fun hl c hcs => ?_⟩
  · have := seq_conn_perm _ _ y2
    rw [y3, List.range_eq_range']
    exact this
  · refine ⟨((ys ++ zs).map (·.2.edges)).flatten, by rw [y3]; rfl, fun e he => ?_⟩
    obtain ⟨e1, e2⟩ := seq_edges _ _ y2 e he
    refine ⟨e1, fun i hi => ?_⟩
    have := (e2 i hi).2
    rw [y3]
    simpa [ofBlocks] using this
  · unfold numCells ppc
    have hmo : m.order = order := by rw [y3]; rfl
    rw [hmd, hmo, hconnlen, Nat.mul_mod_left, if_pos rfl, Nat.mul_div_cancel _ hpos]
  · rw [hmd]
    by_cases hko : k < o.length
    · rw [List.getElem_append_left hko]
      obtain ⟨a1, a2⟩ := hmem .cut cut c2 c3 _ (o2 _ (List.getElem_mem hko))
      obtain ⟨box, b1, b2⟩ := o3 k hko
      refine ⟨a1, Or.inl a2, box, b1, fun i hi => ?_, fun hfs => ?_⟩
      · have hlt := flatIndex_lt' hi
        rw [Vtu.listProd_replicate] at hlt
        have := b2 _ hlt [] rfl
        rw [List.nil_append] at this
        have hidx : k * order ^ d + flatIndex i (List.replicate d order) < ((ys.map (·.2.conn)).flatten).length := by
          rw [← o1]
          calc k * order ^ d + flatIndex i (List.replicate d order) < k * order ^ d + order ^ d := by omega
            _ = (k + 1) * order ^ d := by ring
            _ ≤ o.length * order ^ d := Nat.mul_le_mul_right _ hko
        have hlt2 : ((ys.map (·.2.conn)).flatten).getD (k * order ^ d + flatIndex i (List.replicate d order)) 0 < ((ys.map (·.2.pts)).flatten).length := by
          have hmem' : ((ys.map (·.2.conn)).flatten).getD (k * order ^ d + flatIndex i (List.replicate d order)) 0 ∈ (ys.map (·.2.conn)).flatten := by
            rw [List.getD_eq_getElem?_getD, List.getElem?_eq_getElem hidx]
            exact List.getElem_mem hidx
          have := (seq_conn_perm _ _ ((seq_append ys zs 0).1 y2).1).mem_iff.1 hmem'
          rw [List.mem_range'_1] at this
          omega
        unfold vertex
        rw [hp, hcn, getD_append_left' _ _ _ _ hidx, getD_append_left' _ _ _ _ hlt2]
        exact this
      · exact absurd (status_unique hshape ht a2 hfs) (by simp)
    · have hkf : k - o.length < fl.length := by rw [List.length_append] at hk; omega
      rw [List.getElem_append_right (by omega)]
      have hlev : levelset = false := by
        cases hl : levelset with
        | true => rw [hl, if_pos rfl] at hfl; rw [hfl] at hkf; simp at hkf
        | false => rfl
      have hff : fl = full := by rw [hfl, hlev]; simp
      obtain ⟨a1, a2⟩ := hmem .full full f2 f3 fl[k - o.length] (by rw [← hff]; exact List.getElem_mem hkf)
      have hbox := z1.get (i := k - o.length) hkf (by omega)
      simp only [List.get_eq_getElem] at hbox
      have hvert : ∀ i ∈ indices (List.replicate d order), vertex d order m.points m.conn k i =
          List.zipWith (fun (iv : K × K) j => iv.1 + (iv.2 - iv.1) * pointIn01 cheb order j) zs[k - o.length].1 i := by
        intro i hi
        have := q2 (k - o.length) (by omega) i hi ((ys.map (·.2.pts)).flatten) rfl
        unfold vertex
        rw [← this, hp, hcn]
        have he : k * order ^ d + flatIndex i (List.replicate d order) = ((ys.map (·.2.conn)).flatten).length +
            ((k - o.length) * order ^ d + flatIndex i (List.replicate d order)) := by
          rw [← o1, ← Nat.add_assoc, ← Nat.add_mul, Nat.add_sub_of_le (by omega)]
        rw [he, getD_append_right']
      refine ⟨a1, Or.inr ⟨hlev, a2⟩, _, hbox, fun i hi => ?_, fun _ i hi => hvert i hi⟩
      obtain ⟨o', p1, p2, p3⟩ := seq_cells g d order ho fl zs _ z1 ((seq_append ys zs 0).1 y2).2
      have hdl : d = g.length := by rw [hd, hlev]; rfl
      rw [hvert i hi]
      obtain ⟨bx, b1, b2, b3⟩ := cellDomain_facts g hv fl[k - o.length] (hc _ a1)
      have hbx : bx = zs[k - o.length].1 := by
        have : g.cellDomain fl[k - o.length] = some zs[k - o.length].1 := hbox
        rw [b1] at this
        exact Option.some.inj this
      rw [hbx] at b2 b3
      have hfit := fullBlock_fits cheb d order zs[k - o.length].1 0 (by rw [hdl]; exact hg) ho hn (by rw [b2, hdl]) b3
      exact hfit.inBox _ (List.mem_map.2 ⟨i, hi, rfl⟩)
  · rw [List.count_append, hfl, hl]
    have : o.count c = 0 := List.count_eq_zero.2 fun h => by
      have := (hmem .cut cut c2 c3 c (o2 c h)).2
      exact absurd (status_unique hshape ht this hcs) (by simp)
    rw [this, Nat.zero_add]
    exact f2 c hcs

omit [IsStrictOrderedRing K] in
theorem createReparam_merge (cheb : Nat → Nat → K) (srt : (Nat → K) → List Nat → List Nat) (srtE : List (List Nat) → List (List Nat)) (tol : K)
    (g : Grid K) (t : Tree) (levelset : Bool) (cutCell : Mesh K → Box K → Option (Mesh K)) (cells : List Nat) (order : Nat) :
    createReparam cheb srt srtE tol g t levelset cutCell cells order true =
      (createReparam cheb srt srtE tol g t levelset cutCell cells order false).bind fun m => mergeCoincident srt srtE m tol := by
  unfold createReparam
  by_cases ho : 1 < order
  · rw [if_pos ho, if_pos ho]
    simp only [Option.bind_eq_bind, Option.bind_assoc, Option.bind_some, if_true, Bool.false_eq_true, if_false]
  · rw [if_neg ho, if_neg ho]; rfl

/-- **C58** (success): if the requested cells are in the grid and the routine for cut cells succeeds on the cut cells, the
reparameterization succeeds; it fails if a requested cell is outside of the grid, or for fewer than 2 points per direction. -/
theorem C58_success (cheb : Nat → Nat → K) (srt : (Nat → K) → List Nat → List Nat) (hsrt : IsSort srt) (srtE : List (List Nat) → List (List Nat))
    (hE : IsEdgeSort srtE) (tol : K) (htol : 0 ≤ tol)
    (g : Grid K) (hv : g.Valid) (hg : g.length = 2 ∨ g.length = 3) (t : Tree) (ht : Reachable g.numCellsDir t) (levelset mergePts : Bool)
    (cutCell : Mesh K → Box K → Option (Mesh K)) (cells : List Nat) (order : Nat) :
    ((∀ c ∈ cells, c < g.numCells) → 1 < order →
      (∀ i, i < order → 0 ≤ pointIn01 cheb order i ∧ pointIn01 cheb order i ≤ 1) →
      CutCellOk g (paramDim g levelset) g.length order cutCell →
      (∀ (m : Mesh K) (c : Nat) (box : Box K), Inv m → m.dim = paramDim g levelset → m.range = g.length → m.order = order →
          HasStatus g.numCellsDir t c .cut → g.cellDomain c = some box → ∃ m', cutCell m box = some m') →
      ∃ m, createReparam cheb srt srtE tol g t levelset cutCell cells order mergePts = some m) ∧
    ((∃ c ∈ cells, g.numCells ≤ c) ∨ order ≤ 1 → createReparam cheb srt srtE tol g t levelset cutCell cells order mergePts = none) := by
  have hne : g ≠ [] := by intro h; rw [h] at hg; simp at hg
  have hshape : GridShape g.numCellsDir := gridShape_of_valid hv hne
  have hsz : g.numCells = listProd g.numCellsDir := tsize_eq _
  have hperm : (sortIds cells).Perm cells := List.perm_insertionSort _ _
  constructor
  · intro hc ho hn hcut hsucc
    obtain ⟨cut, full, _, _, hb, hs⟩ := create_blocks cheb srt srtE tol g hv hg t ht levelset cutCell cells hc order ho hn hcut
    obtain ⟨m, hm⟩ := hs hsucc
    cases mergePts with
    | false => exact ⟨m, hm⟩
    | true =>
      obtain ⟨ys, zs, _, y2, y3, _⟩ := hb m hm
      have hd : 0 < paramDim g levelset := by unfold paramDim; split_ifs <;> omega
      have hd3 : paramDim g levelset ≤ 3 := by unfold paramDim; split_ifs <;> omega
      have hi : Inv m := by rw [y3]; exact inv_ofBlocks _ _ _ _ hd hd3 ho y2
      have hr : 0 < m.range := by rw [y3]; show 0 < g.length; omega
      obtain ⟨m', _, h1, _⟩ := mergeCoincident_facts srt srtE hsrt hE m hi hr tol htol
      exact ⟨m', by rw [createReparam_merge, hm]; exact h1⟩
  · rintro (⟨c, hc, hcn⟩ | ho)
    · unfold createReparam
      by_cases ho : 1 < order
      · have := (C10_target_queries _ hshape t ht .cut (sortIds cells)).2 ⟨c, hperm.mem_iff.2 hc, by rw [← hsz]; exact hcn⟩
        rw [if_pos ho]
        dsimp only
        rw [this]; rfl
      · rw [if_neg ho]
    · unfold createReparam
      rw [if_neg (by omega)]

/-- **C58** (merging of points): with merging, the cells are those of the mesh without merging, renumbered; no vertex moves by more than
(number of points - 1) tolerances in any coordinate; two vertices that agree up to the tolerance in all the coordinates become
the same point; every edge of the wirebasket is still there. -/
theorem C58_merged (cheb : Nat → Nat → K) (srt : (Nat → K) → List Nat → List Nat) (hsrt : IsSort srt) (srtE : List (List Nat) → List (List Nat))
    (hE : IsEdgeSort srtE) (tol : K) (htol : 0 ≤ tol)
    (g : Grid K) (hv : g.Valid) (hg : g.length = 2 ∨ g.length = 3) (t : Tree) (ht : Reachable g.numCellsDir t) (levelset : Bool)
    (cutCell : Mesh K → Box K → Option (Mesh K)) (cells : List Nat) (hc : ∀ c ∈ cells, c < g.numCells) (order : Nat) (ho : 1 < order)
    (hn : ∀ i, i < order → 0 ≤ pointIn01 cheb order i ∧ pointIn01 cheb order i ≤ 1)
    (hcut : CutCellOk g (paramDim g levelset) g.length order cutCell) (m' : Mesh K)
    (hm' : createReparam cheb srt srtE tol g t levelset cutCell cells order true = some m') :
    ∃ (m : Mesh K) (ren : Nat → Nat), createReparam cheb srt srtE tol g t levelset cutCell cells order false = some m ∧
      m'.dim = m.dim ∧ m'.range = m.range ∧ m'.order = m.order ∧ m'.points.Sublist m.points ∧ m'.conn = m.conn.map ren ∧
      (∀ i ∈ m'.conn, i < m'.points.length) ∧ (∀ i ∈ m'.wires, i < m'.points.length) ∧
      (∀ i < m.points.length, ∀ k < m.range, |(m.points.getD i []).getD k 0 - (m'.points.getD (ren i) []).getD k 0| ≤
        ((m.points.length - 1 : Nat) : K) * tol) ∧
      (∀ i < m.points.length, ∀ j < m.points.length, (∀ k < m.range, |(m.points.getD i []).getD k 0 - (m.points.getD j []).getD k 0| ≤ tol) →
        ren i = ren j) ∧
      ∀ f ∈ chunks m.order m.wires, f.map ren ∈ chunks m.order m'.wires ∨ (f.map ren).reverse ∈ chunks m.order m'.wires := by
  obtain ⟨cut, full, _, _, hb, _⟩ := create_blocks cheb srt srtE tol g hv hg t ht levelset cutCell cells hc order ho hn hcut
  rw [createReparam_merge] at hm'
  obtain ⟨m, hm, hmm⟩ := Option.bind_eq_some_iff.1 hm'
  obtain ⟨ys, zs, _, y2, y3, _⟩ := hb m hm
  have hd : 0 < paramDim g levelset := by unfold paramDim; split_ifs <;> omega
  have hd3 : paramDim g levelset ≤ 3 := by unfold paramDim; split_ifs <;> omega
  have hi : Inv m := by rw [y3]; exact inv_ofBlocks _ _ _ _ hd hd3 ho y2
  have hr : 0 < m.range := by rw [y3]; show 0 < g.length; omega
  have hlt : ∀ i ∈ m.conn, i < m.points.length := by
    intro i hic
    rw [y3] at hic ⊢
    have := (seq_conn_perm _ _ y2).mem_iff.1 hic
    rw [List.mem_range'_1] at this
    simpa [ofBlocks] using this
  obtain ⟨m'', ren, h1, h2, h3, h4, h5, h6, h7, h8, h9, h10⟩ := mergeCoincident_facts srt srtE hsrt hE m hi hr tol htol
  rw [h1] at hmm
  cases hmm
  have hinv' : (∀ i ∈ m'.conn, i < m'.points.length) ∧ (∀ i ∈ m'.wires, i < m'.points.length) := by
    by_cases hp2 : m.points.length < 2
    · have : m' = m := by unfold mergeCoincident at h1; rw [if_pos hp2] at h1; exact (Option.some.inj h1).symm
      rw [this]
      exact ⟨hlt, hi.wires⟩
    · obtain ⟨new, map, hu⟩ : ∃ new map, Points.makeUnique srt m.range m.points tol = (new, map) := ⟨_, _, rfl⟩
      obtain ⟨_, _, _, _, _, _, _, _, a7, a8⟩ := mergeCoincident_spec srt hsrt srtE hE m hi hr tol htol hp2 new map hu
      rw [a7] at h1
      have h1 := Option.some.inj h1
      rw [h1] at a8
      refine ⟨fun i hic => ?_, a8.wires⟩
      obtain ⟨_, _, u3, _⟩ := Points.C37_unique_points srt hsrt m.range hr m.points tol htol new map hu
      rw [← h1] at hic ⊢
      obtain ⟨j, hj, rfl⟩ := List.mem_map.1 hic
      exact u3 j (hlt j hj)
  refine ⟨m, ren, hm, h2, h3, h4, h5, h6, hinv'.1, hinv'.2, h7, fun i hi' j hj hij => ?_, h10⟩
  by_cases hp2 : 2 ≤ m.points.length
  · exact h8 i hi' j hj hij hp2
  · have : i = j := by omega
    rw [this]

/-- **C58** (order of the cells): the result does not depend on the order in which the cells are given. -/
theorem C58_order_independent (cheb : Nat → Nat → K) (srt : (Nat → K) → List Nat → List Nat) (srtE : List (List Nat) → List (List Nat))
    (tol : K) (g : Grid K) (t : Tree) (levelset mergePts : Bool) (cutCell : Mesh K → Box K → Option (Mesh K)) (cells cells' : List Nat)
    (h : cells.Perm cells') (order : Nat) :
    createReparam cheb srt srtE tol g t levelset cutCell cells order mergePts =
      createReparam cheb srt srtE tol g t levelset cutCell cells' order mergePts := by
  have : sortIds cells = sortIds cells' :=
    List.Perm.eq_of_pairwise (fun a b _ _ h1 h2 => Nat.le_antisymm h1 h2) (List.pairwise_insertionSort _ _) (List.pairwise_insertionSort _ _)
      ((List.perm_insertionSort _ _).trans (h.trans (List.perm_insertionSort _ _).symm))
  unfold createReparam
  rw [this]

/-- **C58** (whole grid): without a list of cells, every full cell of the grid gives exactly one cell of the mesh of a volume. -/
theorem C58_whole_grid (cheb : Nat → Nat → K) (srt : (Nat → K) → List Nat → List Nat) (srtE : List (List Nat) → List (List Nat)) (tol : K)
    (g : Grid K) (hv : g.Valid) (hg : g.length = 2 ∨ g.length = 3) (t : Tree) (ht : Reachable g.numCellsDir t)
    (cutCell : Mesh K → Box K → Option (Mesh K)) (order : Nat) (ho : 1 < order)
    (hn : ∀ i, i < order → 0 ≤ pointIn01 cheb order i ∧ pointIn01 cheb order i ≤ 1)
    (hcut : CutCellOk g g.length g.length order cutCell) (m : Mesh K)
    (hm : createReparamAll cheb srt srtE tol g t false cutCell order false = some m) :
    ∀ c, HasStatus g.numCellsDir t c .full → ∃ k, (∃ n, numCells m = some n ∧ k < n) ∧ ∃ box, g.cellDomain c = some box ∧
      ∀ i ∈ indices (List.replicate g.length order), vertex g.length order m.points m.conn k i =
        List.zipWith (fun (iv : K × K) j => iv.1 + (iv.2 - iv.1) * pointIn01 cheb order j) box i := by
  intro c hcs
  have hne : g ≠ [] := by intro h; rw [h] at hg; simp at hg
  have hshape : GridShape g.numCellsDir := gridShape_of_valid hv hne
  have hsz : g.numCells = listProd g.numCellsDir := tsize_eq _
  obtain ⟨q1, _, q3, _⟩ := C09_cells_by_status g.numCellsDir hshape t ht
  obtain ⟨ids, i1, _, i3, _⟩ := q1 .full
  have hcl : c < g.numCells := by rw [hsz]; exact q3 .full ids c i1 ((i3 c).2 hcs)
  obtain ⟨d1, _, _, _, _, origins, o1, o2, o3⟩ := C58_cells cheb srt srtE tol g hv hg t ht false cutCell (List.range g.numCells)
    (fun c hc => List.mem_range.1 hc) order ho hn hcut m hm
  have hcnt := o3 rfl c hcs
  have h1 : (List.range g.numCells).count c = 1 := List.count_eq_one_of_mem List.nodup_range (List.mem_range.2 hcl)
  have hmem : c ∈ origins := List.count_pos_iff.1 (by rw [hcnt, h1]; omega)
  obtain ⟨k, hk, rfl⟩ := List.getElem_of_mem hmem
  obtain ⟨_, _, box, b1, _, b3⟩ := o2 k hk
  have hdim : m.dim = g.length := d1
  rw [hdim] at b3
  exact ⟨k, ⟨_, o1, hk⟩, box, b1, b3 hcs⟩

/-- The routine `reparam_Bezier` for cut cells, as `create_reparameterization` uses it: `bzr box` is the Bezier function rescaled to the
box of the cell, `outer box` its normal. impl_reparam.cpp:81-85, impl_reparam_bezier.cpp:799-805. -/
def bezierCutCell (cheb : Nat → Nat → K) (norm : List K → K) (E : Reparam.Env K) (phis : List (Reparam.BezierPoly K) → List (Reparam.PolySet K))
    (outer : Box K → List K → List K) (wtol : K) (bzr : Box K → Reparam.BezierPoly K) (m : Mesh K) (box : Box K) : Option (Mesh K) :=
  Reparam.reparameterize cheb norm E phis (outer box) wtol m [bzr box] box

/-- **C58** (Bezier domains): the routine for Bezier functions is an admissible routine for cut cells, so that the theorems above apply
to Bezier domains; Algoim is the parameter `E`, `phis`. -/
theorem C58_bezier (cheb : Nat → Nat → K) (norm : List K → K) (E : Reparam.Env K) (phis : List (Reparam.BezierPoly K) → List (Reparam.PolySet K))
    (outer : Box K → List K → List K) (wtol : K) (bzr : Box K → Reparam.BezierPoly K) (g : Grid K) (hv : g.Valid)
    (hg : g.length = 2 ∨ g.length = 3) (order : Nat) (ho : 1 < order) (hE : Reparam.EnvOk E) (hEo : E.order = order)
    (hn : ∀ i, i < order → 0 ≤ pointIn01 cheb order i ∧ pointIn01 cheb order i ≤ 1)
    (hel : ∀ box, Reparam.ElimOk g.length (phis (Reparam.keptPolys [bzr box]))) :
    CutCellOk g (paramDim g E.S) g.length order (bezierCutCell cheb norm E phis outer wtol bzr) := by
  intro m m' c box hi h1 h2 h3 hb hm
  have hbf : box.length = g.length ∧ ∀ iv ∈ box, iv.1 ≤ iv.2 := by
    have hcl : c < g.numCells := by
      by_contra h
      unfold Grid.cellDomain at hb
      have hn' : ¬ (unflat c g.numCellsDir).isSome := fun hs => h (((C01_domain _).2 c).1 hs)
      rw [Option.not_isSome_iff_eq_none.1 hn'] at hb
      simp at hb
    obtain ⟨b, b1, b2, b3⟩ := cellDomain_facts g hv c hcl
    rw [hb] at b1
    cases b1
    exact ⟨b2, b3⟩
  have hset : Reparam.Setup cheb E (phis (Reparam.keptPolys [bzr box])) m := by
    refine ⟨hE, by rw [hEo, h3], by rw [h3]; exact ho, hi.dim, hi.dim3, ?_, hi.whole, by rw [h3]; exact hn, by rw [h2]; exact hel box⟩
    rw [h1, h2]
    unfold paramDim
    split_ifs <;> omega
  obtain ⟨P, C, W, p1, p2, p3, p4, p5⟩ := Reparam.C53_reparam_appends cheb norm E phis (outer box) wtol m [bzr box] box hset
    (by rw [hbf.1, h2]) hbf.2 m' hm
  rw [h1, h2, h3] at p1 p2
  rw [h3] at p5
  refine ⟨P, C, W, p1, by rw [p2, Nat.mul_mod_left], p3, fun p hp => ?_, p5⟩
  refine (p4 p hp).imp fun iv x h => ?_
  rw [sub_zero, add_zero]; exact h

/-- A grid of 2 x 1 cells, with cell 0 cut and cell 1 full. -/
example : ∃ t, (root [2, 1]).run [.branch [], .setStatus [false] .cut, .setStatus [true] .full] = some t ∧
    (createReparam (fun _ _ => 0) (fun _ l => l) (fun l => l) (0 : ℚ) [[0, 1, 2], [0, 1]] t false
      (fun m box => addFullCell (fun _ _ => 0) m (box.map fun iv => (iv.1, (iv.1 + iv.2) / 2)) true) [1, 0] 2 false).map
        (fun m => (m.points, m.conn, m.wires.length)) =
    some ([[0, 0], [1/2, 0], [0, 1/2], [1/2, 1/2], [1, 0], [2, 0], [1, 1], [2, 1]], [0, 1, 2, 3, 4, 5, 6, 7], 16) :=
  ⟨_, rfl, by decide +kernel⟩

/-- The hypothesis about the routine for cut cells is met, for example, by the routine that fills the whole cell. -/
example (cheb : Nat → Nat → K) (g : Grid K) (hv : g.Valid) (hg : g.length = 2 ∨ g.length = 3) (order : Nat) (ho : 1 < order)
    (hn : ∀ i, i < order → 0 ≤ pointIn01 cheb order i ∧ pointIn01 cheb order i ≤ 1) :
    CutCellOk g g.length g.length order (fun m box => addFullCell cheb m box true) := by
  intro m m' c box hi h1 h2 h3 hb hm
  have hbf : box.length = g.length ∧ ∀ iv ∈ box, iv.1 ≤ iv.2 := by
    have hcl : c < g.numCells := by
      by_contra h
      unfold Grid.cellDomain at hb
      have hn' : ¬ (unflat c g.numCellsDir).isSome := fun hs => h (((C01_domain _).2 c).1 hs)
      rw [Option.not_isSome_iff_eq_none.1 hn'] at hb
      simp at hb
    obtain ⟨b, b1, b2, b3⟩ := cellDomain_facts g hv c hcl
    rw [hb] at b1
    cases b1
    exact ⟨b2, b3⟩
  have hm : addFullCell cheb m box true = some m' := hm
  rw [addFullCell_block cheb m box (by rw [h1]; exact hg) (by rw [h3]; exact ho) hi.whole] at hm
  have hf := fullBlock_fits cheb m.dim m.order box m.points.length (by rw [h1]; exact hg) (by rw [h3]; exact ho) (by rw [h3]; exact hn)
    (by rw [hbf.1, h1]) hbf.2
  obtain ⟨b, hbk⟩ : ∃ b, b = fullBlock cheb m.dim m.order box m.points.length := ⟨_, rfl⟩
  rw [← hbk] at hm hf
  refine ⟨b.pts, b.conn, b.edges, (Option.some.inj hm).symm.trans ?_, ?_, hf.perm, hf.inBox, ?_⟩
  · unfold addBlock; rw [h1, h2, h3]
  · have := hf.whole; rw [h1, h3] at this; exact this
  · have := hf.edges; rw [h3] at this; exact this

end Qugar.Mesh
