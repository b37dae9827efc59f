import Verif.Lemmas.Domain
import Mathlib.Tactic.NormNum
/-
Property theorems C12, C13, C16, C17: construction and queries of implicit unfitted domains.
-/
namespace Qugar
open Spec Tree
variable {K : Type} [Field K] [LinearOrder K]

/-- Reading a concrete successful run off a Boolean computation. -/
theorem exists_ok_of {ε α : Type} (p : α → Prop) [DecidablePred p] {x : Except ε α}
    (h : (match x with | .ok d => decide (p d) | .error _ => false) = true) : ∃ d, x = .ok d ∧ p d := by
  cases x with
  | error e => simp at h
  | ok d => exact ⟨d, rfl, by simpa using h⟩

/-- Summary of a successful construction. -/
theorem build_summary (debug : Bool) (o : Oracles K) (g : Grid K) (targets : Option (List Nat)) (hv : g.Valid)
    (hne : g ≠ []) (hd : debug = false ∨ targets = none) :
    ∃ d, build debug o g targets = .ok d ∧ d.n = g.numCellsDir ∧ Reachable g.numCellsDir d.tree ∧
      (d.facets.map (·.1)).Nodup ∧
      (∀ c, c < listProd g.numCellsDir →
        (HasStatus g.numCellsDir d.tree c .unknown ∧ FacetRecord d c = none ∧ ¬ IsTarget targets c) ∨
        (HasStatus g.numCellsDir d.tree c (verdict o g g.numCells (Range.ofUpper g.numCellsDir) c).1 ∧
          (verdict o g g.numCells (Range.ofUpper g.numCellsDir) c).1 ≠ .unknown ∧
          FacetRecord d c = (verdict o g g.numCells (Range.ofUpper g.numCellsDir) c).2)) ∧
      (∀ c, listProd g.numCellsDir ≤ c → FacetRecord d c = none) ∧
      initFullUnf g.numCellsDir d.tree d.facets = some d.fullUnf := by
  have hn := gridShape_of_valid hv hne
  have hN : g.numCells = listProd g.numCellsDir := tsize_eq _
  obtain ⟨t, fm, he, ⟨ops, hops⟩, h1, h2, h3⟩ := decompose_ok debug o g targets hd g.numCells
    (Range.ofUpper g.numCellsDir) [] (InBounds.root hn.2) (by rw [root_size hn, hN])
  have hr : Reachable g.numCellsDir t := ⟨ops, hops⟩
  obtain ⟨cuts, hcuts, _⟩ := (C09_cells_by_status _ hn t hr).1 .cut
  obtain ⟨l, hl⟩ : ∃ l, initFullUnf g.numCellsDir t fm = some l := by
    unfold initFullUnf
    split
    · exact ⟨_, rfl⟩
    · rw [hcuts]; exact ⟨_, rfl⟩
  refine ⟨⟨g.numCellsDir, t, fm, l⟩, ?_, rfl, hr, h3 (by simp), ?_, ?_, hl⟩
  · have he' : decompose debug o g targets g.numCells (root g.numCellsDir) [] = .ok (t, fm) := he
    rw [build, he']
    simp only [Except.bind, hl, orFail]
    rfl
  · intro c hc
    rcases h1 c (cellIn_root.2 hc) with ⟨q1, q2, q3⟩ | ⟨q1, q2, q3⟩
    · exact Or.inl ⟨q1, q2, q3⟩
    · exact Or.inr ⟨q1, q2, q3 rfl⟩
  · intro c hc
    exact h2 c (fun h => by have := cellIn_lt h; omega)

/-- **C12**. For every grid, every function `phi` and every sound sign oracle, building the unfitted domain without
target cells succeeds, and every cell `c` of the grid is classified, in one of three ways: as empty and then `phi` is
positive on the whole closed cell; as full and then `phi` is negative on the whole closed cell; or by the per-cell
classifier (only when the sign of the function on the slightly enlarged cell is undetermined), in which case the
status and the facet record are those that the classifier's answer prescribes. -/
theorem C12_decomposition_sound [IsStrictOrderedRing K] (debug : Bool) (o : Oracles K) (g : Grid K) (hv : g.Valid)
    (hne : g ≠ []) (hm : 0 ≤ o.margin) (phi : List K → K) (hs : SoundSign phi o.sign) :
    ∃ d, build debug o g none = .ok d ∧ Reachable g.numCellsDir d.tree ∧
      ∀ c, c < listProd g.numCellsDir → ∃ b, g.cellDomain c = some b ∧
        ¬ HasStatus g.numCellsDir d.tree c .unknown ∧
        ((HasStatus g.numCellsDir d.tree c .empty ∧ FacetRecord d c = none ∧ ∀ x, InClosedBox 0 b x → 0 < phi x) ∨
         (HasStatus g.numCellsDir d.tree c .full ∧ FacetRecord d c = none ∧ ∀ x, InClosedBox 0 b x → phi x < 0) ∨
         (o.sign (b.extendDelta o.margin) = .undetermined ∧
          HasStatus g.numCellsDir d.tree c (classifierVerdict o (g.length * 2) b).1 ∧
          FacetRecord d c = (classifierVerdict o (g.length * 2) b).2)) := by
  obtain ⟨d, h1, _, h3, _, h5, _, _⟩ := build_summary debug o g none hv hne (Or.inr rfl)
  have hn := gridShape_of_valid hv hne
  have hN : g.numCells = listProd g.numCellsDir := tsize_eq _
  refine ⟨d, h1, h3, fun c hc => ?_⟩
  obtain ⟨b, hb, hcase⟩ := verdict_spec o g hv hm g.numCells (Range.ofUpper g.numCellsDir) (InBounds.root hn.2)
    (by rw [root_size hn, hN]) c (cellIn_root.2 hc)
  refine ⟨b, hb, ?_⟩
  rcases h5 c hc with ⟨_, _, q3⟩ | ⟨q1, q2, q3⟩
  · exact absurd trivial q3
  · obtain ⟨hw, _⟩ := WF.of_reachable hn.2 h3
    refine ⟨fun h => q2 (hw.hasStatus_unique q1 h), ?_⟩
    rcases hcase with ⟨e, B, hB, hin⟩ | ⟨e, B, hB, hin⟩ | ⟨e, hund⟩
    · rw [e] at q1 q3
      exact Or.inl ⟨q1, q3, fun x hx => (hs B).2 hB x (hin x hx)⟩
    · rw [e] at q1 q3
      exact Or.inr (Or.inl ⟨q1, q3, fun x hx => (hs B).1 hB x (hin x hx)⟩)
    · rw [e] at q1 q3
      exact Or.inr (Or.inr ⟨hund, q1, q3⟩)

/-- **C12** (consequence). A cell on which `phi` takes a value `≤ 0` and a value `≥ 0` is always handed to the per-cell
classifier. -/
theorem C12_mixed_sign_cells_are_classified [IsStrictOrderedRing K] (debug : Bool) (o : Oracles K) (g : Grid K)
    (hv : g.Valid) (hne : g ≠ []) (hm : 0 ≤ o.margin) (phi : List K → K) (hs : SoundSign phi o.sign) (c : Nat)
    (hc : c < listProd g.numCellsDir) (b : Box K) (hb : g.cellDomain c = some b) (x y : List K)
    (hx : InClosedBox 0 b x) (hy : InClosedBox 0 b y) (hphi : phi x ≤ 0 ∧ 0 ≤ phi y) :
    ∃ d, build debug o g none = .ok d ∧
      HasStatus g.numCellsDir d.tree c (classifierVerdict o (g.length * 2) b).1 ∧
      FacetRecord d c = (classifierVerdict o (g.length * 2) b).2 := by
  obtain ⟨d, h1, _, h⟩ := C12_decomposition_sound debug o g hv hne hm phi hs
  obtain ⟨b', hb', _, hcase⟩ := h c hc
  rw [hb] at hb'; cases hb'
  refine ⟨d, h1, ?_⟩
  rcases hcase with ⟨_, _, h⟩ | ⟨_, _, h⟩ | ⟨_, h⟩
  · exact absurd (h x hx) (not_lt.2 hphi.1)
  · exact absurd (h y hy) (not_lt.2 hphi.2)
  · exact h

/-- A sound oracle that determines signs: `phi x = x₀ - 1` on `[0,4]`, four cells. -/
def exampleOracles : Oracles ℚ where
  sign := fun b => match b with
    | iv :: _ => if iv.2 < 1 then .negative else if 1 < iv.1 then .positive else .undetermined
    | [] => .undetermined
  cell := fun _ => .cut
  facet := fun _ _ _ => .cut
  margin := 1 / 1000

example : SoundSign (fun x : List ℚ => x.headD 1 - 1) exampleOracles.sign := by
  intro b
  constructor
  · intro h x hx
    cases hx with
    | nil => simp [exampleOracles] at h
    | @cons iv y _ _ hxy _ =>
      simp only [exampleOracles] at h
      split at h
      · simp only [List.headD_cons]; linarith [hxy.2]
      · split at h <;> simp at h
  · intro h x hx
    cases hx with
    | nil => simp [exampleOracles] at h
    | @cons iv y _ _ hxy _ =>
      simp only [exampleOracles] at h
      split at h
      · simp at h
      · split at h
        · simp only [List.headD_cons]; linarith [hxy.1]
        · simp at h

/-- The build of the example: cell 0 and cell 1 touch the zero and are classified, cells 2 and 3 are empty. -/
example : ∃ d, build true exampleOracles [[0, 1, 2, 3, 4]] none = .ok d ∧
    d.tree.getCellIds [4] .cut = some [0, 1] ∧ d.tree.getCellIds [4] .empty = some [2, 3] :=
  exists_ok_of (fun d : Dom => d.tree.getCellIds [4] .cut = some [0, 1] ∧ d.tree.getCellIds [4] .empty = some [2, 3])
    (by decide +kernel)

/-- **C13** (partial: only with assertions compiled out). A release build with target cells succeeds; every target
cell is classified, and every cell that is classified has the same status and the same facet record as in the build
without targets. The full statement also demands this of builds with assertions enabled; there it fails, see
`C13_debug_build_aborts`. -/
theorem C13_target_build_partial (o : Oracles K) (g : Grid K) (hv : g.Valid) (hne : g ≠ []) (targets : List Nat) :
    ∃ d d', build false o g none = .ok d ∧ build false o g (some targets) = .ok d' ∧
      Reachable g.numCellsDir d'.tree ∧
      (∀ c ∈ targets, c < listProd g.numCellsDir → ¬ HasStatus g.numCellsDir d'.tree c .unknown) ∧
      (∀ c s, s ≠ .unknown → HasStatus g.numCellsDir d'.tree c s →
        HasStatus g.numCellsDir d.tree c s ∧ FacetRecord d' c = FacetRecord d c) := by
  obtain ⟨d, h1, _, h3, _, h5, _, _⟩ := build_summary false o g none hv hne (Or.inr rfl)
  obtain ⟨d', k1, _, k3, _, k5, _, _⟩ := build_summary false o g (some targets) hv hne (Or.inl rfl)
  have hn := gridShape_of_valid hv hne
  obtain ⟨hw, _⟩ := WF.of_reachable hn.2 h3
  obtain ⟨kw, _⟩ := WF.of_reachable hn.2 k3
  refine ⟨d, d', h1, k1, k3, ?_, ?_⟩
  · intro c hc hlt hu
    rcases k5 c hlt with ⟨_, _, q⟩ | ⟨q1, q2, _⟩
    · exact q hc
    · exact q2 (kw.hasStatus_unique q1 hu)
  · intro c s hs hst
    have hlt := cellIn_lt hst.choose_spec.2
    rcases k5 c hlt with ⟨q, _, _⟩ | ⟨q1, q2, q3⟩
    · exact absurd (kw.hasStatus_unique hst q) hs
    · have := kw.hasStatus_unique hst q1
      subst this
      rcases h5 c hlt with ⟨_, _, p⟩ | ⟨p1, p2, p3⟩
      · exact absurd trivial p
      · exact ⟨p1, by rw [q3, p3]⟩

example : ∃ d, build false exampleOracles [[0, 1, 2, 3, 4]] (some [3]) = .ok d ∧
    d.tree.getCellIds [4] .empty = some [2, 3] ∧ d.tree.getCellIds [4] .unknown = some [0, 1] :=
  exists_ok_of (fun d : Dom => d.tree.getCellIds [4] .empty = some [2, 3] ∧ d.tree.getCellIds [4] .unknown = some [0, 1])
    (by decide +kernel)

theorem decompose_debug_fails (o : Oracles K) (g : Grid K) (targets : List Nat) (fuel : Nat) (r : Range)
    (fm : FMap) (h : InBounds g.numCellsDir r) (c : Nat) (hc : CellIn g.numCellsDir r c)
    (ht : c ∈ targets) (t' : Tree) (fm' : FMap)
    (hok : decompose true o g (some targets) fuel (leaf r .unknown) fm = .ok (t', fm')) :
    ∃ b, g.cellDomain c = some b ∧ o.sign (b.extendDelta o.margin) = .undetermined := by
  induction fuel generalizing r fm t' fm' with
  | zero => simp [decompose] at hok
  | succ fuel ih =>
    have hi : intersects g.numCellsDir r (some targets) = true := by
      simp only [intersects, List.any_eq_true]
      exact ⟨c, ht, (mem_iff_cellIn h c).2 hc⟩
    unfold decompose at hok
    dsimp +instances only [range] at hok
    rw [if_pos hi] at hok
    cases hsg : o.sign ((g.subDomain r.lo r.up).extendDelta o.margin) with
    | negative => simp [hsg, insertCells, Except.map] at hok
    | positive => simp [hsg, insertCells, Except.map] at hok
    | undetermined =>
      by_cases hs : r.size = 1
      · exact ⟨_, subDomain_single h hs hc, hsg⟩
      · have hu : Grid.isUniqueCell r = false := by simp [Grid.isUniqueCell, hs]
        have hpos := h.size_pos
        obtain ⟨a, b, hab, ha, hb, hsz, hun, hdis⟩ := h.split (by omega)
        have hbr : branch (leaf r .unknown) = some (node r .unknown (leaf a .unknown) (leaf b .unknown)) := by
          simp [branch, hu, hab]
        simp only [hsg, hu, hbr] at hok
        cases hA : decompose true o g (some targets) fuel (leaf a .unknown) fm with
        | error e => simp [hA, Except.bind] at hok
        | ok x =>
          obtain ⟨ta, fa⟩ := x
          cases hB : decompose true o g (some targets) fuel (leaf b .unknown) fa with
          | error e => simp [hA, hB, Except.bind, Except.map] at hok
          | ok y =>
            obtain ⟨tb, fb⟩ := y
            rcases (hun c).1 hc with hca | hcb
            · exact ih a fm ha hca ta fa hA
            · exact ih b fa hb hcb tb fb hB

/-- **C13** (negation). With assertions enabled, building with target cells aborts as soon as some target cell has a
determined sign: `insert_cells` asserts that no target cells are given (impl_unfitted_domain.cpp:129). -/
theorem C13_debug_build_aborts (o : Oracles K) (g : Grid K) (hv : g.Valid) (hne : g ≠ []) (targets : List Nat)
    (c : Nat) (hc : c ∈ targets) (hlt : c < listProd g.numCellsDir) (b : Box K) (hb : g.cellDomain c = some b)
    (hsg : o.sign (b.extendDelta o.margin) ≠ .undetermined) :
    ∃ e, build true o g (some targets) = .error e := by
  have hn := gridShape_of_valid hv hne
  unfold build
  cases h : decompose true o g (some targets) g.numCells (root g.numCellsDir) [] with
  | error e => exact ⟨e, rfl⟩
  | ok x =>
    exfalso
    obtain ⟨b', hb', h'⟩ := decompose_debug_fails o g targets g.numCells _ [] (InBounds.root hn.2) c
      (cellIn_root.2 hlt) hc x.1 x.2 h
    rw [hb] at hb'; cases hb'
    exact hsg h'

example : (match build true exampleOracles [[0, 1, 2, 3, 4]] (some [3]) with
    | .error e => decide (e = .assertion) | .ok _ => false) = true := by decide +kernel

/-! ### queries -/

/-- What the queries rely on: facts established by every construction. -/
structure DomFacts (d : Dom) : Prop where
  shape : GridShape d.n
  reach : Reachable d.n d.tree
  keys : (d.facets.map (·.1)).Nodup
  lens : ∀ c v, FacetRecord d c = some v → v.length = d.n.length * 2
  status : ∀ c v, FacetRecord d c = some v → HasStatus d.n d.tree c .full ∨ HasStatus d.n d.tree c .cut
  cuts : ∀ c, HasStatus d.n d.tree c .cut → ∃ v, FacetRecord d c = some v

theorem classifierVerdict_record (o : Oracles K) (nf : Nat) (b : Box K) (v : List FStatus)
    (h : (classifierVerdict o nf b).2 = some v) :
    v.length = nf ∧ ((classifierVerdict o nf b).1 = .full ∨ (classifierVerdict o nf b).1 = .cut) := by
  unfold classifierVerdict at h ⊢
  cases hc : o.cell b <;> simp only [hc] at h ⊢
  · simp only [Option.some.injEq] at h
    subst h; simp
  · simp at h
  · simp at h
  · split at h
    · simp at h
    · rename_i hn
      simp only [Option.some.injEq] at h
      subst h
      rw [if_neg hn]
      simp

theorem verdict_record (o : Oracles K) (g : Grid K) (fuel : Nat) (r : Range) (c : Nat) :
    (∀ v, (verdict o g fuel r c).2 = some v → v.length = g.length * 2 ∧
      ((verdict o g fuel r c).1 = .full ∨ (verdict o g fuel r c).1 = .cut)) ∧
    ((verdict o g fuel r c).1 = .cut → ∃ v, (verdict o g fuel r c).2 = some v) := by
  induction fuel generalizing r with
  | zero => simp [verdict]
  | succ fuel ih =>
    simp only [verdict]
    cases o.sign ((g.subDomain r.lo r.up).extendDelta o.margin) with
    | positive => simp
    | negative => simp
    | undetermined =>
      simp only
      split
      · refine ⟨fun v hv => classifierVerdict_record _ _ _ v hv, ?_⟩
        unfold classifierVerdict
        cases hc : o.cell (g.subDomain r.lo r.up) <;> simp
        split <;> simp
      · cases r.split with
        | none => simp
        | some x =>
          obtain ⟨a, b⟩ := x
          simp only
          split
          · exact ih a
          · exact ih b

theorem build_facts (debug : Bool) (o : Oracles K) (g : Grid K) (targets : Option (List Nat)) (hv : g.Valid)
    (hne : g ≠ []) (hd : debug = false ∨ targets = none) :
    ∃ d, build debug o g targets = .ok d ∧ DomFacts d ∧ initFullUnf d.n d.tree d.facets = some d.fullUnf := by
  obtain ⟨d, h1, h2, h3, h4, h5, h6, h7⟩ := build_summary debug o g targets hv hne hd
  have hn := gridShape_of_valid hv hne
  obtain ⟨hw, _⟩ := WF.of_reachable hn.2 h3
  refine ⟨d, h1, ⟨by rw [h2]; exact hn, by rw [h2]; exact h3, h4, ?_, ?_, ?_⟩, by rw [h2]; exact h7⟩
  · intro c v hr
    by_cases hc : c < listProd g.numCellsDir
    · rcases h5 c hc with ⟨_, q, _⟩ | ⟨_, _, q⟩
      · rw [q] at hr; simp at hr
      · rw [q] at hr
        rw [((verdict_record o g _ _ c).1 v hr).1, h2]; simp [Grid.numCellsDir]
    · rw [h6 c (by omega)] at hr; simp at hr
  · intro c v hr
    rw [h2]
    by_cases hc : c < listProd g.numCellsDir
    · rcases h5 c hc with ⟨_, q, _⟩ | ⟨q1, _, q⟩
      · rw [q] at hr; simp at hr
      · rw [q] at hr
        rcases ((verdict_record o g _ _ c).1 v hr).2 with e | e <;> rw [e] at q1
        · exact Or.inl q1
        · exact Or.inr q1
    · rw [h6 c (by omega)] at hr; simp at hr
  · intro c hc
    rw [h2] at hc
    have hlt := cellIn_lt hc.choose_spec.2
    rcases h5 c hlt with ⟨q, _, _⟩ | ⟨q1, _, q⟩
    · exact absurd (hw.hasStatus_unique q hc) (by simp)
    · have e := hw.hasStatus_unique q1 hc
      obtain ⟨v, hv⟩ := (verdict_record o g _ _ c).2 e
      exact ⟨v, by rw [q, hv]⟩

theorem DomFacts.perm {d d' : Dom} (h : DomFacts d) (hp : SameUpToOrder d d') :
    DomFacts d' ∧ ∀ c, FacetRecord d' c = FacetRecord d c := by
  obtain ⟨h1, h2, h3, h4⟩ := hp
  have hk' : (d'.facets.map (·.1)).Nodup := (h4.map _).nodup_iff.1 h.keys
  have hrec : ∀ c, FacetRecord d' c = FacetRecord d c := by
    intro c
    apply Option.ext
    intro v
    unfold FacetRecord
    rw [lookup_some_iff _ hk', lookup_some_iff _ h.keys, h4.mem_iff]
  refine ⟨⟨by rw [← h1]; exact h.shape, by rw [← h1, ← h2]; exact h.reach, hk', ?_, ?_, ?_⟩, hrec⟩
  · intro c v hc; rw [← h1]; rw [hrec] at hc; exact h.lens c v hc
  · intro c v hc; rw [← h1, ← h2]; rw [hrec] at hc; exact h.status c v hc
  · intro c hc; rw [← h1, ← h2] at hc; rw [hrec]; exact h.cuts c hc

/-- **C17**. In every constructed domain: the list of full cells with unfitted boundary is strictly increasing and
contains exactly the cells with a facet record that are not cut, equivalently the full cells with a facet record; the
per-cell predicates agree with it; a cell is cut iff the predicate says so; and the number of records is never smaller
than the number of cut cells (the unsigned subtraction in the code does not wrap). -/
theorem C17_full_cells_with_unfitted_boundary (debug : Bool) (o : Oracles K) (g : Grid K)
    (targets : Option (List Nat)) (hv : g.Valid) (hne : g ≠ []) (hd : debug = false ∨ targets = none) :
    ∃ d, build debug o g targets = .ok d ∧ d.fullUnf.Pairwise (· < ·) ∧
      (∀ c, c ∈ d.fullUnf ↔ (∃ v, FacetRecord d c = some v) ∧ ¬ HasStatus d.n d.tree c .cut) ∧
      (∀ c, c ∈ d.fullUnf ↔ (∃ v, FacetRecord d c = some v) ∧ HasStatus d.n d.tree c .full) ∧
      (∀ c, d.isFullUnfCell c = true ↔ c ∈ d.fullUnf) ∧
      (∀ c, d.isCutCell c = some true ↔ HasStatus d.n d.tree c .cut) ∧
      (∀ c, c < listProd d.n → (d.isCellWithUnf c = some true ↔ ∃ v, FacetRecord d c = some v)) ∧
      d.tree.getNumCells .cut ≤ d.facets.length := by
  obtain ⟨d, h1, hF, hI⟩ := build_facts debug o g targets hv hne hd
  obtain ⟨hw, hroot⟩ := WF.of_reachable hF.shape.2 hF.reach
  obtain ⟨cuts, hcuts, hcs, hcm, _, hcn, _⟩ := (C09_cells_by_status _ hF.shape d.tree hF.reach).1 .cut
  have hkeys : ∀ c, c ∈ d.facets.map (·.1) ↔ ∃ v, FacetRecord d c = some v := by
    intro c
    rw [← Option.isSome_iff_exists, ← not_iff_not, ← lookup_none_iff, Bool.not_eq_true, Option.isSome_eq_false_iff,
      Option.isNone_iff_eq_none]
    rfl
  have hsub : ∀ c ∈ cuts, c ∈ d.facets.map (·.1) := fun c hc => (hkeys c).2 (hF.cuts c ((hcm c).1 hc))
  have hcnd : cuts.Nodup := hcs.imp (fun h => ne_of_lt h)
  have hle : cuts.length ≤ d.facets.length := by
    have := (List.subperm_of_subset hcnd hsub).length_le
    simpa using this
  -- the list
  have hlist : d.fullUnf.Pairwise (· < ·) ∧
      ∀ c, c ∈ d.fullUnf ↔ (∃ v, FacetRecord d c = some v) ∧ ¬ HasStatus d.n d.tree c .cut := by
    unfold initFullUnf at hI
    split at hI
    · rename_i hz
      rw [hcn] at hz
      simp only [Option.some.injEq] at hI
      rw [← hI]
      refine ⟨List.Pairwise.nil, fun c => ?_⟩
      simp only [List.not_mem_nil, false_iff, not_and, not_not]
      intro hr
      have hp : cuts.Perm (d.facets.map (·.1)) :=
        (List.subperm_of_subset hcnd hsub).perm_of_length_le (by simp; omega)
      exact (hcm c).1 (hp.mem_iff.2 ((hkeys c).2 hr))
    · rw [hcuts] at hI
      simp only [Option.map_some, Option.some.injEq] at hI
      rw [← hI]
      obtain ⟨s1, s2⟩ := sortIds_spec ((d.facets.map (·.1)).filter fun c => !binarySearch cuts c)
      refine ⟨?_, fun c => ?_⟩
      · have hnd := s1.nodup_iff.2 (hF.keys.filter _)
        exact (s2.and hnd).imp (fun ⟨a, b⟩ => lt_of_le_of_ne a b)
      · rw [s1.mem_iff, List.mem_filter, hkeys, ← hcm, ← binarySearch_iff (hcs.imp fun h => le_of_lt h)]
        simp
  have hcut : ∀ c, d.isCutCell c = some true ↔ HasStatus d.n d.tree c .cut := by
    intro c
    rw [← hw.isCell_iff]
    unfold Dom.isCutCell FMap.contains FMap.find?
    split
    · exact Iff.rfl
    · rename_i hno
      constructor
      · intro h; simp at h
      · intro h
        obtain ⟨v, hv⟩ := hF.cuts c ((hw.isCell_iff c .cut).1 h)
        exfalso; apply hno
        unfold FacetRecord at hv
        rw [hv]; rfl
  have hfull : ∀ c, c ∈ d.fullUnf ↔ (∃ v, FacetRecord d c = some v) ∧ HasStatus d.n d.tree c .full := by
    intro c
    rw [hlist.2]
    constructor
    · rintro ⟨⟨v, hv⟩, hn⟩
      refine ⟨⟨v, hv⟩, ?_⟩
      rcases hF.status c v hv with h | h
      · exact h
      · exact absurd h hn
    · rintro ⟨hv, hf⟩
      exact ⟨hv, fun hc => absurd (hw.hasStatus_unique hf hc) (by simp)⟩
  have hunf : ∀ c, d.isFullUnfCell c = true ↔ c ∈ d.fullUnf := by
    intro c
    unfold Dom.isFullUnfCell
    rw [Bool.and_eq_true, binarySearch_iff (hlist.1.imp fun h => le_of_lt h)]
    constructor
    · exact fun h => h.2
    · intro h
      refine ⟨?_, h⟩
      obtain ⟨v, hv⟩ := ((hlist.2 c).1 h).1
      unfold FacetRecord at hv
      simp [FMap.contains, FMap.find?, hv]
  refine ⟨d, h1, hlist.1, hlist.2, hfull, hunf, hcut, ?_, by rw [hcn]; exact hle⟩
  intro c hc
  have hin : CellIn d.n d.tree.range c := by rw [hroot]; exact cellIn_root.2 hc
  unfold Dom.isCellWithUnf
  by_cases hcc : HasStatus d.n d.tree c .cut
  · rw [(hcut c).2 hcc]
    simp only [Option.map_some, Bool.true_or, true_iff]
    exact hF.cuts c hcc
  · have hfalse : d.isCutCell c = some false := by
      unfold Dom.isCutCell
      split
      · exact hw.isCell_false hin _ hcc
      · rfl
    rw [hfalse]
    simp only [Option.map_some, Bool.false_or, Option.some.injEq]
    rw [hunf, hlist.2]
    exact ⟨fun h => h.1, fun h => ⟨h, hcc⟩⟩

theorem facetQuery_iff {d : Dom} (hF : DomFacts d) (p : FStatus → Bool) (other : Option Bool) (c f : Nat) :
    d.facetQuery p other c f = some true ↔ f < d.n.length * 2 ∧
      ((∃ v, FacetRecord d c = some v ∧ p (v.getD f .empty) = true) ∨
        (FacetRecord d c = none ∧ other = some true)) := by
  unfold Dom.facetQuery Dom.nFacets
  by_cases hf : f < d.n.length * 2
  · rw [if_pos hf]
    have e : d.facets.find? c = FacetRecord d c := rfl
    rw [e]
    cases hr : FacetRecord d c with
    | none => simp [hf]
    | some v =>
      have hl := hF.lens c v hr
      have : v[f]? = some (v.getD f .empty) := by
        rw [List.getD_eq_getElem?_getD, List.getElem?_eq_getElem (by omega)]; rfl
      show Option.map p v[f]? = some true ↔ _
      rw [this]
      simp only [Option.map_some, Option.some.injEq, hf, true_and, reduceCtorEq, false_and, or_false,
        exists_eq_left']
  · simp [hf]

theorem mapFacets_mem {d : Dom} (hF : DomFacts d) (p : FStatus → Bool) (c f : Nat) :
    (c, f) ∈ d.mapFacets p ↔ f < d.n.length * 2 ∧ ∃ v, FacetRecord d c = some v ∧ p (v.getD f .empty) = true := by
  simp only [Dom.mapFacets, Dom.nFacets, List.mem_flatMap, List.mem_map, List.mem_filter, List.mem_range,
    Prod.mk.injEq]
  constructor
  · rintro ⟨⟨c', v⟩, hm, f', ⟨h1, h2⟩, rfl, rfl⟩
    exact ⟨h1, v, (lookup_some_iff _ hF.keys _ _).2 hm, h2⟩
  · rintro ⟨h1, v, hr, h2⟩
    exact ⟨(c, v), (lookup_some_iff _ hF.keys _ _).1 hr, f, ⟨h1, h2⟩, rfl, rfl⟩

theorem nodup_pairs (l : List Nat) (hl : l.Nodup) (F : Nat → List Nat) (hF : ∀ c, (F c).Nodup) :
    (l.flatMap fun c => (F c).map fun f => (c, f)).Nodup := by
  rw [List.nodup_flatMap]
  refine ⟨fun c _ => (hF c).map (fun a b h => by simpa using h), ?_⟩
  refine hl.imp ?_
  intro a b hab x hx hy
  obtain ⟨_, _, rfl⟩ := List.mem_map.1 hx
  obtain ⟨_, _, h⟩ := List.mem_map.1 hy
  exact hab (by simpa using (congrArg Prod.fst h).symm)

theorem mapFacets_nodup {d : Dom} (hF : DomFacts d) (p : FStatus → Bool) : (d.mapFacets p).Nodup := by
  unfold Dom.mapFacets
  rw [List.nodup_flatMap]
  refine ⟨fun c _ => (List.nodup_range.filter _).map (fun a b h => by simpa using h), ?_⟩
  have := hF.keys
  rw [List.Nodup, List.pairwise_map] at this
  refine this.imp ?_
  intro a b hab x hx hy
  obtain ⟨_, _, rfl⟩ := List.mem_map.1 hx
  obtain ⟨_, _, h⟩ := List.mem_map.1 hy
  exact hab (by simpa using (congrArg Prod.fst h).symm)

theorem allFacets_mem {d : Dom} (cs : List Nat) (c f : Nat) :
    (c, f) ∈ d.allFacets cs ↔ c ∈ cs ∧ f < d.n.length * 2 := by
  simp only [Dom.allFacets, Dom.nFacets, List.mem_flatMap, List.mem_map, List.mem_range, Prod.mk.injEq]
  constructor
  · rintro ⟨a, ha, b, hb, rfl, rfl⟩; exact ⟨ha, hb⟩
  · rintro ⟨h1, h2⟩; exact ⟨c, h1, f, h2, rfl, rfl⟩

/-- **C16**. In every constructed domain, whatever the iteration order of the facet map: each facet list holds exactly
the (cell, facet) pairs accepted by the corresponding predicate, each once. -/
theorem C16_facet_lists_agree_with_predicates (debug : Bool) (o : Oracles K) (g : Grid K)
    (targets : Option (List Nat)) (hv : g.Valid) (hne : g ≠ []) (hd : debug = false ∨ targets = none) :
    ∃ d0, build debug o g targets = .ok d0 ∧ ∀ d, SameUpToOrder d0 d →
      (∃ l, d.fullFacets = some l ∧ l.Nodup ∧ ∀ c f, (c, f) ∈ l ↔ d.isFullFacet c f = some true) ∧
      (∃ l, d.emptyFacets = some l ∧ l.Nodup ∧ ∀ c f, (c, f) ∈ l ↔ d.isEmptyFacet c f = some true) ∧
      (d.cutFacets.Nodup ∧ ∀ c f, (c, f) ∈ d.cutFacets ↔ d.isCutFacet c f = some true) ∧
      (d.fullUnfFacets.Nodup ∧ ∀ c f, (c, f) ∈ d.fullUnfFacets ↔ d.isFullUnfFacet c f = some true) ∧
      (d.unfFacets.Nodup ∧ ∀ c f, (c, f) ∈ d.unfFacets ↔ d.hasUnfFacet c f = some true) ∧
      (d.hasFacetsWithUnf = true ↔ ∃ c f, d.hasUnfFacet c f = some true) := by
  obtain ⟨d0, h1, hF0, _⟩ := build_facts debug o g targets hv hne hd
  refine ⟨d0, h1, fun d hp => ?_⟩
  obtain ⟨hF, _⟩ := hF0.perm hp
  obtain ⟨hw, hroot⟩ := WF.of_reachable hF.shape.2 hF.reach
  have hrecnone : ∀ c, d.facets.contains c = false ↔ FacetRecord d c = none := by
    intro c
    simp [FMap.contains, FMap.find?, FacetRecord]
  have hsimple : ∀ p, (d.mapFacets p).Nodup ∧
      ∀ c f, (c, f) ∈ d.mapFacets p ↔ d.facetQuery p (some false) c f = some true := by
    intro p
    refine ⟨mapFacets_nodup hF p, fun c f => ?_⟩
    rw [mapFacets_mem hF, facetQuery_iff hF]
    simp
  refine ⟨?_, ?_, hsimple _, hsimple _, hsimple _, ?_⟩
  · obtain ⟨fulls, hfe, hfs, hfm, hfi, _⟩ := (C09_cells_by_status _ hF.shape d.tree hF.reach).1 .full
    refine ⟨_, by rw [Dom.fullFacets, hfe]; rfl, ?_, ?_⟩
    · rw [List.nodup_append]
      refine ⟨mapFacets_nodup hF _, nodup_pairs _ ((hfs.imp fun h => ne_of_lt h).filter _) _
        (fun _ => List.nodup_range), ?_⟩
      rintro ⟨c, f⟩ hx ⟨c', f'⟩ hy he
      rw [Prod.mk.injEq] at he
      obtain ⟨rfl, rfl⟩ := he
      obtain ⟨_, v, hr, _⟩ := (mapFacets_mem hF _ _ _).1 hx
      obtain ⟨hc, _⟩ := (allFacets_mem _ _ _).1 hy
      rw [List.mem_filter, Bool.not_eq_true', hrecnone, hr] at hc
      simp at hc
    · intro c f
      rw [List.mem_append, mapFacets_mem hF, allFacets_mem, List.mem_filter, Bool.not_eq_true', hrecnone,
        Dom.isFullFacet, facetQuery_iff hF, hfi c]
      constructor
      · rintro (⟨a, b⟩ | ⟨⟨a, b⟩, e⟩)
        · exact ⟨a, Or.inl b⟩
        · exact ⟨e, Or.inr ⟨b, a⟩⟩
      · rintro ⟨a, b | ⟨b, e⟩⟩
        · exact Or.inl ⟨a, b⟩
        · exact Or.inr ⟨⟨e, b⟩, a⟩
  · obtain ⟨es, hfe, hfs, hfm, hfi, _⟩ := (C09_cells_by_status _ hF.shape d.tree hF.reach).1 .empty
    have hno : ∀ c, c ∈ es → FacetRecord d c = none := by
      intro c hc
      cases hr : FacetRecord d c with
      | none => rfl
      | some v =>
        rcases hF.status c v hr with h | h <;>
          exact absurd (hw.hasStatus_unique h ((hfm c).1 hc)) (by simp)
    refine ⟨_, by rw [Dom.emptyFacets, hfe]; rfl, ?_, ?_⟩
    · rw [List.nodup_append]
      refine ⟨nodup_pairs _ (hfs.imp fun h => ne_of_lt h) _ (fun _ => List.nodup_range), mapFacets_nodup hF _, ?_⟩
      rintro ⟨c, f⟩ hx ⟨c', f'⟩ hy he
      rw [Prod.mk.injEq] at he
      obtain ⟨rfl, rfl⟩ := he
      obtain ⟨_, v, hr, _⟩ := (mapFacets_mem hF _ _ _).1 hy
      obtain ⟨hc, _⟩ := (allFacets_mem _ _ _).1 hx
      rw [hno c hc] at hr
      simp at hr
    · intro c f
      rw [List.mem_append, mapFacets_mem hF, allFacets_mem, Dom.isEmptyFacet, facetQuery_iff hF]
      constructor
      · rintro (⟨a, e⟩ | ⟨a, b⟩)
        · exact ⟨e, Or.inr ⟨hno c a, (hfi c).1 a⟩⟩
        · exact ⟨a, Or.inl b⟩
      · rintro ⟨a, b | ⟨b, e⟩⟩
        · exact Or.inr ⟨a, b⟩
        · exact Or.inl ⟨(hfi c).2 e, a⟩
  · unfold Dom.hasFacetsWithUnf Dom.hasUnfFacet
    simp only [List.any_eq_true, facetQuery_iff hF]
    constructor
    · rintro ⟨⟨c, v⟩, hm, s, hs, hp⟩
      have hr := (lookup_some_iff _ hF.keys _ _).2 hm
      obtain ⟨f, hf, rfl⟩ := List.getElem_of_mem hs
      refine ⟨c, f, by rw [← hF.lens c v hr]; exact hf, Or.inl ⟨v, hr, ?_⟩⟩
      rw [List.getD_eq_getElem?_getD, List.getElem?_eq_getElem hf]
      exact hp
    · rintro ⟨c, f, hf, ⟨v, hr, hp⟩ | ⟨_, h⟩⟩
      · have hl := hF.lens c v hr
        refine ⟨(c, v), (lookup_some_iff _ hF.keys _ _).1 hr, v.getD f .empty, ?_, hp⟩
        rw [List.getD_eq_getElem?_getD, List.getElem?_eq_getElem (by omega)]
        exact List.getElem_mem _
      · simp at h

theorem facetsTarget_eq (p : Nat → Nat → Option Bool) (ts : List (Nat × Nat))
    (h : ∀ x ∈ ts, ∃ b, p x.1 x.2 = some b) :
    Dom.facetsTarget p ts = some (ts.filter fun x => decide (p x.1 x.2 = some true)) := by
  induction ts with
  | nil => rfl
  | cons x xs ih =>
    obtain ⟨c, f⟩ := x
    obtain ⟨b, hb⟩ := h (c, f) (by simp)
    simp only at hb
    simp only [Dom.facetsTarget, hb, ih (fun x hx => h x (by simp [hx])), Option.bind_some, Option.map_some,
      List.filter_cons]
    cases b <;> simp

/-- The predicates on facets and the queries on targets, for the facts a built domain satisfies. -/
theorem DomFacts.facet_targets {d : Dom} (hF : DomFacts d) :
    (∀ ts : List (Nat × Nat), (∀ x ∈ ts, x.1 < listProd d.n ∧ x.2 < d.n.length * 2) →
      ∀ p ∈ [d.isFullFacet, d.isEmptyFacet, d.isCutFacet, d.isFullUnfFacet, d.hasUnfFacet, d.hasExtFacet],
        Dom.facetsTarget p ts = some (ts.filter fun x => decide (p x.1 x.2 = some true))) ∧
    (∀ c f, f < d.n.length * 2 → FacetRecord d c = none →
      (d.isFullFacet c f = some true ↔ HasStatus d.n d.tree c .full) ∧
      (d.isEmptyFacet c f = some true ↔ HasStatus d.n d.tree c .empty) ∧
      d.isCutFacet c f = some false ∧ d.isFullUnfFacet c f = some false ∧ d.hasUnfFacet c f = some false) := by
  obtain ⟨hw, hroot⟩ := WF.of_reachable hF.shape.2 hF.reach
  have hcell : ∀ c s, c < listProd d.n → ∃ b, d.tree.isCell d.n s c = some b := by
    intro c s hc
    by_cases h : HasStatus d.n d.tree c s
    · exact ⟨true, (hw.isCell_iff c s).2 h⟩
    · exact ⟨false, hw.isCell_false (by rw [hroot]; exact cellIn_root.2 hc) s h⟩
  have hq : ∀ (p : FStatus → Bool) (other : Option Bool) c f, f < d.n.length * 2 → (∃ b, other = some b) →
      ∃ b, d.facetQuery p other c f = some b := by
    intro p other c f hf ho
    unfold Dom.facetQuery Dom.nFacets
    rw [if_pos hf]
    have e : d.facets.find? c = FacetRecord d c := rfl
    rw [e]
    cases hr : FacetRecord d c with
    | none => exact ho
    | some v =>
      have hl := hF.lens c v hr
      show ∃ b, Option.map p v[f]? = some b
      rw [List.getElem?_eq_getElem (by omega)]
      exact ⟨_, rfl⟩
  constructor
  · intro ts hts p hp
    apply facetsTarget_eq
    intro x hx
    obtain ⟨hc, hf⟩ := hts x hx
    simp only [List.mem_cons, List.not_mem_nil, or_false] at hp
    rcases hp with rfl | rfl | rfl | rfl | rfl | rfl
    · exact hq _ _ _ _ hf (hcell _ _ hc)
    · exact hq _ _ _ _ hf (hcell _ _ hc)
    · exact hq _ _ _ _ hf ⟨_, rfl⟩
    · exact hq _ _ _ _ hf ⟨_, rfl⟩
    · exact hq _ _ _ _ hf ⟨_, rfl⟩
    · exact hq _ _ _ _ hf ⟨_, rfl⟩
  · intro c f hf hr
    have e : d.facets.find? c = FacetRecord d c := rfl
    have hfq : ∀ p other, d.facetQuery p other c f = other := by
      intro p other
      unfold Dom.facetQuery Dom.nFacets
      rw [if_pos hf, e, hr]
    refine ⟨?_, ?_, hfq _ _, hfq _ _, hfq _ _⟩
    · rw [Dom.isFullFacet, hfq, Dom.isFullCell, hw.isCell_iff]
    · rw [Dom.isEmptyFacet, hfq, Dom.isEmptyCell, hw.isCell_iff]

/-- **C16** (targets, and meaning of the predicates). On target pairs of the grid every predicate gives an answer and
the target query returns exactly the accepted targets in their order. A cell without facet record that is full
(empty) has all its facets full (empty) and nothing else. -/
theorem C16_facet_targets (debug : Bool) (o : Oracles K) (g : Grid K)
    (targets : Option (List Nat)) (hv : g.Valid) (hne : g ≠ []) (hd : debug = false ∨ targets = none) :
    ∃ d0, build debug o g targets = .ok d0 ∧ ∀ d, SameUpToOrder d0 d →
      (∀ ts : List (Nat × Nat), (∀ x ∈ ts, x.1 < listProd d.n ∧ x.2 < d.n.length * 2) →
        ∀ p ∈ [d.isFullFacet, d.isEmptyFacet, d.isCutFacet, d.isFullUnfFacet, d.hasUnfFacet, d.hasExtFacet],
          Dom.facetsTarget p ts = some (ts.filter fun x => decide (p x.1 x.2 = some true))) ∧
      (∀ c f, f < d.n.length * 2 → FacetRecord d c = none →
        (d.isFullFacet c f = some true ↔ HasStatus d.n d.tree c .full) ∧
        (d.isEmptyFacet c f = some true ↔ HasStatus d.n d.tree c .empty) ∧
        d.isCutFacet c f = some false ∧ d.isFullUnfFacet c f = some false ∧ d.hasUnfFacet c f = some false) := by
  obtain ⟨d0, h1, hF0, _⟩ := build_facts debug o g targets hv hne hd
  refine ⟨d0, h1, fun d hp => ?_⟩
  obtain ⟨hF, _⟩ := hF0.perm hp
  exact hF.facet_targets

/-- A constructed domain with full, empty and cut facets. -/
example : ∃ d, build true exampleOracles [[0, 1, 2, 3, 4]] none = .ok d ∧
    d.emptyFacets = some [(2, 0), (2, 1), (3, 0), (3, 1)] ∧ d.cutFacets = [(0, 0), (0, 1), (1, 0), (1, 1)] :=
  exists_ok_of (fun d : Dom => d.emptyFacets = some [(2, 0), (2, 1), (3, 0), (3, 1)] ∧
    d.cutFacets = [(0, 0), (0, 1), (1, 0), (1, 1)]) (by decide +kernel)

end Qugar
