import Verif.Spec.Domain
import Verif.Props.Partition
import Verif.Props.Grid
/-
Lemmas on the construction of implicit unfitted domains.
-/
namespace Qugar
open Spec Tree
variable {K : Type} [Field K] [LinearOrder K]

/-! ### runs of sub-trees -/

def prefixOp (x : Bool) : Op → Op
  | .branch p => .branch (x :: p)
  | .setStatus p s => .setStatus (x :: p) s

theorem run_left {r s b} (ops : List Op) {a a' : Tree} (h : run a ops = some a') :
    run (node r s a b) (ops.map (prefixOp false)) = some (node r s a' b) := by
  induction ops generalizing a with
  | nil => simp only [run, Option.some.injEq] at h; subst h; rfl
  | cons o os ih =>
    simp only [run, Option.bind_eq_some_iff] at h
    obtain ⟨t1, h1, h2⟩ := h
    have : step (node r s a b) (prefixOp false o) = some (node r s t1 b) := by
      cases o <;> simp only [step, prefixOp, atPath] at h1 ⊢ <;> rw [h1] <;> rfl
    simp only [List.map_cons, run, this, Option.bind_some, ih h2]

theorem run_right {r s a} (ops : List Op) {b b' : Tree} (h : run b ops = some b') :
    run (node r s a b) (ops.map (prefixOp true)) = some (node r s a b') := by
  induction ops generalizing b with
  | nil => simp only [run, Option.some.injEq] at h; subst h; rfl
  | cons o os ih =>
    simp only [run, Option.bind_eq_some_iff] at h
    obtain ⟨t1, h1, h2⟩ := h
    have : step (node r s a b) (prefixOp true o) = some (node r s a t1) := by
      cases o <;> simp only [step, prefixOp, atPath] at h1 ⊢ <;> rw [h1] <;> rfl
    simp only [List.map_cons, run, this, Option.bind_some, ih h2]

theorem run_append (t : Tree) (o1 o2 : List Op) : run t (o1 ++ o2) = (run t o1).bind fun t' => run t' o2 := by
  induction o1 generalizing t with
  | nil => simp [run]
  | cons o os ih =>
    simp only [List.cons_append, run]
    cases h : step t o with
    | none => simp
    | some t1 => simp [ih]

/-! ### facet maps -/

theorem lookup_append (m : FMap) (c k : Nat) (v : List FStatus) :
    List.lookup c (m ++ [(k, v)]) = (List.lookup c m).or (if c = k then some v else none) := by
  induction m with
  | nil =>
    by_cases h : c = k
    · subst h; simp [List.lookup]
    · have : (c == k) = false := by simpa using h
      simp [List.lookup, this, h]
  | cons x xs ih =>
    obtain ⟨a, w⟩ := x
    simp only [List.cons_append, List.lookup_cons]
    cases hb : (c == a) <;> simp [ih]

theorem emplace_find (m : FMap) (c k : Nat) (v : List FStatus) :
    List.lookup c (m.emplace k v) = (List.lookup c m).or (if c = k then some v else none) := by
  unfold FMap.emplace FMap.contains FMap.find?
  split
  · rename_i h
    by_cases hk : c = k
    · subst hk
      obtain ⟨w, hw⟩ := Option.isSome_iff_exists.1 h
      simp [hw]
    · simp [hk]
  · exact lookup_append m c k v

theorem lookup_none_iff (m : FMap) (c : Nat) : List.lookup c m = none ↔ c ∉ m.map (·.1) := by
  induction m with
  | nil => simp
  | cons x xs ih =>
    obtain ⟨a, w⟩ := x
    simp only [List.lookup_cons]
    by_cases hb : c = a
    · subst hb; simp
    · have : (c == a) = false := by simpa using hb
      rw [this]; simp only [ih, List.map_cons, List.mem_cons, not_or]
      exact ⟨fun h => ⟨hb, h⟩, fun h => h.2⟩

theorem lookup_some_iff (m : FMap) (hn : (m.map (·.1)).Nodup) (c : Nat) (v : List FStatus) :
    List.lookup c m = some v ↔ (c, v) ∈ m := by
  induction m with
  | nil => simp
  | cons x xs ih =>
    obtain ⟨a, w⟩ := x
    simp only [List.map_cons, List.nodup_cons] at hn
    simp only [List.lookup_cons]
    by_cases hb : c = a
    · subst hb
      simp only [beq_self_eq_true, Option.some.injEq, List.mem_cons, Prod.mk.injEq, true_and]
      constructor
      · intro h; exact Or.inl h.symm
      · rintro (h | h)
        · exact h.symm
        · exact absurd (List.mem_map.2 ⟨_, h, rfl⟩) hn.1
    · have : (c == a) = false := by simpa using hb
      rw [this]; simp only [ih hn.2, List.mem_cons, Prod.mk.injEq, hb, false_and, false_or]

theorem emplace_nodup (m : FMap) (hn : (m.map (·.1)).Nodup) (k : Nat) (v : List FStatus) :
    ((m.emplace k v).map (·.1)).Nodup := by
  unfold FMap.emplace FMap.contains FMap.find?
  split
  · exact hn
  · rename_i h
    rw [Bool.not_eq_true, Option.isSome_eq_false_iff, Option.isNone_iff_eq_none] at h
    have h' : k ∉ m.map (·.1) := (lookup_none_iff m k).1 h
    rw [List.map_append, List.map_cons, List.map_nil, List.nodup_append]
    refine ⟨hn, by simp, ?_⟩
    intro a ha b hb
    rw [List.mem_singleton] at hb
    subst hb
    exact fun e => h' (e ▸ ha)

/-! ### geometry of sub-grids -/

theorem InBounds.single {n : List Nat} {r : Range} (h : InBounds n r) (hs : r.size = 1) :
    CellIn n r (flatIndex r.lo n) ∧ (∀ c, CellIn n r c → c = flatIndex r.lo n) ∧ InSize n r.lo ∧
      r.up = r.lo.map (· + 1) := by
  have hlo : InBox r.lo r.up r.lo := by
    refine ⟨rfl, by rw [h.1, h.2.1], fun k hk => ⟨le_refl _, (h.2.2 k (by rw [← h.1]; exact hk)).1⟩⟩
  have hlen := size_eq_length r h.valid.1
  rw [hs] at hlen
  obtain ⟨x, hx⟩ := List.length_eq_one_iff.1 hlen.symm
  have e1 : r.lo = x := by
    have := mem_rangeList.2 hlo; rw [hx] at this; simpa using this
  have hall : ∀ i, InBox r.lo r.up i → i = r.lo := by
    intro i hi
    have := mem_rangeList.2 hi; rw [hx] at this
    rw [e1]; simpa using this
  refine ⟨⟨r.lo, h.inSize hlo, rfl, hlo⟩, ?_, h.inSize hlo, ?_⟩
  · rintro c ⟨i, _, h2, h3⟩
    rw [hall i h3] at h2; exact h2.symm
  · apply ext_getD
    · rw [h.2.1, List.length_map, h.1]
    · intro k
      by_cases hk : k < n.length
      · have := (h.2.2 k hk).1
        have e : (r.lo.map (· + 1)).getD k 0 = r.lo.getD k 0 + 1 := by
          simp [List.getD_eq_getElem?_getD, (by rw [h.1]; exact hk : k < r.lo.length)]
        rw [e]
        by_contra hne
        have hd : InBox r.lo r.up (r.lo.set k (r.lo.getD k 0 + 1)) := by
          refine ⟨by simp, by simp [h.1, h.2.1], fun j hj => ?_⟩
          rw [List.length_set] at hj
          rw [getD_set _ _ _ _ (by rw [h.1]; exact hk)]
          split
          · rename_i e; subst e; exact ⟨by omega, by omega⟩
          · exact ⟨le_refl _, (h.2.2 j (by rw [← h.1]; exact hj)).1⟩
        have := hall _ hd
        have e2 := congrArg (fun l : List Nat => l.getD k 0) this
        beta_reduce at e2
        rw [getD_set _ _ _ _ (by rw [h.1]; exact hk)] at e2
        simp at e2
      · rw [getD_ge (by rw [h.2.1]; omega), getD_ge (by rw [List.length_map, h.1]; omega)]

theorem subDomain_succ (g : Grid K) (lo : List Nat) (h : lo.length = g.length) :
    g.subDomain lo (lo.map (· + 1)) = g.cellDomainTid lo := by
  induction g generalizing lo with
  | nil => cases lo <;> simp_all [Grid.subDomain, Grid.cellDomainTid]
  | cons bs g ih =>
    cases lo with
    | nil => simp at h
    | cons l ls =>
      have := ih ls (by simpa using h)
      simp only [List.map_cons, Grid.subDomain, Grid.cellDomainTid_cons, this]
      rfl

theorem subDomain_single {g : Grid K} {r : Range} (h : InBounds g.numCellsDir r) (hs : r.size = 1) {c : Nat}
    (hc : CellIn g.numCellsDir r c) : g.cellDomain c = some (g.subDomain r.lo r.up) := by
  obtain ⟨h1, h2, h3, h4⟩ := h.single hs
  have := h2 c hc
  subst this
  rw [h4, subDomain_succ g r.lo (by rw [h.1]; simp [Grid.numCellsDir])]
  exact Grid.cellDomain_of_tid h3 (flat_eq h3)

theorem singleCell_eq {g : Grid K} {r : Range} (h : InBounds g.numCellsDir r) (hs : r.size = 1) {c : Nat}
    (hc : CellIn g.numCellsDir r c) : g.singleCell r = some c := by
  obtain ⟨h1, h2, h3, h4⟩ := h.single hs
  have := h2 c hc
  subst this
  have hlo : InBox r.lo r.up r.lo := by
    refine ⟨rfl, by rw [h.1, h.2.1], fun k hk => ⟨le_refl _, (h.2.2 k (by rw [← h.1]; exact hk)).1⟩⟩
  rw [Grid.singleCell, if_pos hs, if_pos ((isInRange_iff r r.lo rfl (by rw [h.1, h.2.1])).2 hlo)]
  exact flat_eq h3

section
variable [IsStrictOrderedRing K]

theorem inClosed_sub (g : Grid K) (hv : g.Valid) (lo up i : List Nat) (m : K) (hm : 0 ≤ m)
    (h1 : List.Forall₂ (· ≤ ·) lo i) (h2 : List.Forall₂ (· < ·) i up) (h3 : List.Forall₂ (· ≤ ·) up g.numCellsDir)
    (x : List K) (hx : InClosedBox 0 (g.cellDomainTid i) x) :
    InClosedBox 0 ((g.subDomain lo up).extendDelta m) x := by
  induction g generalizing lo up i x with
  | nil =>
    simp only [Grid.numCellsDir, List.map_nil, List.forall₂_nil_right_iff] at h3
    subst h3
    rw [List.forall₂_nil_right_iff] at h2
    subst h2
    rw [List.forall₂_nil_right_iff] at h1
    subst h1
    simpa [Grid.cellDomainTid, Grid.subDomain, Box.extendDelta] using hx
  | cons bs g ih =>
    rw [Grid.numCellsDir_cons] at h3
    cases h3 with
    | @cons u _ us _ hu h3 =>
      cases h2 with
      | @cons a _ as _ ha h2 =>
        cases h1 with
        | @cons l _ ls _ hl h1 =>
          rw [Grid.cellDomainTid_cons] at hx
          rw [Grid.valid_cons] at hv
          cases hx with
          | @cons _ y _ ys hy hx =>
            have := ih hv.2 ls us as h1 h2 h3 ys hx
            simp only [Grid.subDomain, Box.extendDelta, List.map_cons]
            refine List.Forall₂.cons ?_ this
            simp only [Grid.spanDir] at *
            have e1 := Grid.getD_le_of_le bs hv.1.2 hl (by omega)
            have e2 := Grid.getD_le_of_le bs hv.1.2 (i := a + 1) (j := u) (by omega) (by omega)
            constructor <;> linarith [hy.1, hy.2]

/-- The closed domain of a cell of a sub-grid is inside the (enlarged) domain of the sub-grid. -/
theorem cell_in_sub {g : Grid K} (hv : g.Valid) {r : Range} (h : InBounds g.numCellsDir r) {c : Nat}
    (hc : CellIn g.numCellsDir r c) (m : K) (hm : 0 ≤ m) :
    ∃ b, g.cellDomain c = some b ∧
      ∀ x, InClosedBox 0 b x → InClosedBox 0 ((g.subDomain r.lo r.up).extendDelta m) x := by
  obtain ⟨i, h1, h2, h3⟩ := hc
  refine ⟨g.cellDomainTid i, Grid.cellDomain_of_tid h1 (by rw [flat_eq h1, h2]), fun x hx => ?_⟩
  obtain ⟨k1, k2⟩ := forall2_inBox.2 h3
  refine inClosed_sub g hv r.lo r.up i m hm k1 k2 ?_ x hx
  rw [List.forall₂_iff_get]
  refine ⟨h.2.1, fun k hk1 hk2 => ?_⟩
  have := (h.2.2 k hk2).2
  simpa [List.getD_eq_getElem?_getD, hk1, hk2] using this

end

/-! ### the decomposition -/

/-- The verdict that the recursion reaches for cell `c` when started at range `r`. -/
def verdict (o : Oracles K) (g : Grid K) : Nat → Range → Nat → Status × Option (List FStatus)
  | 0, _, _ => (.unknown, none)
  | fuel + 1, r, c =>
    match o.sign ((g.subDomain r.lo r.up).extendDelta o.margin) with
    | .positive => (.empty, none)
    | .negative => (.full, none)
    | .undetermined =>
      if r.size = 1 then classifierVerdict o (g.length * 2) (g.subDomain r.lo r.up)
      else match r.split with
        | some (a, b) => if a.isInRangeFlat c g.numCellsDir then verdict o g fuel a c else verdict o g fuel b c
        | none => (.unknown, none)

def IsTarget (targets : Option (List Nat)) (c : Nat) : Prop :=
  match targets with
  | none => True
  | some l => c ∈ l

theorem hasStatus_leaf {n : List Nat} {r : Range} {s s' : Status} {c : Nat} (hc : CellIn n r c) :
    HasStatus n (leaf r s) c s' ↔ s' = s := by
  simp only [HasStatus, leavesOf, List.mem_singleton, Prod.mk.injEq]
  constructor
  · rintro ⟨_, ⟨_, h⟩, _⟩; exact h
  · rintro rfl; exact ⟨r, ⟨rfl, rfl⟩, hc⟩

theorem hasStatus_node {n : List Nat} {r : Range} {s s' : Status} {a b : Tree} {c : Nat} :
    HasStatus n (node r s a b) c s' ↔ HasStatus n a c s' ∨ HasStatus n b c s' := by
  simp only [HasStatus, leavesOf, List.mem_append]
  constructor
  · rintro ⟨r, h | h, hc⟩
    · exact Or.inl ⟨r, h, hc⟩
    · exact Or.inr ⟨r, h, hc⟩
  · rintro (⟨r, h, hc⟩ | ⟨r, h, hc⟩)
    · exact ⟨r, Or.inl h, hc⟩
    · exact ⟨r, Or.inr h, hc⟩

theorem setStatus_leaf {r : Range} {st : Status} (h : st = .cut → r.size = 1) :
    setStatus st (leaf r .unknown) = some (leaf r st) := by
  have : st = .cut → Grid.isUniqueCell r = true := fun e => by simp [Grid.isUniqueCell, h e]
  rw [setStatus, if_pos ⟨rfl, this⟩]

/-- What is proved about a call of `create_decomposition` on a fresh leaf with range `r`. -/
def DecompOk (o : Oracles K) (g : Grid K) (targets : Option (List Nat)) (fuel : Nat) (r : Range) (fm : FMap)
    (res : Except Fault (Tree × FMap)) : Prop :=
  ∃ t' fm', res = .ok (t', fm') ∧ (∃ ops, run (leaf r .unknown) ops = some t') ∧
    (∀ c, CellIn g.numCellsDir r c →
      (HasStatus g.numCellsDir t' c .unknown ∧ List.lookup c fm' = List.lookup c fm ∧ ¬ IsTarget targets c) ∨
      (HasStatus g.numCellsDir t' c (verdict o g fuel r c).1 ∧ (verdict o g fuel r c).1 ≠ .unknown ∧
        (List.lookup c fm = none → List.lookup c fm' = (verdict o g fuel r c).2))) ∧
    (∀ c, ¬ CellIn g.numCellsDir r c → List.lookup c fm' = List.lookup c fm) ∧
    ((fm.map (·.1)).Nodup → (fm'.map (·.1)).Nodup) 

theorem classifierVerdict_status (o : Oracles K) (nf : Nat) (b : Box K) :
    (classifierVerdict o nf b).1 = transformStatus (o.cell b) ∧ (classifierVerdict o nf b).1 ≠ .unknown := by
  unfold classifierVerdict
  cases h : o.cell b <;> simp [transformStatus]
  split <;> simp

theorem classifyUndetermined_ok (o : Oracles K) (g : Grid K) (targets : Option (List Nat)) (fuel : Nat) (r : Range)
    (fm : FMap) (h : InBounds g.numCellsDir r) (hs : r.size = 1)
    (hsign : o.sign ((g.subDomain r.lo r.up).extendDelta o.margin) = .undetermined) :
    DecompOk o g targets (fuel + 1) r fm (classifyUndetermined o g (leaf r .unknown) fm) := by
  have hu : Grid.isUniqueCell r = true := by simp [Grid.isUniqueCell, hs]
  obtain ⟨s1, s2, s3, s4⟩ := h.single hs
  have hv : ∀ c, verdict o g (fuel + 1) r c = classifierVerdict o (g.length * 2) (g.subDomain r.lo r.up) := by
    intro c; simp only [verdict, hsign, hs, if_true]
  have hcv := classifierVerdict_status o (g.length * 2) (g.subDomain r.lo r.up)
  have hset : ∀ st, setStatus st (leaf r .unknown) = some (leaf r st) := fun st => setStatus_leaf (fun _ => hs)
  have hrun : ∀ st, ∃ ops, run (leaf r .unknown) ops = some (leaf r st) := fun st =>
    ⟨[.setStatus [] st], by simp [run, step, atPath, hset]⟩
  unfold classifyUndetermined
  dsimp +instances only [range]
  simp only [hu, if_true]
  by_cases h1 : o.cell (g.subDomain r.lo r.up) = .cut ∨ o.cell (g.subDomain r.lo r.up) = .fullUnf
  · rw [if_pos h1]
    by_cases h2 : o.cell (g.subDomain r.lo r.up) = .fullUnf ∧
      (((List.range (g.length * 2)).map fun f => o.facet (g.subDomain r.lo r.up) f
        (o.cell (g.subDomain r.lo r.up))).all fun s => decide (s = .full)) = true
    · rw [if_pos h2, hset]
      obtain ⟨h2a, h2b⟩ := h2
      have hall : ∀ f, f < g.length * 2 → o.facet (g.subDomain r.lo r.up) f .fullUnf = .full := by
        intro f hf
        rw [h2a] at h2b
        simp only [List.all_map, List.all_eq_true, List.mem_range, Function.comp, decide_eq_true_eq] at h2b
        exact h2b f hf
      have hcl : classifierVerdict o (g.length * 2) (g.subDomain r.lo r.up) = (.full, none) := by
        simp only [classifierVerdict, h2a]; rw [if_pos hall]
      refine ⟨_, _, rfl, hrun _, ?_, fun c _ => rfl, fun hn => hn⟩
      intro c hc
      right
      rw [hv, hcl, hasStatus_leaf hc]
      exact ⟨rfl, by simp, fun h => h⟩
    · rw [if_neg h2, singleCell_eq h hs s1, hset]
      have hcl : (classifierVerdict o (g.length * 2) (g.subDomain r.lo r.up)).2 =
          some ((List.range (g.length * 2)).map fun f => o.facet (g.subDomain r.lo r.up) f
            (o.cell (g.subDomain r.lo r.up))) := by
        rcases h1 with h1 | h1
        · simp [classifierVerdict, h1]
        · simp only [classifierVerdict, h1]
          rw [if_neg]
          intro hall
          apply h2
          refine ⟨h1, ?_⟩
          rw [h1]
          simp only [List.all_map, List.all_eq_true, List.mem_range, Function.comp, decide_eq_true_eq]
          exact hall
      refine ⟨_, _, rfl, hrun _, ?_, ?_, fun hn => emplace_nodup _ hn _ _⟩
      · intro c hc
        right
        have hce := s2 c hc
        subst hce
        rw [hv, hasStatus_leaf hc, hcl]
        refine ⟨hcv.1, hcv.2, fun hnone => ?_⟩
        rw [emplace_find, hnone]; simp
      · intro c hc
        have hne : c ≠ flatIndex r.lo g.numCellsDir := fun e => hc (e ▸ s1)
        rw [emplace_find]; simp [hne]
  · rw [if_neg h1, hset]
    refine ⟨_, _, rfl, hrun _, ?_, fun c _ => rfl, fun hn => hn⟩
    intro c hc
    right
    rw [hv, hasStatus_leaf hc]
    refine ⟨hcv.1, hcv.2, fun hnone => ?_⟩
    rw [hnone]
    unfold classifierVerdict
    cases hc : o.cell (g.subDomain r.lo r.up) <;> simp_all

theorem not_intersects {n : List Nat} {r : Range} (h : InBounds n r) {targets : Option (List Nat)}
    (hi : intersects n r targets = false) {c : Nat} (hc : CellIn n r c) : ¬ IsTarget targets c := by
  cases targets with
  | none => simp [intersects] at hi
  | some l =>
    intro ht
    simp only [intersects, List.any_eq_false] at hi
    exact hi c ht ((mem_iff_cellIn h c).2 hc)

theorem decompose_ok (debug : Bool) (o : Oracles K) (g : Grid K) (targets : Option (List Nat))
    (hd : debug = false ∨ targets = none) (fuel : Nat) (r : Range) (fm : FMap) (h : InBounds g.numCellsDir r)
    (hf : r.size ≤ fuel) :
    DecompOk o g targets fuel r fm (decompose debug o g targets fuel (leaf r .unknown) fm) := by
  induction fuel generalizing r fm with
  | zero => have := h.size_pos; omega
  | succ fuel ih =>
    unfold decompose
    dsimp +instances only [range]
    by_cases hi : intersects g.numCellsDir r targets = true
    · rw [if_pos hi]
      have hins : ∀ sg, insertCells debug targets (leaf r .unknown) sg =
          .ok (leaf r (if sg = .positive then .empty else .full)) := by
        intro sg
        have : (debug && targets.isSome) = false := by rcases hd with hd | hd <;> simp [hd]
        simp only [insertCells, this]
        rw [setStatus_leaf (by split <;> simp)]
        rfl
      cases hsg : o.sign ((g.subDomain r.lo r.up).extendDelta o.margin) with
      | negative =>
        simp only [hins]
        refine ⟨_, _, rfl, ⟨[.setStatus [] .full], ?_⟩, ?_, fun c _ => rfl, fun hn => hn⟩
        · simp [run, step, atPath, setStatus_leaf]
        · intro c hc
          right
          rw [hasStatus_leaf hc]
          simp [verdict, hsg]
      | positive =>
        simp only [hins]
        refine ⟨_, _, rfl, ⟨[.setStatus [] .empty], ?_⟩, ?_, fun c _ => rfl, fun hn => hn⟩
        · simp [run, step, atPath, setStatus_leaf]
        · intro c hc
          right
          rw [hasStatus_leaf hc]
          simp [verdict, hsg]
      | undetermined =>
        by_cases hs : r.size = 1
        · have hu : Grid.isUniqueCell r = true := by simp [Grid.isUniqueCell, hs]
          simp only [hu, if_true]
          exact classifyUndetermined_ok o g targets fuel r fm h hs hsg
        · have hu : Grid.isUniqueCell r = false := by simp [Grid.isUniqueCell, hs]
          have hpos := h.size_pos
          obtain ⟨a, b, hab, ha, hb, hsz, hun, hdis⟩ := h.split (by omega)
          have hpa := ha.size_pos
          have hpb := hb.size_pos
          have hbr : branch (leaf r .unknown) = some (node r .unknown (leaf a .unknown) (leaf b .unknown)) := by
            simp [branch, hu, hab]
          simp only [hu, hbr]
          obtain ⟨ta, fa, ea, ⟨opa, ra⟩, ca, na, da⟩ := ih a fm ha (by omega)
          obtain ⟨tb, fb, eb, ⟨opb, rb⟩, cb, nb, db⟩ := ih b fa hb (by omega)
          rw [ea]
          simp only [Except.bind]
          rw [eb]
          refine ⟨_, _, rfl, ⟨.branch [] :: (opa.map (prefixOp false) ++ opb.map (prefixOp true)), ?_⟩, ?_, ?_, ?_⟩
          · simp only [run, step, atPath, hbr, Option.bind_some]
            rw [run_append, run_left opa ra]
            simp only [Option.bind_some]
            exact run_right opb rb
          · intro c hc
            have hv : verdict o g (fuel + 1) r c =
                if a.isInRangeFlat c g.numCellsDir then verdict o g fuel a c else verdict o g fuel b c := by
              simp only [verdict, hsg, hs, if_false, hab]
            rw [hv]
            rcases (hun c).1 hc with hca | hcb
            · rw [if_pos ((mem_iff_cellIn ha c).2 hca)]
              have hnb : ¬ CellIn g.numCellsDir b c := fun h => hdis c ⟨hca, h⟩
              rw [nb c hnb]
              rcases ca c hca with ⟨q1, q2, q3⟩ | ⟨q1, q2, q3⟩
              · exact Or.inl ⟨hasStatus_node.2 (Or.inl q1), q2, q3⟩
              · exact Or.inr ⟨hasStatus_node.2 (Or.inl q1), q2, q3⟩
            · have hna : ¬ CellIn g.numCellsDir a c := fun h => hdis c ⟨h, hcb⟩
              rw [if_neg (fun h => hna ((mem_iff_cellIn ha c).1 h))]
              rw [← na c hna]
              rcases cb c hcb with ⟨q1, q2, q3⟩ | ⟨q1, q2, q3⟩
              · exact Or.inl ⟨hasStatus_node.2 (Or.inr q1), q2, q3⟩
              · exact Or.inr ⟨hasStatus_node.2 (Or.inr q1), q2, q3⟩
          · intro c hc
            rw [nb c (fun h => hc ((hun c).2 (Or.inr h))), na c (fun h => hc ((hun c).2 (Or.inl h)))]
          · exact fun hn => db (da hn)
    · rw [if_neg hi]
      rw [Bool.not_eq_true] at hi
      refine ⟨_, _, rfl, ⟨[], rfl⟩, ?_, fun c _ => rfl, fun hn => hn⟩
      intro c hc
      left
      exact ⟨(hasStatus_leaf hc).2 rfl, rfl, not_intersects h hi hc⟩

/-- Geometric meaning of the verdict. -/
theorem verdict_spec [IsStrictOrderedRing K] (o : Oracles K) (g : Grid K) (hv : g.Valid) (hm : 0 ≤ o.margin)
    (fuel : Nat) (r : Range) (h : InBounds g.numCellsDir r) (hf : r.size ≤ fuel) (c : Nat)
    (hc : CellIn g.numCellsDir r c) :
    ∃ b, g.cellDomain c = some b ∧
      ((verdict o g fuel r c = (.empty, none) ∧ ∃ B, o.sign B = .positive ∧
          ∀ x, InClosedBox 0 b x → InClosedBox 0 B x) ∨
       (verdict o g fuel r c = (.full, none) ∧ ∃ B, o.sign B = .negative ∧
          ∀ x, InClosedBox 0 b x → InClosedBox 0 B x) ∨
       (verdict o g fuel r c = classifierVerdict o (g.length * 2) b ∧
          o.sign (b.extendDelta o.margin) = .undetermined)) := by
  induction fuel generalizing r with
  | zero => have := h.size_pos; omega
  | succ fuel ih =>
    obtain ⟨b0, hb0, hin⟩ := cell_in_sub hv h hc o.margin hm
    simp only [verdict]
    cases hsg : o.sign ((g.subDomain r.lo r.up).extendDelta o.margin) with
    | positive => exact ⟨b0, hb0, Or.inl ⟨rfl, _, hsg, hin⟩⟩
    | negative => exact ⟨b0, hb0, Or.inr (Or.inl ⟨rfl, _, hsg, hin⟩)⟩
    | undetermined =>
      simp only
      by_cases hs : r.size = 1
      · rw [if_pos hs]
        exact ⟨_, subDomain_single h hs hc, Or.inr (Or.inr ⟨rfl, hsg⟩)⟩
      · rw [if_neg hs]
        have hpos := h.size_pos
        obtain ⟨a, b, hab, ha, hb, hsz, hun, hdis⟩ := h.split (by omega)
        have hpa := ha.size_pos
        have hpb := hb.size_pos
        simp only [hab]
        rcases (hun c).1 hc with hca | hcb
        · rw [if_pos ((mem_iff_cellIn ha c).2 hca)]
          exact ih a ha (by omega) hca
        · rw [if_neg (fun h => hdis c ⟨(mem_iff_cellIn ha c).1 h, hcb⟩)]
          exact ih b hb (by omega) hcb

theorem gridShape_of_valid {g : Grid K} (hv : g.Valid) (hne : g ≠ []) : GridShape g.numCellsDir := by
  refine ⟨by simpa [Grid.numCellsDir] using hne, ?_⟩
  exact listProd_pos.1 (Grid.numCells_pos hv)

theorem root_size {n : List Nat} (hn : GridShape n) : (Range.ofUpper n).size = listProd n := by
  rw [← length_cellsOf (InBounds.root hn.2)]
  have : cellsOf n (Range.ofUpper n) = List.range (listProd n) := by
    refine List.Pairwise.eq_of_mem_iff (r := (· < ·)) (cellsOf_sorted _ _) (range_pairwise_lt _) ?_
    intro c
    rw [mem_cellsOf (InBounds.root hn.2), cellIn_root, List.mem_range]
  rw [this, List.length_range]

theorem binarySearch_iff {l : List Nat} (hl : l.Pairwise (· ≤ ·)) (c : Nat) :
    binarySearch l c = true ↔ c ∈ l := by
  unfold binarySearch
  induction l with
  | nil => simp
  | cons x xs ih =>
    rw [List.pairwise_cons] at hl
    rw [List.dropWhile_cons]
    by_cases h : x < c
    · simp only [h, decide_true, if_true]
      rw [ih hl.2, List.mem_cons]
      constructor
      · exact Or.inr
      · rintro (rfl | h')
        · omega
        · exact h'
    · simp only [h, decide_false]
      simp only [Bool.false_eq_true, if_false, Bool.not_eq_true', decide_eq_false_iff_not, List.mem_cons]
      constructor
      · intro h'; left; omega
      · rintro (rfl | h')
        · omega
        · have := hl.1 c h'; omega

end Qugar
