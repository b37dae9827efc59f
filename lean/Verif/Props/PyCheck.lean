import Verif.Props.PyErase
/-
C84: the checks of the code of FFCx.
-/
namespace Qugar.Py.Text
open Regex Kernel

/-! ### References to entries of an array -/

/-- `name[w]`. -/
def entryText (name w : List Char) : List Char := name ++ '[' :: (w ++ [']'])

/-- The entry `k` of the array is used in the text. -/
def Uses (name : List Char) (k : Nat) (text : List Char) : Prop :=
  ∃ ds, ds ≠ [] ∧ (∀ c ∈ ds, isDigit c = true) ∧ natOf ds = k ∧ entryText name ds <:+: text

/-- All the entries used in the text are written with numbers. -/
def Numeric (name text : List Char) : Prop :=
  ∀ w, w ≠ [] → (∀ c ∈ w, isWord c = true) → entryText name w <:+: text → ∀ c ∈ w, isDigit c = true

theorem indexOf_iff (name t : List Char) (g : List (List Char)) :
    Lang (indexOf name) t g ↔ ∃ w, w ≠ [] ∧ (∀ c ∈ w, isWord c = true) ∧ t = entryText name w ∧ g = [w] := by
  simp only [indexOf, lang_lit, lang_gsome1, lang_eps, chars_open, chars_close]
  constructor
  · rintro ⟨_, rfl, _, rfl, w, _, _, rfl, rfl, hn, hw, _, rfl, rfl, rfl⟩
    exact ⟨w, hn, hw, by simp [entryText], rfl⟩
  · rintro ⟨w, hn, hw, rfl, rfl⟩
    exact ⟨_, by rw [entryText]; rfl, _, rfl, w, [']'], [], rfl, rfl, hn, hw, [], rfl, rfl, rfl⟩

/-- A proper end of an entry is not another one. -/
theorem entry_apart {name w w' x : List Char} (hname : ∀ c ∈ name, isWord c = true) (hw : ∀ c ∈ w, isWord c = true)
    (h : entryText name w = x ++ entryText name w') : x = [] := by
  have hno : ∀ l : List Char, (∀ c ∈ l, isWord c = true) → '[' ∉ l := fun l hl hm => absurd (hl _ hm) (by decide)
  have hx : '[' ∉ x := by
    intro hm
    have h1 := congrArg (List.count '[') h
    simp only [entryText, List.count_append, List.count_cons, List.count_eq_zero_of_not_mem (hno _ hname),
      List.count_eq_zero_of_not_mem (hno _ hw)] at h1
    have : 0 < List.count '[' x := List.count_pos_iff.2 hm
    simp at h1
    omega
  have key : ∀ (a b c d : List Char), '[' ∉ a → '[' ∉ b → a ++ '[' :: c = b ++ '[' :: d → a = b := by
    intro a
    induction a with
    | nil =>
      intro b c d _ hb he
      cases b with
      | nil => rfl
      | cons e b =>
        simp only [List.nil_append, List.cons_append, List.cons.injEq] at he
        exact absurd (he.1 ▸ List.mem_cons_self ..) hb
    | cons e a ih =>
      intro b c d ha hb he
      cases b with
      | nil =>
        simp only [List.nil_append, List.cons_append, List.cons.injEq] at he
        exact absurd (he.1 ▸ List.mem_cons_self ..) ha
      | cons f b =>
        simp only [List.cons_append, List.cons.injEq] at he
        rw [he.1, ih b c d (fun hm => ha (List.mem_cons_of_mem _ hm)) (fun hm => hb (List.mem_cons_of_mem _ hm)) he.2]
  rw [entryText, entryText, ← List.append_assoc] at h
  have := key name (x ++ name) _ _ (hno _ hname) (by rw [List.mem_append, not_or]; exact ⟨hx, hno _ hname⟩) h
  exact (List.append_left_eq_self.1 this.symm)

theorem entry_last {name : List Char} (hname : ∀ c ∈ name, isWord c = true) (t : List Char) (h : Word (indexOf name) t) :
    ∃ t' c, t = t' ++ [c] ∧ c = ']' ∧ ∀ d ∈ t', ¬ d = ']' := by
  obtain ⟨g, hg⟩ := h
  obtain ⟨w, _, hw, rfl, _⟩ := (indexOf_iff name t g).1 hg
  refine ⟨name ++ '[' :: w, ']', by simp [entryText], rfl, ?_⟩
  rintro d hd rfl
  simp only [List.mem_append, List.mem_cons] at hd
  rcases hd with hd | hd | hd
  · exact absurd (hname _ hd) (by decide)
  · exact absurd hd (by decide)
  · exact absurd (hw _ hd) (by decide)

theorem indexOf_token {name : List Char} (hname : ∀ c ∈ name, isWord c = true) : Token (indexOf name) where
  nonempty := by
    rintro t ⟨g, hg⟩ rfl
    obtain ⟨w, _, _, h, _⟩ := (indexOf_iff _ _ _).1 hg
    simp [entryText] at h
  prefixFree := prefixFree_of_last (fun c => c = ']') (entry_last hname)
  apart := by
    intro t t' x y hw hw' ht hx hy hp
    have heq : y = t' := by
      obtain ⟨u, c, hu, rfl, hu'⟩ := entry_last hname t hw
      obtain ⟨u', c', rfl, rfl, hu''⟩ := entry_last hname t' hw'
      obtain ⟨y', d, rfl⟩ : ∃ y' d, y = y' ++ [d] := by
        rcases List.eq_nil_or_concat y with rfl | ⟨y', d, rfl⟩
        · exact absurd rfl hy
        · exact ⟨y', d, by simp⟩
      rw [hu, ← List.append_assoc] at ht
      obtain ⟨ht1, ht2⟩ := List.append_inj' ht rfl
      simp only [List.cons.injEq, and_true] at ht2
      subst ht2
      have hyn : ']' ∉ y' := fun hm => hu' _ (by rw [ht1]; simp [hm]) rfl
      have hun : ']' ∉ u' := fun hm => hu'' _ hm rfl
      have aux : ∀ a b : List Char, ']' ∉ b → a ++ [']'] <+: b ++ [']'] → a = b := by
        rintro a b hb ⟨z, hz⟩
        rcases List.eq_nil_or_concat z with rfl | ⟨z', e, rfl⟩
        · simpa using hz
        · exfalso
          rw [List.concat_eq_append, ← List.append_assoc] at hz
          have := List.append_inj_left' hz rfl
          exact hb (by rw [← this]; simp)
      rcases hp with hp | hp
      · rw [aux _ _ hun hp]
      · rw [aux _ _ hyn hp]
    subst heq
    obtain ⟨g, hg⟩ := hw
    obtain ⟨g', hg'⟩ := hw'
    obtain ⟨w, _, hww, rfl, _⟩ := (indexOf_iff _ _ _).1 hg
    obtain ⟨w', _, _, rfl, _⟩ := (indexOf_iff _ _ _).1 hg'
    exact hx (entry_apart hname hww ht)

theorem positions_mem (hs : List Hit) (n : Nat) (t : List Char) : (∃ i, (i, t) ∈ positions hs n) ↔ ∃ h ∈ hs, h.text = t := by
  induction hs generalizing n with
  | nil => simp [positions]
  | cons h hs ih =>
    have := ih (n + h.before.length + h.text.length)
    simp only [positions, List.mem_cons, Prod.mk.injEq, exists_eq_or_imp]
    constructor
    · rintro ⟨i, ⟨_, rfl⟩ | hi⟩
      · exact Or.inl rfl
      · exact Or.inr (this.1 ⟨i, hi⟩)
    · rintro (rfl | h')
      · exact ⟨_, Or.inl ⟨rfl, rfl⟩⟩
      · obtain ⟨i, hi⟩ := this.2 h'
        exact ⟨i, Or.inr hi⟩

/-- The hits are the entries used in the text. -/
theorem hits_iff {name : List Char} (hname : ∀ c ∈ name, isWord c = true) (text w : List Char) :
    (∃ h ∈ ((indexOf name).findIter text).1, h.groups = [w]) ↔ w ≠ [] ∧ (∀ c ∈ w, isWord c = true) ∧ entryText name w <:+: text := by
  obtain ⟨_, h2, h3⟩ := findIter_exact _ (indexOf_token hname) text
  constructor
  · rintro ⟨h, hh, hg⟩
    have hl := h2 h hh
    obtain ⟨w', hn, hw, ht, hg'⟩ := (indexOf_iff _ _ _).1 hl
    rw [hg] at hg'
    simp only [List.cons.injEq, and_true] at hg'
    subst hg'
    obtain ⟨i, hi⟩ := (positions_mem _ 0 h.text).2 ⟨h, hh, rfl⟩
    exact ⟨hn, hw, ht ▸ infix_of_at ((h3 i h.text).1 hi).2⟩
  · rintro ⟨hn, hw, hin⟩
    obtain ⟨i, hi⟩ := at_of_infix hin
    obtain ⟨h, hh, ht⟩ := (positions_mem _ 0 _).1 ⟨i, (h3 i _).2 ⟨⟨[w], (indexOf_iff _ _ _).2 ⟨w, hn, hw, rfl, rfl⟩⟩, hi⟩⟩
    refine ⟨h, hh, ?_⟩
    obtain ⟨w', _, _, ht', hg⟩ := (indexOf_iff _ _ _).1 (h2 h hh)
    rw [ht, entryText, entryText] at ht'
    have := List.append_cancel_left ht'
    simp only [List.cons.injEq, true_and, List.append_cancel_right_eq] at this
    rw [hg, this]

theorem mapM_none_iff {α β : Type} (f : α → Option β) (l : List α) : l.mapM f = none ↔ ∃ a ∈ l, f a = none := by
  induction l with
  | nil => simp
  | cons a l ih =>
    rw [List.mapM_cons]
    rcases h1 : f a with _ | b
    · simp [h1]
    · rcases h2 : l.mapM f with _ | bs
      · simpa [h1] using ih.1 h2
      · have : ¬ ∃ a ∈ l, f a = none := fun h => by rw [ih.2 h] at h2; simp at h2
        simpa [h1] using this

theorem mapM_mem {α β : Type} (f : α → Option β) (l : List α) {bs : List β} (h : l.mapM f = some bs) (b : β) :
    b ∈ bs ↔ ∃ a ∈ l, f a = some b := by
  induction l generalizing bs with
  | nil =>
    simp only [List.mapM_nil, Option.pure_def, Option.some.injEq] at h
    subst h
    simp
  | cons a l ih =>
    rw [List.mapM_cons] at h
    rcases h1 : f a with _ | c
    · rw [h1] at h; simp at h
    · rcases h2 : l.mapM f with _ | cs
      · rw [h1, h2] at h; simp at h
      · rw [h1, h2] at h
        simp only [Option.bind_eq_bind, Option.bind_some, Option.pure_def, Option.some.injEq] at h
        subst h
        simp [ih h2, h1, eq_comm]

/-- C84: the indices collected are those of the entries used in the text; an index that is not a number is an error. -/
theorem C84_collected (name text : List Char) (hname : ∀ c ∈ name, isWord c = true) :
    (Numeric name text → ∃ idx, collected name text = some idx ∧ ∀ k, k ∈ idx ↔ Uses name k text) ∧
      (¬ Numeric name text → collected name text = none) := by
  have hgroups : ∀ h ∈ ((indexOf name).findIter text).1, ∃ w, h.groups = [w] := by
    intro h hh
    obtain ⟨w, _, _, _, hg⟩ := (indexOf_iff _ _ _).1 ((findIter_exact _ (indexOf_token hname) text).2.1 h hh)
    exact ⟨w, hg⟩
  have hiff := hits_iff hname text
  constructor
  · intro hnum
    rcases hc : collected name text with _ | idx
    · exfalso
      rw [collected, mapM_none_iff] at hc
      obtain ⟨h, hh, hnone⟩ := hc
      obtain ⟨w, hw⟩ := hgroups h hh
      obtain ⟨h1, h2, h3⟩ := (hiff w).1 ⟨h, hh, hw⟩
      have := hnum w h1 h2 h3
      rw [hw] at hnone
      simp only at hnone
      rw [if_pos (List.all_eq_true.2 this)] at hnone
      simp at hnone
    · refine ⟨idx, rfl, fun k => ?_⟩
      rw [collected] at hc
      rw [mapM_mem _ _ hc]
      constructor
      · rintro ⟨h, hh, hk⟩
        obtain ⟨w, hw⟩ := hgroups h hh
        obtain ⟨h1, h2, h3⟩ := (hiff w).1 ⟨h, hh, hw⟩
        rw [hw] at hk
        simp only at hk
        rw [if_pos (List.all_eq_true.2 (hnum w h1 h2 h3)), Option.some.injEq] at hk
        exact ⟨w, h1, hnum w h1 h2 h3, hk, h3⟩
      · rintro ⟨ds, h1, h2, rfl, h3⟩
        obtain ⟨h, hh, hg⟩ := (hiff ds).2 ⟨h1, fun c hc => by simp [isWord, h2 c hc], h3⟩
        exact ⟨h, hh, by rw [hg]; simp only; rw [if_pos (List.all_eq_true.2 h2)]⟩
  · intro hnot
    rw [collected, mapM_none_iff]
    simp only [Numeric, Classical.not_forall] at hnot
    obtain ⟨w, h1, h2, h3, c, hc, hd⟩ := hnot
    obtain ⟨h, hh, hg⟩ := (hiff w).2 ⟨h1, h2, h3⟩
    refine ⟨h, hh, ?_⟩
    rw [hg]
    simp only
    rw [if_neg]
    intro hall
    exact hd (List.all_eq_true.1 hall c hc)

/-! ### The check -/

/-- The sides of the entity: none for cells, one for exterior facets, two for interior ones. -/
def IntegralType.sides : IntegralType → Nat
  | .cell => 0
  | .exterior => 1
  | .interior => 2

/-- The type of the numbers of the geometry for a type of scalars. -/
def DType.real : DType → DType
  | .float32 | .complex64 => .float32
  | .float64 | .complex128 => .float64

/-- The text that is checked. -/
def checkedText (loops : List TextLoop) : List Char := (match loops with | [] => [] | l :: _ => l.pre) ++ loops.flatMap (·.body)

theorem targetIndices_mem (ity : IntegralType) (k : Nat) : k ∈ targetIndices ity ↔ k < ity.sides := by
  cases ity <;> simp [targetIndices, IntegralType.sides] <;> omega

theorem sameSet_iff (a b : List Nat) : sameSet a b = true ↔ ∀ k, k ∈ a ↔ k ∈ b := by
  simp only [sameSet, Bool.and_eq_true, List.all_eq_true, decide_eq_true_eq]
  exact ⟨fun h k => ⟨h.1 k, h.2 k⟩, fun h => ⟨fun k => (h k).1, fun k => (h k).2⟩⟩

/-- C84: a kernel is accepted exactly when it is on cells or facets, without sum factorization, with mixed dimensions only on exterior
facets, uses exactly all the sides of the entity (and, if it uses permutations, those of exactly all the sides), always with literal
indices, and the types of the coefficients and of the geometry agree. -/
theorem C84_check (entity : Entity) (ity : IntegralType) (mixedDim tensor : Bool) (coeffs dtype : DType) (loops : List TextLoop) :
    checkInput entity ity mixedDim tensor coeffs dtype loops = true ↔
      (entity = .cell ∨ entity = .facet) ∧ (mixedDim = true → ity = .exterior) ∧ tensor = false ∧
      (Numeric (chars "entity_local_index") (checkedText loops) ∧
        ∀ k, Uses (chars "entity_local_index") k (checkedText loops) ↔ k < ity.sides) ∧
      (Numeric (chars "quadrature_permutation") (checkedText loops) ∧
        ((∀ k, ¬ Uses (chars "quadrature_permutation") k (checkedText loops)) ∨
          ∀ k, Uses (chars "quadrature_permutation") k (checkedText loops) ↔ k < ity.sides)) ∧
      dtype = DType.real coeffs := by
  have h0 : checkInput entity ity mixedDim tensor coeffs dtype loops =
      ((entity = .cell || entity = .facet) && (!mixedDim || ity = .exterior) && !tensor &&
        (match collected (chars "entity_local_index") (checkedText loops) with
          | some idx => sameSet idx (targetIndices ity) | none => false) &&
        (match collected (chars "quadrature_permutation") (checkedText loops) with
          | some idx => idx.isEmpty || sameSet idx (targetIndices ity) | none => false) &&
        (match coeffs with
          | .float32 | .complex64 => (decide (dtype = .float32) : Bool)
          | .float64 | .complex128 => decide (dtype = .float64))) := by
    unfold checkInput
    rfl
  have hE := C84_collected (chars "entity_local_index") (checkedText loops) (by unfold chars; decide)
  have hQ := C84_collected (chars "quadrature_permutation") (checkedText loops) (by unfold chars; decide)
  have h1 : (match collected (chars "entity_local_index") (checkedText loops) with
      | some idx => sameSet idx (targetIndices ity) | none => false) = true ↔
      (Numeric (chars "entity_local_index") (checkedText loops) ∧
        ∀ k, Uses (chars "entity_local_index") k (checkedText loops) ↔ k < ity.sides) := by
    by_cases hn : Numeric (chars "entity_local_index") (checkedText loops)
    · obtain ⟨idx, hc, hm⟩ := hE.1 hn
      rw [hc]
      simp only [sameSet_iff, targetIndices_mem, hm, hn, true_and]
    · rw [hE.2 hn]
      simp [hn]
  have h2 : (match collected (chars "quadrature_permutation") (checkedText loops) with
      | some idx => idx.isEmpty || sameSet idx (targetIndices ity) | none => false) = true ↔
      (Numeric (chars "quadrature_permutation") (checkedText loops) ∧
        ((∀ k, ¬ Uses (chars "quadrature_permutation") k (checkedText loops)) ∨
          ∀ k, Uses (chars "quadrature_permutation") k (checkedText loops) ↔ k < ity.sides)) := by
    by_cases hn : Numeric (chars "quadrature_permutation") (checkedText loops)
    · obtain ⟨idx, hc, hm⟩ := hQ.1 hn
      rw [hc]
      have hempty : idx.isEmpty = true ↔ ∀ k, ¬ Uses (chars "quadrature_permutation") k (checkedText loops) := by
        simp only [← hm]
        rw [List.isEmpty_iff, List.eq_nil_iff_forall_not_mem]
      simp only [Bool.or_eq_true, hempty, sameSet_iff, targetIndices_mem, hm, hn, true_and]
    · rw [hQ.2 hn]
      simp [hn]
  have h3 : (match (generalizing := false) coeffs with
      | .float32 | .complex64 => (decide (dtype = .float32) : Bool)
      | .float64 | .complex128 => decide (dtype = .float64)) = true ↔ dtype = DType.real coeffs := by
    cases coeffs <;> simp [DType.real]
  rw [h0, Bool.and_eq_true, Bool.and_eq_true, Bool.and_eq_true, Bool.and_eq_true, Bool.and_eq_true, h1, h2, h3]
  simp only [Bool.or_eq_true, Bool.not_eq_true', decide_eq_true_eq]
  constructor
  · rintro ⟨⟨⟨⟨⟨a, b⟩, c⟩, d⟩, e⟩, f⟩
    refine ⟨a, fun hm => ?_, c, d, e, f⟩
    rcases b with b | b
    · rw [hm] at b; simp at b
    · exact b
  · rintro ⟨a, b, c, d, e, f⟩
    refine ⟨⟨⟨⟨⟨a, ?_⟩, c⟩, d⟩, e⟩, f⟩
    rcases mixedDim with _ | _
    · exact Or.inl rfl
    · exact Or.inr (b rfl)

/-- C84: an integral on interior facets that needs only one of its two sides is rejected. -/
theorem C84_one_sided_fails (entity : Entity) (mixedDim tensor : Bool) (coeffs dtype : DType) (loops : List TextLoop) (side : Nat)
    (h : ∀ k, Uses (chars "entity_local_index") k (checkedText loops) → k = side) :
    checkInput entity .interior mixedDim tensor coeffs dtype loops = false := by
  rcases hc : checkInput entity .interior mixedDim tensor coeffs dtype loops with _ | _
  · rfl
  · exfalso
    obtain ⟨_, _, _, ⟨_, h4⟩, _⟩ := (C84_check ..).1 hc
    have h0 := h 0 ((h4 0).2 (by decide))
    have h1 := h 1 ((h4 1).2 (by decide))
    omega

/-- C84: an integral on exterior facets that does not need the number of the facet (only piecewise constant tables) is rejected. -/
theorem C84_no_index_fails (entity : Entity) (mixedDim tensor : Bool) (coeffs dtype : DType) (loops : List TextLoop)
    (h : ∀ k, ¬ Uses (chars "entity_local_index") k (checkedText loops)) :
    checkInput entity .exterior mixedDim tensor coeffs dtype loops = false := by
  rcases hc : checkInput entity .exterior mixedDim tensor coeffs dtype loops with _ | _
  · rfl
  · exfalso
    obtain ⟨_, _, _, ⟨_, h4⟩, _⟩ := (C84_check ..).1 hc
    exact h 0 ((h4 0).2 (by decide))

end Qugar.Py.Text
