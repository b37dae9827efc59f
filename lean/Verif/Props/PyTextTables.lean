import Verif.Props.PyCheck
/-
C85: the tables of basis functions are read as they are written, and their order does not depend on the numbers that FFCx gives them.
-/
namespace Qugar.Py.Text
open Regex Kernel

/-! ### How FFCx writes tables -/

/-- The options of a table: derivatives, average, and whether its values are at facets. -/
structure Opts where
  derivatives : Option (List Nat)
  avg : Option Entity
  facets : Bool
deriving DecidableEq

/-- A digit. -/
def digit (n : Nat) : Char := Char.ofNat (48 + n)

/-- `_D10`, `_AC` or `_AF`, and `_F`. -/
def Opts.words (o : Opts) : List (List Char) :=
  (match o.derivatives with | none => [] | some ds => ['D' :: ds.map digit]) ++
  (match o.avg with | none => [] | some .facet => [['A', 'F']] | some _ => [['A', 'C']]) ++
  (if o.facets then [['F']] else [])

/-- The options in the name of the table. -/
def Opts.text (o : Opts) : List Char := o.words.flatMap fun w => '_' :: w

/-- Options that a table for integrals over an entity can have. -/
structure Opts.Ok (entity : Entity) (o : Opts) : Prop where
  digits : ∀ ds, o.derivatives = some ds → ∀ d ∈ ds, d < 10
  avg : ∀ e, o.avg = some e → e = entity ∧ e ≠ .vertex
  facets : o.facets = true → entity = .facet

theorem digit_isDigit {n : Nat} (h : n < 10) : isDigit (digit n) = true ∧ natOf [digit n] = n := by
  have : ∀ n : Nat, n < 10 → isDigit (digit n) = true ∧ natOf [digit n] = n := by decide
  exact this n h

theorem splitUnder_cons (w s : List Char) (hw : '_' ∉ w) : splitUnder (w ++ '_' :: s) = w :: splitUnder s := by
  induction w with
  | nil => rw [List.nil_append, splitUnder, if_pos rfl]
  | cons c w ih =>
    have hc : c ≠ '_' := by rintro rfl; exact hw (List.mem_cons_self ..)
    rw [List.cons_append, splitUnder, if_neg hc, ih fun h => hw (List.mem_cons_of_mem _ h)]

theorem splitUnder_word (w : List Char) (hw : '_' ∉ w) : splitUnder w = [w] := by
  induction w with
  | nil => rfl
  | cons c w ih =>
    have hc : c ≠ '_' := by rintro rfl; exact hw (List.mem_cons_self ..)
    rw [splitUnder, if_neg hc, ih fun h => hw (List.mem_cons_of_mem _ h)]

theorem splitUnder_words (w : List Char) (ws : List (List Char)) (hw : ∀ v ∈ w :: ws, '_' ∉ v) :
    splitUnder (w ++ ws.flatMap fun v => '_' :: v) = w :: ws := by
  induction ws generalizing w with
  | nil => simpa using splitUnder_word w (hw w (List.mem_cons_self ..))
  | cons v ws ih =>
    rw [List.flatMap_cons, List.cons_append, splitUnder_cons w _ (hw w (List.mem_cons_self ..)),
      ih v fun u hu => hw u (List.mem_cons_of_mem _ hu)]

theorem digit_ne {n : Nat} (h : n < 10) : digit n ≠ '_' := by
  have : ∀ n : Nat, n < 10 → digit n ≠ '_' := by decide
  exact this n h

theorem Opts.words_under {entity : Entity} {o : Opts} (h : o.Ok entity) : ∀ w ∈ o.words, '_' ∉ w := by
  intro w hw
  simp only [Opts.words, List.mem_append] at hw
  rcases hw with (hw | hw) | hw
  · cases hd : o.derivatives with
    | none => rw [hd] at hw; simp at hw
    | some ds =>
      rw [hd, List.mem_singleton] at hw
      subst hw
      simp only [List.mem_cons, List.mem_map, not_or, not_exists, not_and]
      exact ⟨by decide, fun d hdd => digit_ne (h.digits ds hd d hdd)⟩
  · cases ha : o.avg with
    | none => rw [ha] at hw; simp at hw
    | some e => cases e <;> (rw [ha, List.mem_singleton] at hw; subst hw; decide)
  · split at hw
    · rw [List.mem_singleton] at hw; subst hw; decide
    · simp at hw

/-- C85: the options are read as they are written. -/
theorem C85_options (entity : Entity) (o : Opts) (h : o.Ok entity) : parseOptions entity o.text = some ⟨o.derivatives, o.avg⟩ := by
  have hfold : o.words.foldlM (parseOption entity) {} = some (⟨o.derivatives, o.avg⟩ : Options) := by
    have h1 : ∀ (x : Options), (if o.facets then [['F']] else []).foldlM (parseOption entity) x = some x := by
      intro x
      rcases hf : o.facets with _ | _
      · rfl
      · have he := h.facets hf
        subst he
        have : parseOption .facet x ['F'] = some x := by
          rw [parseOption]
          · rw [if_neg (by unfold chars; decide), if_neg (by unfold chars; decide), if_pos (by unfold chars; decide), if_pos rfl]
          · decide
          · intro ds hds; exact absurd (congrArg List.head? hds) (by simp)
        simp [this]
    have h2 : ∀ (x : Options), x.avg = none → (match o.avg with | none => [] | some .facet => [['A', 'F']] | some _ => [['A', 'C']]).foldlM
        (parseOption entity) x = some { x with avg := o.avg } := by
      intro x hx
      cases ha : o.avg with
      | none => cases x; simp_all
      | some e =>
        obtain ⟨rfl, hv⟩ := h.avg e ha
        cases e with
        | vertex => exact absurd rfl hv
        | facet =>
          have : parseOption .facet x ['A', 'F'] = some { x with avg := some .facet } := by
            rw [parseOption]
            · rw [if_neg (by unfold chars; decide), if_pos (by unfold chars; decide), if_pos rfl]
            · decide
            · intro ds hds; exact absurd (congrArg List.head? hds) (by simp)
          simp [this]
        | cell =>
          have : parseOption .cell x ['A', 'C'] = some { x with avg := some .cell } := by
            rw [parseOption]
            · rw [if_pos (by unfold chars; decide), if_pos rfl]
            · decide
            · intro ds hds; exact absurd (congrArg List.head? hds) (by simp)
          simp [this]
    have h3 : (match o.derivatives with | none => [] | some ds => ['D' :: ds.map digit]).foldlM (parseOption entity) ({} : Options) =
        some ⟨o.derivatives, none⟩ := by
      cases hd : o.derivatives with
      | none => rfl
      | some ds =>
        have hall : (ds.map digit).all isDigit = true := by
          rw [List.all_eq_true]
          intro c hc
          obtain ⟨d, hdd, rfl⟩ := List.mem_map.1 hc
          exact (digit_isDigit (h.digits ds hd d hdd)).1
        have hval : (ds.map digit).map (fun c => natOf [c]) = ds := by
          rw [List.map_map]
          conv => rhs; rw [← List.map_id ds]
          refine List.map_congr_left fun d hdd => ?_
          exact (digit_isDigit (h.digits ds hd d hdd)).2
        have : parseOption entity {} ('D' :: ds.map digit) = some ⟨some ds, none⟩ := by
          rw [parseOption, if_pos hall, hval]
        simp [this]
    rw [Opts.words, List.foldlM_append, List.foldlM_append, h3]
    simp only [Option.bind_eq_bind, Option.bind_some]
    rw [h2 _ rfl]
    simp only [Option.bind_some]
    rw [h1]
  cases hw : o.words with
  | nil =>
    rw [Opts.text, hw, List.flatMap_nil, parseOptions]
    rw [hw] at hfold
    simpa using hfold
  | cons w ws =>
    rw [Opts.text, hw, List.flatMap_cons, List.cons_append, parseOptions, if_pos rfl,
      splitUnder_words w ws fun v hv => Opts.words_under h v (hw ▸ hv), ← hw]
    exact hfold

/-- C85: the orders of derivation, one per direction: those that are written, or 0. -/
theorem C85_derivatives (entity : Entity) (o : Opts) (h : o.Ok entity) (dim : Nat) (hl : ∀ ds, o.derivatives = some ds → ds.length = dim) :
    (parseOptions entity o.text).map (fun p => p.derivs dim) = some (o.derivatives.getD (List.replicate dim 0)) := by
  rw [C85_options entity o h, Option.map_some, Options.derivs]
  cases hd : o.derivatives with
  | none => rfl
  | some ds =>
    simp only [Option.getD_some, Option.some.injEq]
    split
    · rename_i hz
      have hall : ∀ d ∈ ds, d = 0 := fun d hdd => by simpa using List.all_eq_true.1 hz d hdd
      rw [List.eq_replicate_of_mem hall, hl ds hd]
    · rfl

/-- The declaration of a table. -/
structure Decl where
  type : DType
  id : Nat
  component : Nat
  opts : Opts
  quad : List Char
  perms : Nat
  ents : Nat
  pts : Nat
  funcs : Nat
  values : List Char

/-- `FE0_C0_D10_Q083`, without `FE`. -/
def Decl.ident (d : Decl) : List Char :=
  Nat.toDigits 10 d.id ++ (['_', 'C'] ++ (Nat.toDigits 10 d.component ++ (d.opts.text ++ (['_', 'Q'] ++ d.quad))))

/-- `[n]`. -/
def sizeText (n : Nat) (rest : List Char) : List Char := '[' :: (Nat.toDigits 10 n ++ ']' :: rest)

/-- `[1][1][3][3] = {...};`. -/
def Decl.tail (d : Decl) : List Char :=
  sizeText d.perms <| sizeText d.ents <| sizeText d.pts <| sizeText d.funcs <| [' ', '=', ' ', '{'] ++ (d.values ++ ['}', ';'])

/-- `static const double FE0_C0_D10_Q083[1][1][3][3] = {...};`. -/
def Decl.text (d : Decl) : List Char :=
  chars "static" ++ ([' '] ++ (chars "const" ++ ([' '] ++ (chars (toC d.type) ++ ([' '] ++ (['F', 'E'] ++ (d.ident ++ d.tail)))))))

/-- What FFCx writes: the name of the quadrature has only digits and small letters, values are numbers, commas and braces. -/
structure Decl.Ok (entity : Entity) (d : Decl) : Prop where
  type : d.type = .float32 ∨ d.type = .float64
  opts : d.opts.Ok entity
  quad : d.quad ≠ [] ∧ ∀ c ∈ d.quad, isWord c = true ∧ c ≠ '_'
  values : '_' ∉ d.values ∧ ';' ∉ d.values ∧ 'F' ∉ d.values

theorem Opts.text_word {entity : Entity} {o : Opts} (h : o.Ok entity) : ∀ c ∈ o.text, isWord c = true := by
  intro c hc
  simp only [Opts.text, List.mem_flatMap, List.mem_cons] at hc
  obtain ⟨w, hw, rfl | hc⟩ := hc
  · decide
  · simp only [Opts.words, List.mem_append] at hw
    rcases hw with (hw | hw) | hw
    · cases hd : o.derivatives with
      | none => rw [hd] at hw; simp at hw
      | some ds =>
        rw [hd, List.mem_singleton] at hw
        subst hw
        simp only [List.mem_cons, List.mem_map] at hc
        rcases hc with rfl | ⟨d, hdd, rfl⟩
        · decide
        · simp [isWord, (digit_isDigit (h.digits ds hd d hdd)).1]
    · cases ha : o.avg with
      | none => rw [ha] at hw; simp at hw
      | some e =>
        cases e <;> (
          rw [ha, List.mem_singleton] at hw
          subst hw
          simp only [List.mem_cons, List.not_mem_nil, or_false] at hc
          rcases hc with rfl | rfl <;> decide)
    · split at hw
      · rw [List.mem_singleton] at hw
        subst hw
        rw [List.mem_singleton] at hc
        subst hc
        decide
      · simp at hw

theorem Opts.text_head (o : Opts) : ∀ c ∈ o.text.head?, c = '_' := by
  rw [Opts.text]
  cases o.words with
  | nil => simp
  | cons w ws => simp

theorem word_ne_newline {c : Char} (h : isWord c = true) : c ≠ '\n' := by
  rintro rfl
  exact absurd h (by decide)

theorem word_ne_semicolon {c : Char} (h : isWord c = true) : c ≠ ';' := by
  rintro rfl
  exact absurd h (by decide)

theorem digit_word {c : Char} (h : isDigit c = true) : isWord c = true := by simp [isWord, h]

theorem Decl.ident_word {entity : Entity} {d : Decl} (h : d.Ok entity) : ∀ c ∈ d.ident, isWord c = true := by
  intro c hc
  simp only [Decl.ident, List.mem_append, List.mem_cons, List.not_mem_nil, or_false] at hc
  rcases hc with hc | (rfl | rfl) | hc | hc | (rfl | rfl) | hc
  · exact digit_word (digits_isDigit _ c hc)
  · decide
  · decide
  · exact digit_word (digits_isDigit _ c hc)
  · exact Opts.text_word h.opts c hc
  · decide
  · decide
  · exact (h.quad.2 c hc).1

/-! ### The pattern -/

/-- `FE` and a digit, after spaces, at the beginning of the text. -/
def StartsTable (s : List Char) : Prop := ∃ b d z, Blank b ∧ isDigit d = true ∧ s = b ++ 'F' :: 'E' :: d :: z

/-- The part of the pattern after the type. -/
theorem after_type_none {β : Type} {R : Rx} {b : List Char} {gs : List (List Char)} {k : List Char → List (List Char) → Option β}
    (h : ∀ sp d z, Blank sp → sp ≠ [] → isDigit d = true → b ≠ sp ++ 'F' :: 'E' :: d :: z) :
    (some1 isSpace <| lit (chars "FE") <| gsome1 isDigit R).run b gs k = none := by
  rcases hr : (some1 isSpace <| lit (chars "FE") <| gsome1 isDigit R).run b gs k with _ | v
  · rfl
  · exfalso
    obtain ⟨u, rest', g, hu, hl, _⟩ := run_sound _ _ _ _ hr
    simp only [lang_some1, lang_lit, lang_gsome1, chars_FE] at hl
    obtain ⟨sp, _, rfl, hspn, hsp, _, rfl, ds, t, _, rfl, _, hdn, hd, _⟩ := hl
    obtain ⟨d, ds', rfl⟩ := List.exists_cons_of_ne_nil hdn
    exact h sp d (ds' ++ t ++ rest') hsp hspn (hd d (List.mem_cons_self ..)) (by rw [hu]; simp)

/-- Where a newline is in a text of two parts. -/
theorem newline_split {P Q A B : List Char} (h : P ++ '\n' :: Q = A ++ B) :
    (∃ A', A = P ++ '\n' :: A' ∧ Q = A' ++ B) ∨ ∃ P', P = A ++ P' ∧ B = P' ++ '\n' :: Q := by
  rcases List.append_eq_append_iff.1 h with ⟨a', h1, h2⟩ | ⟨c', h1, h2⟩
  · cases a' with
    | nil => exact Or.inr ⟨[], by simpa using h1.symm, by simpa using h2.symm⟩
    | cons c a' =>
      simp only [List.cons_append, List.cons.injEq] at h2
      obtain ⟨rfl, h2⟩ := h2
      exact Or.inl ⟨a', h1, h2⟩
  · exact Or.inr ⟨c', h1, h2⟩

theorem type_long {y1 y2 rest a b : List Char} (h1 : ∀ c ∈ y1, isSpace c = false) (h2 : 'F' ∉ y2) (hr : ¬ StartsTable rest)
    (hx : ' ' :: (y1 ++ (y2 ++ '\n' :: rest)) = a ++ b) (ha : a ≠ []) (hn : '\n' ∉ a) (sp : List Char) (d : Char) (z : List Char)
    (hsp : Blank sp) (hspn : sp ≠ []) (hd : isDigit d = true) : b ≠ sp ++ 'F' :: 'E' :: d :: z := by
  rintro rfl
  obtain ⟨c, a', rfl⟩ := List.exists_cons_of_ne_nil ha
  simp only [List.cons_append, List.cons.injEq] at hx
  obtain ⟨rfl, hx⟩ := hx
  have hn' : '\n' ∉ a' := fun hm => hn (List.mem_cons_of_mem _ hm)
  rw [← List.append_assoc] at hx
  rcases newline_split hx with ⟨A', h3, _⟩ | ⟨P', h3, h4⟩
  · exact hn' (h3 ▸ by simp)
  · rcases newline_split h4.symm with ⟨A', h5, h6⟩ | ⟨P'', h5, h6⟩
    · -- the newline is one of the spaces
      exact hr ⟨A', d, z, fun c hc => hsp c (by rw [h5]; simp [hc]), hd, h6⟩
    · -- the text of the table is before the newline
      have hF : 'F' ∈ P'' := by
        cases P'' with
        | nil => simp at h6
        | cons c P'' =>
          simp only [List.cons_append, List.cons.injEq] at h6
          exact h6.1 ▸ List.mem_cons_self ..
      obtain ⟨s, sp', rfl⟩ : ∃ s sp', sp = sp' ++ [s] := by
        rcases List.eq_nil_or_concat sp with rfl | ⟨sp', s, rfl⟩
        · exact absurd rfl hspn
        · exact ⟨s, sp', by simp⟩
      subst h5
      rw [show a' ++ (sp' ++ [s] ++ P'') = (a' ++ sp') ++ s :: P'' by simp] at h3
      rcases List.append_eq_append_iff.1 h3 with ⟨w, _, h8⟩ | ⟨w, h7, h8⟩
      · exact h2 (by rw [h8]; simp [hF])
      · cases w with
        | nil =>
          rw [List.nil_append] at h8
          exact h2 (by rw [← h8]; simp [hF])
        | cons c w =>
          simp only [List.cons_append, List.cons.injEq] at h8
          obtain ⟨rfl, _⟩ := h8
          have h9 := h1 s (by rw [h7]; simp)
          rw [hsp s (by simp)] at h9
          simp at h9

theorem under_long {y rest a b : List Char} (hy : '_' ∉ y) (hx : '_' :: (y ++ '\n' :: rest) = a ++ b) (ha : a ≠ []) (hn : '\n' ∉ a) :
    ¬ chars "_Q" <+: b := by
  rw [show chars "_Q" = ['_', 'Q'] by unfold chars; decide]
  rintro ⟨z, rfl⟩
  obtain ⟨c, a', rfl⟩ := List.exists_cons_of_ne_nil ha
  simp only [List.cons_append, List.cons.injEq] at hx
  obtain ⟨rfl, hx⟩ := hx
  rcases newline_split hx with ⟨A', h3, _⟩ | ⟨P', h3, h4⟩
  · exact hn (by rw [h3]; simp)
  · cases P' with
    | nil => simp at h4
    | cons c P' =>
      simp only [List.cons_append, List.nil_append, List.cons.injEq] at h4
      exact hy (by rw [h3, ← h4.1]; simp)

theorem run_size {β : Type} {R : Rx} {n : Nat} {rest : List Char} {gs : List (List Char)} {k : List Char → List (List Char) → Option β} {v : β}
    (h : R.run rest (gs ++ [Nat.toDigits 10 n]) k = some v) : (size R).run (sizeText n rest) gs k = some v := by
  rw [size, sizeText]
  refine run_many (u := []) (x := '[' :: (Nat.toDigits 10 n ++ ']' :: rest)) (by simp) (stop_cons (by decide)) ?_
  rw [chars_open, show '[' :: (Nat.toDigits 10 n ++ ']' :: rest) = ['['] ++ (Nat.toDigits 10 n ++ ']' :: rest) from rfl, run_lit]
  obtain ⟨d, ds, hds, hd⟩ := digits_cons n
  refine run_many (u := []) (x := Nat.toDigits 10 n ++ ']' :: rest) (by simp) ?_ ?_
  · rw [hds]
    exact stop_cons (word_not_space (digit_word hd))
  refine run_gsome1 Nat.toDigits_ne_nil (digits_isDigit n) (stop_cons (by decide)) ?_
  refine run_many (u := []) (x := ']' :: rest) (by simp) (stop_cons (by decide)) ?_
  rw [chars_close, show ']' :: rest = [']'] ++ rest from rfl, run_lit]
  exact h

theorem sizeText_append (n : Nat) (a b : List Char) : sizeText n a ++ b = sizeText n (a ++ b) := by simp [sizeText]

/-- The groups of the pattern. -/
def Decl.groups (d : Decl) : List (List Char) :=
  [chars (toC d.type), Nat.toDigits 10 d.id, Nat.toDigits 10 d.component, d.opts.text, d.quad, Nat.toDigits 10 d.perms,
    Nat.toDigits 10 d.ents, Nat.toDigits 10 d.pts, Nat.toDigits 10 d.funcs, d.values]

theorem matchAt_decl {entity : Entity} (d : Decl) (h : d.Ok entity) (rest : List Char) (hr : ¬ StartsTable rest) :
    feTable.matchAt (d.text ++ '\n' :: rest) = some ('\n' :: rest, d.groups) := by
  have hC : chars "_C" = ['_', 'C'] := by unfold chars; decide
  have hQ : chars "_Q" = ['_', 'Q'] := by unfold chars; decide
  have hE : chars "=" = ['='] := by unfold chars; decide
  have hO : chars "{" = ['{'] := by unfold chars; decide
  have hcl : chars "}" = ['}'] := by unfold chars; decide
  have hS : chars ";" = [';'] := by unfold chars; decide
  have htype : ∃ c l, chars (toC d.type) = c :: l ∧ isSpace c = false ∧ ∀ e ∈ chars (toC d.type), (decide (e ≠ '\n')) = true := by
    rcases h.type with ht | ht <;> rw [ht]
    · exact ⟨'f', chars "loat", by unfold chars toC; decide, by decide, by unfold chars toC; decide⟩
    · exact ⟨'d', chars "ouble", by unfold chars toC; decide, by decide, by unfold chars toC; decide⟩
  obtain ⟨c0, l0, hc0, hsp0, hnl0⟩ := htype
  -- sizes have no spaces, no `_`, no `F`
  have hdig : ∀ n : Nat, ∀ c ∈ Nat.toDigits 10 n, isSpace c = false ∧ c ≠ '_' := fun n c hc =>
    ⟨word_not_space (digit_word (digits_isDigit n c hc)), by
      rintro rfl
      exact absurd (digits_isDigit n _ hc) (by decide)⟩
  have hsizes : ∃ z, d.tail = z ++ ([' ', '=', ' ', '{'] ++ (d.values ++ ['}', ';'])) ∧ ∀ c ∈ z, isSpace c = false ∧ c ≠ '_' := by
    refine ⟨sizeText d.perms (sizeText d.ents (sizeText d.pts (sizeText d.funcs []))), by simp [Decl.tail, sizeText], ?_⟩
    have step : ∀ (n : Nat) (z : List Char), (∀ c ∈ z, isSpace c = false ∧ c ≠ '_') → ∀ c ∈ sizeText n z, isSpace c = false ∧ c ≠ '_' := by
      intro n z hz c hc
      simp only [sizeText, List.mem_cons, List.mem_append] at hc
      rcases hc with rfl | hc | rfl | hc
      · decide
      · exact hdig n c hc
      · decide
      · exact hz c hc
    exact step _ _ (step _ _ (step _ _ (step _ _ (by simp))))
  obtain ⟨z, hz, hzz⟩ := hsizes
  rw [Decl.text]
  simp only [List.append_assoc]
  rw [Rx.matchAt, feTable, run_lit]
  refine run_some1 (u := [' ']) (by simp) (by decide) ?_ ?_
  · rw [show chars "const" = 'c' :: chars "onst" by unfold chars; decide]
    exact stop_cons (by decide)
  rw [run_lit]
  refine run_some1 (u := [' ']) (by simp) (by decide) ?_ ?_
  · rw [hc0]
    exact stop_cons hsp0
  refine run_gsome1_long (by rw [hc0]; simp) hnl0 ?_ ?_
  · intro a b hx ha hn gs'
    refine after_type_none fun sp dd zz hsp hspn hdd => ?_
    refine type_long (y1 := ['F', 'E'] ++ (d.ident ++ z)) (y2 := [' ', '=', ' ', '{'] ++ (d.values ++ ['}', ';'])) (rest := rest) ?_ ?_ hr
      (by rw [← hx, hz]; simp) ha (fun hm => by simpa using hn _ hm) sp dd zz hsp hspn hdd
    · intro c hc
      simp only [List.mem_append, List.mem_cons, List.not_mem_nil, or_false] at hc
      rcases hc with (rfl | rfl) | hc | hc
      · decide
      · decide
      · exact word_not_space (Decl.ident_word h c hc)
      · exact (hzz c hc).1
    · simp only [List.mem_append, not_or]
      exact ⟨by decide, h.values.2.2, by decide⟩
  refine run_some1 (u := [' ']) (by simp) (by decide) (stop_cons (by decide)) ?_
  rw [chars_FE, run_lit, Decl.ident]
  simp only [List.append_assoc]
  refine run_gsome1 Nat.toDigits_ne_nil (digits_isDigit _) (stop_cons (by decide)) ?_
  rw [hC, run_lit]
  refine run_gsome1 Nat.toDigits_ne_nil (digits_isDigit _) ?_ ?_
  · intro c hc
    have := Opts.text_head d.opts
    cases ho : d.opts.text with
    | nil =>
      rw [ho] at hc
      simp only [List.nil_append, List.cons_append, List.head?_cons, Option.mem_def, Option.some.injEq] at hc
      rw [← hc]
      decide
    | cons e l =>
      rw [ho] at hc this
      simp only [List.cons_append, List.head?_cons, Option.mem_def, Option.some.injEq] at hc this
      rw [← hc, this e rfl]
      decide
  refine run_gmany (fun c hc => by simpa using word_ne_newline (Opts.text_word h.opts c hc)) ?_ ?_
  · intro a b hx ha hn gs'
    refine run_lit_none _ _ _ _ _ (under_long (y := 'Q' :: (d.quad ++ d.tail)) (rest := rest) ?_ (by rw [← hx]; simp) ha
      (fun hm => by simpa using hn _ hm))
    rw [hz]
    simp only [List.mem_append, List.mem_cons, List.not_mem_nil, or_false, not_or]
    exact ⟨by decide, fun hm => (h.quad.2 _ hm).2 rfl, fun hm => (hzz _ hm).2 rfl, by decide, h.values.1, by decide⟩
  rw [hQ, run_lit]
  refine run_gsome1 h.quad.1 (fun c hc => (h.quad.2 c hc).1) ?_ ?_
  · rw [Decl.tail, sizeText_append, sizeText]
    exact stop_cons (by decide)
  rw [Decl.tail]
  simp only [sizeText_append]
  refine run_size (run_size (run_size (run_size ?_)))
  rw [hE, hO, hcl, hS]
  simp only [List.append_assoc]
  have hfin : ∀ gs, ((lit ['}'] <| many isSpace <| lit [';'] .eps).run (['}', ';'] ++ '\n' :: rest) gs fun s' gs => some (s', gs)) =
      some ('\n' :: rest, gs) := by
    intro gs
    rw [show (['}', ';'] : List Char) ++ '\n' :: rest = ['}'] ++ (';' :: '\n' :: rest) from rfl, run_lit]
    refine run_many (u := []) (x := ';' :: '\n' :: rest) (by simp) (stop_cons (by decide)) ?_
    rw [show ';' :: '\n' :: rest = [';'] ++ ('\n' :: rest) from rfl, run_lit]
    rfl
  refine run_many (u := [' ']) (x := ['='] ++ ([' '] ++ (['{'] ++ (d.values ++ (['}', ';'] ++ '\n' :: rest))))) (by decide)
    (stop_cons (by decide)) ?_
  rw [run_lit]
  refine run_many (u := [' ']) (x := ['{'] ++ (d.values ++ (['}', ';'] ++ '\n' :: rest))) (by decide) (stop_cons (by decide)) ?_
  rw [run_lit]
  refine run_gmany (fun c hc => ?_) ?_ ?_
  · rw [decide_eq_true_eq]
    rintro rfl
    exact h.values.2.1 hc
  · intro a b hx ha hn gs'
    refine run_lit_none _ _ _ _ _ ?_
    rintro ⟨w, rfl⟩
    obtain ⟨c, a', rfl⟩ := List.exists_cons_of_ne_nil ha
    simp only [List.cons_append, List.nil_append, List.cons.injEq] at hx
    cases a' with
    | nil => simp at hx
    | cons e a' =>
      simp only [List.cons_append, List.cons.injEq] at hx
      have := hn e (by simp)
      rw [← hx.2.1] at this
      simp at this
  rw [hfin]
  rfl

/-! ### Reading one table -/

/-- What is read. -/
def Decl.table (d : Decl) (kind : TableType) : Table where
  code := d.text
  name := ['F', 'E'] ++ d.ident
  quad := d.quad
  dtype := d.type
  id := d.id
  component := d.component
  options := ⟨d.opts.derivatives, d.opts.avg⟩
  type := kind
  permutations := d.perms
  entities := d.ents
  points := d.pts
  funcs := d.funcs

theorem parseName_decl {entity : Entity} (d : Decl) (h : d.Ok entity) : parseName d.text = some (['F', 'E'] ++ d.ident) := by
  have htype : ∃ c l, chars (toC d.type) = c :: l ∧ ∀ e ∈ chars (toC d.type), isWord e = true := by
    rcases h.type with ht | ht <;> rw [ht]
    · exact ⟨'f', chars "loat", by unfold chars toC; decide, by unfold chars toC; decide⟩
    · exact ⟨'d', chars "ouble", by unfold chars toC; decide, by unfold chars toC; decide⟩
  obtain ⟨c0, l0, hc0, hw0⟩ := htype
  have htail : ∃ t, d.tail = '[' :: t := ⟨_, rfl⟩
  obtain ⟨t, ht⟩ := htail
  have hs : feName.search d.text = some (⟨chars "static" ++ [' '], chars "const" ++ ([' '] ++ (chars (toC d.type) ++ ([' '] ++ (['F', 'E'] ++
      (d.ident ++ ['[']))))), [d.ident]⟩, t) := by
    have := search_eq feName (chars "static" ++ [' ']) (chars "const" ++ ([' '] ++ (chars (toC d.type) ++ ([' '] ++ (['F', 'E'] ++
      (d.ident ++ ['[']))))) ) t (g := [d.ident]) (by
        rw [show chars "const" = 'c' :: chars "onst" by unfold chars; decide]
        simp) (by
        intro i hi
        rw [feName]
        refine matchAt_lit_none ?_
        rw [List.append_assoc, List.append_assoc (chars "const")]
        exact lit_first (by unfold chars; decide) (by unfold chars; decide) i hi) (by
        simp only [List.append_assoc]
        rw [Rx.matchAt, feName, run_lit]
        refine run_some1 (u := [' ']) (by simp) (by decide) ?_ ?_
        · rw [hc0]
          exact stop_cons (word_not_space (hw0 c0 (by rw [hc0]; simp)))
        refine run_some1 (by rw [hc0]; simp) hw0 (stop_cons (by decide)) ?_
        refine run_some1 (u := [' ']) (by simp) (by decide) (stop_cons (by decide)) ?_
        rw [chars_FE, run_lit]
        refine run_gmany (fun c hc => by simp [Decl.ident_word h c hc]) (fun a b hx ha hn => ?_) ?_
        · exact (stop_long (p := fun c => isWord c || c = '|') (stop_cons (by decide)) hx ha hn).elim
        refine run_many (u := []) (x := ['['] ++ t) (by simp) (stop_cons (by decide)) ?_
        rw [chars_open, run_lit]
        rfl)
    rw [← this, Decl.text, ht]
    simp
  rw [parseName, hs, chars_FE]
  rfl

/-- C85: a table is read as it is written: its name, its quadrature, its type, its element (number and component), its derivatives and
average, and its sizes. -/
theorem C85_table (entity : Entity) (types : List Char → Option TableType) (quads : List (List Char)) (d : Decl) (h : d.Ok entity)
    (rest : List Char) (hr : ¬ StartsTable rest) (kind : TableType) (hk : types (['F', 'E'] ++ d.ident) = some kind)
    (hkind : kind ∈ [TableType.uniform, .varying, .fixed, .piecewise]) (hq : d.quad ∈ quads) (he : entity ≠ .vertex) :
    parseTable entity types quads (d.text ++ '\n' :: rest) = some (d.table kind) := by
  have hne : d.text ≠ [] := by
    rw [Decl.text, show chars "static" = 's' :: chars "tatic" by unfold chars; decide]
    simp
  have hs := search_eq feTable [] d.text ('\n' :: rest) hne (by simp) (matchAt_decl d h rest hr)
  rw [List.nil_append] at hs
  have hty : realOfC (String.ofList (chars (toC d.type))) = some d.type := by
    unfold chars
    rw [String.ofList_toList]
    rcases h.type with ht | ht <;> rw [ht] <;> decide
  have he' : entity ∈ [Entity.cell, .facet] := by
    cases entity with
    | vertex => exact absurd rfl he
    | facet => simp
    | cell => simp
  rw [parseTable, hs]
  simp only [Decl.groups]
  rw [parseName_decl d h, hty, C85_options entity d.opts h.opts]
  simp only
  rw [hk]
  simp only
  rw [if_pos ⟨he', hkind, hq⟩]
  simp only [natOf_digits, Decl.table]

/-! ### Reading all of them -/

/-- The text between two declarations: complete lines without tables (the last one does not end in `const`), and spaces. -/
structure GapOk (g : List Char) : Prop where
  lines : ∃ l b, g = l ++ b ∧ Blank b ∧ (l = [] ∨ ∃ l' e, l = l' ++ [e, '\n'] ∧ isSpace e = false ∧ e ≠ 't')
  noTable : ∀ d, isDigit d = true → ¬ ['F', 'E', d] <:+: g

theorem gap_none {g z : List Char} (hg : GapOk g) (i : Nat) (hi : i < g.length) : feTable.matchAt ((g ++ 's' :: z).drop i) = none := by
  rcases hm : feTable.matchAt ((g ++ 's' :: z).drop i) with _ | ⟨rest, gs⟩
  · rfl
  exfalso
  obtain ⟨t, ht, hl⟩ := matchAt_sound _ hm
  rw [List.drop_append_of_le_length (Nat.le_of_lt hi)] at ht
  rw [feTable] at hl
  simp only [lang_lit, lang_some1, lang_gsome1] at hl
  obtain ⟨_, rfl, s1, _, rfl, h1n, h1, _, rfl, s2, _, rfl, h2n, h2, X, _, _, rfl, _, hXn, hX, s3, _, rfl, h3n, h3, _, rfl, ds, t', _, rfl, _,
    hdn, hd, _⟩ := hl
  obtain ⟨c, ds', rfl⟩ := List.exists_cons_of_ne_nil hdn
  have hc := hd c (List.mem_cons_self ..)
  obtain ⟨⟨l, b, rfl, hb, hlines⟩, hno⟩ := hg
  have hstat : ∃ w, chars "static" = 's' :: w := ⟨chars "tatic", by unfold chars; decide⟩
  obtain ⟨w, hw⟩ := hstat
  -- the match begins in the lines
  have hil : i < l.length := by
    rcases Nat.lt_or_ge i l.length with h | h
    · exact h
    · exfalso
      have hb' : ∃ e b', (l ++ b).drop i = e :: b' ∧ e ∈ b := by
        rw [List.drop_append, List.drop_eq_nil_of_le h, List.nil_append]
        rcases hdb : b.drop (i - l.length) with _ | ⟨e, b'⟩
        · have := congrArg List.length hdb
          simp only [List.length_drop, List.length_nil, List.length_append] at this hi
          omega
        · exact ⟨e, b', rfl, List.mem_of_mem_drop (hdb ▸ List.mem_cons_self ..)⟩
      obtain ⟨e, b', he, hmem⟩ := hb'
      rw [he, hw] at ht
      simp only [List.cons_append, List.cons.injEq] at ht
      have := hb e hmem
      rw [ht.1] at this
      exact absurd this (by decide)
  rcases hlines with rfl | ⟨l', e, rfl, he, het⟩
  · simp at hil
  have hG : (l' ++ [e, '\n'] ++ b).drop i = ((l' ++ [e]).drop i) ++ '\n' :: b := by
    have : i ≤ (l' ++ [e]).length := by
      simp only [List.length_append, List.length_cons, List.length_nil] at hil ⊢
      omega
    rw [show l' ++ [e, '\n'] ++ b = (l' ++ [e]) ++ '\n' :: b by simp, List.drop_append_of_le_length this]
  rw [hG] at ht
  have hP : ∀ A P', (l' ++ [e]).drop i = A ++ P' → P' ≠ [] → P'.getLast? = some e := by
    intro A P' hAP hne
    have h5 : ((l' ++ [e]).drop i).getLast? = some e := by
      have h6 := List.getLast?_drop (l := l' ++ [e]) (i := i)
      rw [h6, if_neg, List.getLast?_concat]
      intro hle
      have := congrArg List.length hAP
      simp only [List.length_drop, List.length_append] at this hle
      have := List.length_pos_of_ne_nil hne
      omega
    rw [hAP, List.getLast?_append_of_ne_nil _ hne] at h5
    exact h5
  have first : ∀ (x y : List Char) (f : Char) (q : List Char), Blank x → isSpace f = false → b ++ 's' :: y = x ++ f :: q → f = 's' := by
    intro x y f q hx hf hxy
    have := munch (p := isSpace) hb hx (stop_cons (by decide)) (stop_cons hf) hxy
    subst this
    have := List.append_cancel_left hxy
    simp only [List.cons.injEq] at this
    exact this.1.symm
  rw [List.append_assoc, List.cons_append] at ht
  have hconst : ∃ w, chars "const" = 'c' :: w := ⟨chars "onst", by unfold chars; decide⟩
  obtain ⟨w2, hw2⟩ := hconst
  simp only [List.append_assoc] at ht
  rcases newline_split ht with ⟨A', h5, _⟩ | ⟨P1, h5, h6⟩
  · have : '\n' ∈ chars "static" := by rw [h5]; simp
    exact absurd this (by unfold chars; decide)
  rcases newline_split h6.symm with ⟨A', h7, h8⟩ | ⟨P2, h7, h8⟩
  · rw [hw2, List.cons_append] at h8
    have := first A' z 'c' _ (fun c hc => h1 c (by rw [h7]; simp [hc])) (by decide) h8
    exact absurd this (by decide)
  rcases newline_split h8.symm with ⟨A', h9, _⟩ | ⟨P3, h9, h10⟩
  · have : '\n' ∈ chars "const" := by rw [h9]; simp
    exact absurd this (by unfold chars; decide)
  rcases newline_split h10.symm with ⟨A', h11, h12⟩ | ⟨P4, h11, h12⟩
  · cases P3 with
    | nil =>
      rw [List.append_nil] at h9
      subst h9
      have := hP (chars "static" ++ s1) (chars "const") (by rw [h5, h7]; simp) (by unfold chars; decide)
      rw [show (chars "const").getLast? = some 't' by unfold chars; decide] at this
      simp only [Option.some.injEq] at this
      exact het this.symm
    | cons f P3 =>
      have := hP (chars "static" ++ (s1 ++ chars "const")) (f :: P3) (by rw [h5, h7, h9]; simp) (by simp)
      have hmem : e ∈ f :: P3 := List.mem_of_getLast? this
      have := h2 e (by rw [h11]; simp only [List.mem_append]; exact Or.inl hmem)
      rw [he] at this
      simp at this
  rcases newline_split h12.symm with ⟨A', h13, _⟩ | ⟨P5, h13, h14⟩
  · have := hX '\n' (by rw [h13]; simp)
    simp at this
  rcases newline_split h14.symm with ⟨A', h15, h16⟩ | ⟨P6, h15, h16⟩
  · rw [chars_FE] at h16
    have := first A' z 'F' _ (fun c hc => h3 c (by rw [h15]; simp [hc])) (by decide) h16
    exact absurd this (by decide)
  -- the table is before the newline
  rw [chars_FE] at h16
  have hin : ['F', 'E', c] <+: P6 := by
    match P6, h16 with
    | [], h16 => simp at h16
    | [f], h16 => simp at h16
    | [f, f'], h16 =>
      simp only [List.cons_append, List.nil_append, List.cons.injEq] at h16
      rw [h16.2.2.1] at hc
      exact absurd hc (by decide)
    | f :: f' :: f'' :: P, h16 =>
      simp only [List.cons_append, List.nil_append, List.cons.injEq] at h16
      exact ⟨P, by rw [h16.1, h16.2.1, h16.2.2.1]; rfl⟩
  refine hno c hc ?_
  obtain ⟨P, hPP⟩ := hin
  refine List.IsInfix.trans ?_ ((List.drop_suffix i _).isInfix : (l' ++ [e, '\n'] ++ b).drop i <:+: _)
  rw [hG, h5, h7, h9, h11, h13, h15, ← hPP]
  exact ⟨chars "static" ++ (s1 ++ (chars "const" ++ (s2 ++ (X ++ s3)))), P ++ '\n' :: b, by simp⟩

/-- The code: the declarations, each with the text before it, and the text after the last one. -/
def regionText (ps : List (List Char × Decl)) (last : List Char) : List Char := (ps.flatMap fun p => p.1 ++ p.2.text) ++ last

/-- How FFCx writes it: declarations end their lines. -/
structure RegionOk (entity : Entity) (ps : List (List Char × Decl)) (last : List Char) : Prop where
  decl : ∀ p ∈ ps, p.2.Ok entity
  gap : ∀ p ∈ ps, GapOk p.1
  lineEnd : ∀ p ∈ ps.tail, p.1.head? = some '\n'
  last : last.head? = some '\n' ∧ ¬ chars "static" <:+: last ∧ ¬ StartsTable last.tail

theorem decl_head (d : Decl) : ∃ z, d.text = 's' :: z := by
  refine ⟨chars "tatic" ++ ([' '] ++ (chars "const" ++ ([' '] ++ (chars (toC d.type) ++ ([' '] ++ (['F', 'E'] ++ (d.ident ++ d.tail))))))), ?_⟩
  rw [Decl.text, show chars "static" = 's' :: chars "tatic" by unfold chars; decide]
  rfl

theorem gap_start {g z : List Char} (hg : ∀ d, isDigit d = true → ¬ ['F', 'E', d] <:+: g) : ¬ StartsTable (g ++ 's' :: z) := by
  rintro ⟨b, d, y, hb, hd, h⟩
  rw [show b ++ 'F' :: 'E' :: d :: y = (b ++ ['F', 'E', d]) ++ y by simp] at h
  rcases List.append_eq_append_iff.1 h with ⟨w, h1, h2⟩ | ⟨w, h1, h2⟩
  · cases w with
    | nil =>
      rw [List.append_nil] at h1
      exact hg d hd ⟨b, [], by rw [← h1]; simp⟩
    | cons c w =>
      simp only [List.cons_append, List.cons.injEq] at h2
      obtain ⟨rfl, _⟩ := h2
      have : 's' ∈ b ++ ['F', 'E', d] := by rw [h1]; simp
      simp only [List.mem_append, List.mem_cons, List.not_mem_nil, or_false] at this
      rcases this with h3 | h3 | h3 | h3
      · exact absurd (hb _ h3) (by decide)
      · exact absurd h3 (by decide)
      · exact absurd h3 (by decide)
      · rw [← h3] at hd
        exact absurd hd (by decide)
  · refine hg d hd ?_
    rw [h1]
    exact ⟨b, w, by simp⟩

theorem proper_feTable : Proper feTable := by
  rw [feTable, show chars "static" = 's' :: chars "tatic" by unfold chars; decide]
  exact proper_lit

/-- C85: exactly the tables that are declared are read, in their order. -/
theorem C85_tables (entity : Entity) (types : List Char → Option TableType) (quads : List (List Char)) (ps : List (List Char × Decl))
    (last : List Char) (h : RegionOk entity ps last) (he : entity ≠ .vertex)
    (hk : ∀ p ∈ ps, ∃ kind ∈ [TableType.uniform, .varying, .fixed, .piecewise], types (['F', 'E'] ++ p.2.ident) = some kind)
    (hq : ∀ p ∈ ps, p.2.quad ∈ quads) :
    parseTables entity types quads (regionText ps last) =
      some (ps.map fun p => p.2.table ((types (['F', 'E'] ++ p.2.ident)).getD .zeros)) := by
  have key : ∀ (ps : List (List Char × Decl)) (pre : List Char), RegionOk entity ps last →
      (∀ p ∈ ps, ∃ kind ∈ [TableType.uniform, .varying, .fixed, .piecewise], types (['F', 'E'] ++ p.2.ident) = some kind) →
      (∀ p ∈ ps, p.2.quad ∈ quads) →
      ((spans (feTable.findIter (regionText ps last)).1 pre.length).mapM fun se =>
        parseTable entity types quads ((pre ++ regionText ps last).drop se.1)) =
      some (ps.map fun p => p.2.table ((types (['F', 'E'] ++ p.2.ident)).getD .zeros)) := by
    intro ps
    induction ps with
    | nil =>
      intro pre h _ _
      rw [regionText, List.flatMap_nil, List.nil_append, findIter_free feTable proper_feTable last fun i => by
        rw [feTable]
        exact matchAt_lit_none (infix_drop h.last.2.1 i)]
      rfl
    | cons p ps ih =>
      intro pre h hk hq
      obtain ⟨g, d⟩ := p
      have hd := h.decl _ (List.mem_cons_self ..)
      have hg := h.gap _ (List.mem_cons_self ..)
      obtain ⟨z, hz⟩ := decl_head d
      have hrest : ∃ rest, regionText ps last = '\n' :: rest ∧ ¬ StartsTable rest := by
        cases ps with
        | nil =>
          obtain ⟨h1, _, h3⟩ := h.last
          cases hl : last with
          | nil => rw [hl] at h1; simp at h1
          | cons c l =>
            rw [hl] at h1 h3
            simp only [List.head?_cons, Option.some.injEq] at h1
            exact ⟨l, by rw [regionText, h1]; rfl, h3⟩
        | cons p ps =>
          have h1 := h.lineEnd p (by simp)
          have h2 := h.gap p (by simp)
          obtain ⟨z', hz'⟩ := decl_head p.2
          cases hl : p.1 with
          | nil => rw [hl] at h1; simp at h1
          | cons c l =>
            rw [hl] at h1
            simp only [List.head?_cons, Option.some.injEq] at h1
            subst h1
            refine ⟨l ++ 's' :: (z' ++ regionText ps last), by simp [regionText, hl, hz'], gap_start fun d hd hin => ?_⟩
            refine h2.noTable d hd (hin.trans ?_)
            rw [hl]
            exact (List.suffix_cons _ _).isInfix
      obtain ⟨rest, hr1, hr2⟩ := hrest
      have htext : regionText ((g, d) :: ps) last = g ++ (d.text ++ regionText ps last) := by simp [regionText]
      obtain ⟨kind, hk1, hk2⟩ := hk _ (List.mem_cons_self ..)
      have hparse := C85_table entity types quads d hd rest hr2 kind hk2 hk1 (hq _ (List.mem_cons_self ..)) he
      have hm := matchAt_decl d hd rest hr2
      rw [← hr1] at hm hparse
      have hih := ih (pre ++ (g ++ d.text)) ⟨fun p hp => h.decl p (List.mem_cons_of_mem _ hp), fun p hp => h.gap p (List.mem_cons_of_mem _ hp),
        fun p hp => h.lineEnd p (List.mem_of_mem_tail hp), h.last⟩ (fun p hp => hk p (List.mem_cons_of_mem _ hp))
        (fun p hp => hq p (List.mem_cons_of_mem _ hp))
      have hf : feTable.findIter (regionText ((g, d) :: ps) last) =
          (⟨g, d.text, d.groups⟩ :: (feTable.findIter (regionText ps last)).1, (feTable.findIter (regionText ps last)).2) := by
        rw [htext, findIter_skip feTable proper_feTable g _ (fun i hi => by
          rw [hz]
          exact gap_none hg i hi), findIter_hit _ proper_feTable _ _ hm]
        simp [addBefore]
      rw [hf, spans, List.mapM_cons]
      have h0 : (pre ++ regionText ((g, d) :: ps) last).drop (pre.length + g.length) = d.text ++ regionText ps last := by
        rw [htext, ← List.append_assoc, ← List.length_append, List.drop_left]
      simp only [h0, hparse, hk2, Option.getD_some, List.map_cons]
      have hlen : pre.length + g.length + d.text.length = (pre ++ (g ++ d.text)).length := by
        simp only [List.length_append]
        omega
      have hcode : pre ++ regionText ((g, d) :: ps) last = (pre ++ (g ++ d.text)) ++ regionText ps last := by rw [htext]; simp
      rw [hlen, hcode, hih]
      rfl
  have := key ps [] h hk hq
  exact this

end Qugar.Py.Text
