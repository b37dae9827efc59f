import Verif.Props.PyTransform
/-
C84: the static declarations are removed, and the checks of the code of FFCx.
-/
namespace Qugar.Py.Text
open Regex Kernel

/-! ### The end of the last match -/

theorem findIter_free (r : Rx) (hr : Proper r) (s : List Char) (h : ∀ i : Nat, r.matchAt (s.drop i) = none) : r.findIter s = ([], s) := by
  rw [findIter_unfold r hr, search_eq_none r s h]

/-- The end of the last match is that of `t`, if the matches that begin before `t` end before it or with it. -/
theorem last_span (r : Rx) (hr : Proper r) (t more : List Char) {g0 : List (List Char)} (hmatch : r.matchAt (t ++ more) = some (more, g0))
    (hmore : ∀ i : Nat, r.matchAt (more.drop i) = none) (m : Nat) (a : List Char) (hm : a.length = m)
    (hcover : ∀ i < a.length, ∀ rest g, r.matchAt ((a ++ (t ++ more)).drop i) = some (rest, g) →
      (t ++ more).length ≤ rest.length ∨ rest = more) (n : Nat) :
    ∃ x, (spans (r.findIter (a ++ (t ++ more))).1 n).getLast? = some (x, n + a.length + t.length) := by
  induction m using Nat.strongRecOn generalizing a n with
  | ind m ih =>
    rcases hs : r.search (a ++ (t ++ more)) with _ | ⟨h, rest⟩
    · have := search_none r hs a.length
      rw [List.drop_left, hmatch] at this
      simp at this
    · obtain ⟨h1, h2, h3, h4⟩ := search_some r hs
      have hlen := congrArg List.length h1
      simp only [List.length_append] at hlen
      have hle : h.before.length ≤ a.length := by
        rcases Nat.lt_or_ge a.length h.before.length with hlt | hge
        · have := h4 a.length hlt
          rw [List.drop_left, hmatch] at this
          simp at this
        · exact hge
      have hat : r.matchAt ((a ++ (t ++ more)).drop h.before.length) = some (rest, h.groups) := by
        rw [h1, List.append_assoc, List.drop_left]
        exact h3
      have hcase : (t ++ more).length ≤ rest.length ∨ rest = more := by
        rcases Nat.lt_or_ge h.before.length a.length with hlt | hge
        · exact hcover _ hlt _ _ hat
        · right
          rw [Nat.le_antisymm hle hge, List.drop_left, hmatch] at hat
          simp only [Option.some.injEq, Prod.mk.injEq] at hat
          exact hat.1.symm
      rw [findIter_unfold r hr, hs]
      simp only
      rcases hcase with hcase | rfl
      · have hsplit : ∃ a', rest = a' ++ (t ++ more) := by
          have hsuf : rest <:+ a ++ (t ++ more) := ⟨h.before ++ h.text, h1.symm⟩
          obtain ⟨a', ha'⟩ := List.suffix_of_suffix_length_le (List.suffix_append a (t ++ more)) hsuf hcase
          exact ⟨a', ha'.symm⟩
        obtain ⟨a', rfl⟩ := hsplit
        have htext : 0 < h.text.length := by
          rcases Nat.eq_zero_or_pos h.text.length with hz | hp
          · rw [List.length_eq_zero_iff.1 hz] at h2
            exact absurd h2 (hr _)
          · exact hp
        have hpos : h.before ++ h.text ++ a' = a := by
          rw [← List.append_assoc (h.before ++ h.text)] at h1
          exact (List.append_cancel_right h1).symm
        have hla := congrArg List.length hpos
        simp only [List.length_append] at hla
        obtain ⟨x, hx⟩ := ih a'.length (by omega) a' rfl (fun i hi rest g hg => hcover (h.before.length + h.text.length + i) (by omega) rest g (by
          rw [← hg, ← hpos, List.append_assoc, ← List.length_append, ← List.drop_drop, List.drop_left])) (n + h.before.length + h.text.length)
        refine ⟨x, ?_⟩
        rw [spans, List.getLast?_cons, hx]
        simp only [Option.getD_some, Option.some.injEq, Prod.mk.injEq, true_and]
        omega
      · rw [findIter_free r hr rest hmore]
        refine ⟨n + h.before.length, ?_⟩
        simp only [spans, List.getLast?_singleton, Option.some.injEq, Prod.mk.injEq, true_and]
        omega

/-! ### Literals -/

/-- No beginning of the literal is also one of its ends. -/
def Borderless (cs : List Char) : Prop := ∀ j, 0 < j → j < cs.length → ¬ cs.drop j <+: cs

instance (cs : List Char) : Decidable (Borderless cs) :=
  decidable_of_iff (∀ j < cs.length, 0 < j → ¬ cs.drop j <+: cs)
    ⟨fun h j h1 h2 => h j h2 h1, fun h j h1 h2 => h j h2 h1⟩

theorem lit_first {cs a b : List Char} (hb : Borderless cs) (ha : ¬ cs <:+: a) (i : Nat) (hi : i < a.length) :
    ¬ cs <+: (a ++ (cs ++ b)).drop i := by
  intro hp
  rw [List.drop_append_of_le_length (by omega)] at hp
  rcases Nat.lt_or_ge (a.drop i).length cs.length with hlt | hge
  · have h1 : a.drop i <+: cs := List.prefix_of_prefix_length_le (List.prefix_append _ _) hp (Nat.le_of_lt hlt)
    obtain ⟨y, hy⟩ := h1
    have hpos : 0 < (a.drop i).length := by rw [List.length_drop]; omega
    refine hb (a.drop i).length hpos hlt ?_
    rw [show cs.drop (a.drop i).length = y by rw [← hy, List.drop_left]]
    rw [← hy] at hp
    have h2 : y <+: a.drop i ++ y ++ b := (List.prefix_append_right_inj _).1 hp
    rw [hy] at h2
    refine List.prefix_of_prefix_length_le h2 (List.prefix_append _ _) ?_
    rw [← hy, List.length_append]
    omega
  · exact ha ((List.prefix_of_prefix_length_le hp (List.prefix_append _ _) hge).isInfix.trans (List.drop_suffix i a).isInfix)

theorem infix_drop {cs a : List Char} (h : ¬ cs <:+: a) (i : Nat) : ¬ cs <+: a.drop i :=
  fun hp => h (hp.isInfix.trans (List.drop_suffix i a).isInfix)

/-! ### Declarations of tables -/

/-- The beginning of a declaration of a table: `static const double FE`. -/
def declHead (s1 s2 w s3 body : List Char) : List Char :=
  chars "static" ++ (s1 ++ (chars "const" ++ (s2 ++ (w ++ (s3 ++ (chars "FE" ++ body))))))

theorem decl_matchAt (s1 s2 w s3 body space more : List Char) (h1 : Blank s1 ∧ s1 ≠ []) (h2 : Blank s2 ∧ s2 ≠ [])
    (hw : (∀ c ∈ w, isWord c = true) ∧ w ≠ []) (h3 : Blank s3 ∧ s3 ≠ []) (hb : ';' ∉ body) (hs : Blank space)
    (hm : ∀ b, Blank b → ¬ b ++ ['\n'] <+: more) :
    tableDecl.matchAt (declHead s1 s2 w s3 body ++ ';' :: (space ++ '\n' :: more)) = some (more, []) := by
  have hstat : Stop isSpace (chars "const" ++ (s2 ++ (w ++ (s3 ++ (chars "FE" ++ (body ++ ';' :: (space ++ '\n' :: more))))))) := by
    rw [show chars "const" = 'c' :: chars "onst" by unfold chars; decide]
    exact stop_cons (by decide)
  have htext : declHead s1 s2 w s3 body ++ ';' :: (space ++ '\n' :: more) = chars "static" ++ (s1 ++ (chars "const" ++ (s2 ++ (w ++ (s3 ++
      (chars "FE" ++ (body ++ (chars ";" ++ (space ++ (chars "\n" ++ more)))))))))) := by
    rw [show chars ";" = [';'] by unfold chars; decide, show chars "\n" = ['\n'] by unfold chars; decide]
    simp [declHead]
  rw [htext, Rx.matchAt, tableDecl, run_lit]
  refine run_some1 h1.2 h1.1 ?_ ?_
  · rw [show chars "const" = 'c' :: chars "onst" by unfold chars; decide]
    exact stop_cons (by decide)
  rw [run_lit]
  refine run_some1 h2.2 h2.1 ?_ ?_
  · obtain ⟨c, w', rfl⟩ := List.exists_cons_of_ne_nil hw.2
    exact stop_cons (word_not_space (hw.1 c (List.mem_cons_self ..)))
  refine run_some1 hw.2 hw.1 ?_ ?_
  · obtain ⟨c, s', rfl⟩ := List.exists_cons_of_ne_nil h3.2
    refine stop_cons ?_
    rcases hc : isWord c with _ | _
    · rfl
    · have := word_not_space hc
      rw [h3.1 c (List.mem_cons_self ..)] at this
      simp at this
  refine run_some1 h3.2 h3.1 ?_ ?_
  · rw [chars_FE]
    exact stop_cons (by decide)
  rw [run_lit]
  refine run_many (fun c hc => ?_) ?_ ?_
  · rw [decide_eq_true_eq]
    rintro rfl
    exact hb hc
  · rw [show chars ";" = [';'] by unfold chars; decide]
    exact stop_cons (by decide)
  rw [run_lit, many, Rx.run, Rx.run]
  refine starRun_last isSpace _ space _ hs ?_ ?_
  · rw [show chars "\n" = ['\n'] by unfold chars; decide]
    rintro a b hab ha hp
    refine run_lit_none _ _ _ _ _ fun hpre => ?_
    obtain ⟨c, a', rfl⟩ := List.exists_cons_of_ne_nil ha
    simp only [List.cons_append, List.nil_append, List.cons.injEq] at hab
    refine hm a' (fun d hd => hp d (List.mem_cons_of_mem _ hd)) ?_
    rw [hab.2]
    exact (List.prefix_append_right_inj _).2 hpre
  · rw [run_lit]
    rfl

theorem decl_lang {t : List Char} {g : List (List Char)} (h : Lang tableDecl t g) :
    ∃ s1 s2 w s3 body space, t = declHead s1 s2 w s3 body ++ ';' :: (space ++ ['\n']) ∧ (Blank s1 ∧ s1 ≠ []) ∧ (Blank s2 ∧ s2 ≠ []) ∧
      ((∀ c ∈ w, isWord c = true) ∧ w ≠ []) ∧ (Blank s3 ∧ s3 ≠ []) ∧ ';' ∉ body ∧ Blank space := by
  simp only [tableDecl, lang_lit, lang_many, lang_some1, lang_eps] at h
  obtain ⟨_, rfl, s1, _, rfl, h1n, h1, _, rfl, s2, _, rfl, h2n, h2, w, _, rfl, hwn, hw, s3, _, rfl, h3n, h3, _, rfl, body, _, rfl, hb, _, rfl,
    space, _, rfl, hs, _, rfl, rfl, _⟩ := h
  refine ⟨s1, s2, w, s3, body, space, ?_, ⟨h1, h1n⟩, ⟨h2, h2n⟩, ⟨hw, hwn⟩, ⟨h3, h3n⟩, fun hm => ?_, hs⟩
  · rw [show chars ";" = [';'] by unfold chars; decide, show chars "\n" = ['\n'] by unfold chars; decide]
    simp [declHead]
  · have := hb _ hm
    simp at this

theorem semicolon_head (s1 s2 w s3 body : List Char) (h1 : Blank s1) (h2 : Blank s2) (hw : ∀ c ∈ w, isWord c = true) (h3 : Blank s3)
    (hb : ';' ∉ body) : ';' ∉ declHead s1 s2 w s3 body := by
  have hblank : ∀ s, Blank s → ';' ∉ s := fun s hs hm => absurd (hs _ hm) (by decide)
  rw [declHead]
  simp only [List.mem_append, not_or]
  refine ⟨by unfold chars; decide, hblank _ h1, by unfold chars; decide, hblank _ h2, fun hm => absurd (hw _ hm) (by decide), hblank _ h3,
    by unfold chars; decide, hb⟩

theorem head_first (s1 s2 w s3 body : List Char) : ∃ l, declHead s1 s2 w s3 body = 's' :: l := by
  refine ⟨chars "tatic" ++ (s1 ++ (chars "const" ++ (s2 ++ (w ++ (s3 ++ (chars "FE" ++ body)))))), ?_⟩
  rw [declHead, show chars "static" = 's' :: chars "tatic" by unfold chars; decide]
  rfl

/-- Splitting at the first semicolon. -/
theorem first_semicolon {a b x y : List Char} (ha : ';' ∉ a) (hb : ';' ∉ b) (h : a ++ ';' :: x = b ++ ';' :: y) : a = b ∧ x = y := by
  induction a generalizing b with
  | nil =>
    cases b with
    | nil => simpa using h
    | cons c b =>
      simp only [List.nil_append, List.cons_append, List.cons.injEq] at h
      exact absurd (h.1 ▸ List.mem_cons_self ..) hb
  | cons c a ih =>
    cases b with
    | nil =>
      simp only [List.nil_append, List.cons_append, List.cons.injEq] at h
      exact absurd (h.1 ▸ List.mem_cons_self ..) ha
    | cons d b =>
      simp only [List.cons_append, List.cons.injEq] at h
      obtain ⟨h1, h2⟩ := ih (fun hm => ha (List.mem_cons_of_mem _ hm)) (fun hm => hb (List.mem_cons_of_mem _ hm)) h.2
      exact ⟨by rw [h.1, h1], h2⟩

/-- C84: the declarations of the weights and of the tables are removed: all the text from the comment of FFCx to the end of the last
declaration of a table, and nothing else. -/
theorem C84_erase (setup mid type body space more : List Char) (hset : ¬ chars "// Quadrature rules" <:+: setup)
    (htype : (∀ c ∈ type, isWord c = true) ∧ type ≠ []) (hbody : ';' ∉ body) (hspace : Blank space)
    (hmore : ∀ b, Blank b → ¬ b ++ ['\n'] <+: more) (hlast : ¬ chars "static" <:+: more) :
    eraseText (setup ++ (chars "// Quadrature rules" ++ (mid ++ ((chars "static const " ++ (type ++ (chars " FE" ++ body))) ++
      ';' :: (space ++ '\n' :: more))))) = setup ++ more := by
  have hhead : chars "static const " ++ (type ++ (chars " FE" ++ body)) = declHead [' '] [' '] type [' '] body := by
    rw [declHead, show chars "static const " = chars "static" ++ ([' '] ++ (chars "const" ++ [' '])) by unfold chars; decide,
      show chars " FE" = [' '] ++ chars "FE" by unfold chars; decide]
    simp
  rw [hhead]
  have hsp : Blank [' '] ∧ [' '] ≠ [] := ⟨by rintro c hc; rw [List.mem_singleton.1 hc]; decide, by simp⟩
  have hdm := decl_matchAt [' '] [' '] type [' '] body space more hsp hsp htype hsp hbody hspace hmore
  have hDsemi := semicolon_head [' '] [' '] type [' '] body hsp.1 hsp.1 htype.1 hsp.1 hbody
  obtain ⟨l, hl⟩ := head_first [' '] [' '] type [' '] body
  generalize declHead [' '] [' '] type [' '] body = D at hdm hDsemi hl ⊢
  have hproper : Proper tableDecl := by
    rw [tableDecl, show chars "static" = 's' :: chars "tatic" by unfold chars; decide]
    exact proper_lit
  have hmarker : marker.search (setup ++ (chars "// Quadrature rules" ++ (mid ++ (D ++ ';' :: (space ++ '\n' :: more))))) =
      some (⟨setup, chars "// Quadrature rules", []⟩, mid ++ (D ++ ';' :: (space ++ '\n' :: more))) := by
    have := search_eq marker setup (chars "// Quadrature rules") (mid ++ (D ++ ';' :: (space ++ '\n' :: more))) (g := [])
      (by unfold chars; decide) (fun i hi => by
        rw [marker, List.append_assoc]
        exact matchAt_lit_none (lit_first (by unfold chars; decide) hset i hi)) (by rw [marker, Rx.matchAt, run_lit]; rfl)
    rw [← this, List.append_assoc]
  have hspan := last_span tableDecl hproper (D ++ ';' :: (space ++ ['\n'])) more (g0 := []) (by rw [← hdm]; congr 1; simp)
    (fun i => by
      rw [tableDecl]
      exact matchAt_lit_none (infix_drop hlast i)) _ (setup ++ (chars "// Quadrature rules" ++ mid)) rfl
    (by
      intro i hi rest g hg
      obtain ⟨t, ht, hlang⟩ := matchAt_sound _ hg
      obtain ⟨s1, s2, w, s3, body', space', rfl, h1, h2, hw, h3, hb', hs'⟩ := decl_lang hlang
      have hF := semicolon_head s1 s2 w s3 body' h1.1 h2.1 hw.1 h3.1 hb'
      generalize hA : setup ++ (chars "// Quadrature rules" ++ mid) = A at hi hg ht
      rw [List.drop_append_of_le_length (by omega)] at ht hg
      by_cases hsemi : ';' ∈ A.drop i
      · left
        obtain ⟨u, v, huv, hu⟩ := List.eq_append_cons_of_mem hsemi
        rw [huv] at ht
        have h5 := first_semicolon (x := v ++ (D ++ ';' :: (space ++ ['\n']) ++ more)) (y := space' ++ '\n' :: rest) hu hF
          (by simpa using ht)
        have h6 := h5.2
        rw [hl] at h6
        have h7 : (space' ++ ['\n']).length ≤ v.length := by
          rcases Nat.lt_or_ge v.length (space' ++ ['\n']).length with hlt | hge
          · exfalso
            have hpre : v ++ ['s'] <+: space' ++ ['\n'] := by
              refine List.prefix_of_prefix_length_le (l₃ := space' ++ '\n' :: rest) ?_ ⟨rest, by simp⟩ (by simp only [List.length_append, List.length_singleton] at hlt ⊢; omega)
              rw [← h6]
              exact ⟨l ++ ';' :: (space ++ ['\n']) ++ more, by simp⟩
            have hmem : 's' ∈ space' ++ ['\n'] := hpre.subset (by simp)
            rcases List.mem_append.1 hmem with hm | hm
            · exact absurd (hs' _ hm) (by decide)
            · exact absurd hm (by decide)
          · exact hge
        have h8 := congrArg List.length h5.2
        simp only [List.length_append, List.length_cons] at h8 h7 ⊢
        simp only [List.length_nil] at h8 h7 ⊢
        omega
      · right
        have h5 := first_semicolon (a := A.drop i ++ D) (b := declHead s1 s2 w s3 body') (x := space ++ '\n' :: more) (y := space' ++ '\n' :: rest)
          (by rw [List.mem_append, not_or]; exact ⟨hsemi, hDsemi⟩) hF (by simpa using ht)
        have h6 := decl_matchAt s1 s2 w s3 body' space more h1 h2 hw h3 hb' hspace hmore
        rw [← h5.1] at h6
        have h7 : A.drop i ++ D ++ ';' :: (space ++ '\n' :: more) = A.drop i ++ (D ++ ';' :: (space ++ ['\n']) ++ more) := by simp
        rw [h7, hg] at h6
        simp only [Option.some.injEq, Prod.mk.injEq] at h6
        exact h6.1) 0
  obtain ⟨x, hx⟩ := hspan
  have htext : setup ++ (chars "// Quadrature rules" ++ (mid ++ (D ++ ';' :: (space ++ '\n' :: more)))) =
      setup ++ (chars "// Quadrature rules" ++ mid) ++ (D ++ ';' :: (space ++ ['\n']) ++ more) := by simp
  rw [eraseText, hmarker]
  simp only
  rw [htext, hx]
  simp only
  rw [List.append_assoc setup, List.take_left]
  congr 1
  rw [Nat.zero_add, ← List.length_append]
  generalize D ++ ';' :: (space ++ ['\n']) = E
  rw [show setup ++ (chars "// Quadrature rules" ++ mid ++ (E ++ more)) = setup ++ (chars "// Quadrature rules" ++ mid) ++ E ++ more by simp]
  exact List.drop_left

/-- C84: without the comment of FFCx nothing is removed. -/
theorem C84_erase_none (text : List Char) (h : ¬ chars "// Quadrature rules" <:+: text) : eraseText text = text := by
  rw [eraseText, search_eq_none marker text fun i => by
    rw [marker]
    exact matchAt_lit_none (infix_drop h i)]

example : eraseText (chars "  // Setup\n  // Quadrature rules\n  static const double weights_083[1] = {0.5};\n  // Precomputed values\n  static const double FE0_C0_Q083[1][1][1][2] = {{{{0.5, 0.5}}}};\n  double x = 0.0;\n") =
    chars "  // Setup\n    double x = 0.0;\n" := by decide +kernel

end Qugar.Py.Text
