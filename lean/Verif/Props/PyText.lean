import Verif.Model.PyText
import Verif.Props.PyRegex
import Verif.Props.PyKernel
/-
C83: the code of FFCx is read as it is written.
-/
namespace Qugar.Py.Text
open Regex Kernel

/-! ### Specification -/

/-- Spaces, possibly none. -/
def Blank (s : List Char) : Prop := ∀ c ∈ s, isSpace c = true

/-- Headers of loops over the points: `for (int iq = 0; iq < n; ++iq)`, with any spaces. -/
def IsHeader (t : List Char) : Prop :=
  ∃ s1 s2 s3 s4 s5 s6 s7 s8 s9 n s10 s11 s12 : List Char,
    t = chars "for" ++ (s1 ++ (chars "(" ++ (s2 ++ (chars "int" ++ (s3 ++ (chars "iq" ++ (s4 ++ (chars "=" ++ (s5 ++ (chars "0" ++ (s6 ++
      (chars ";" ++ (s7 ++ (chars "iq" ++ (s8 ++ (chars "<" ++ (s9 ++ (n ++ (s10 ++ (chars ";" ++ (s11 ++ (chars "++iq" ++ (s12 ++
      chars ")"))))))))))))))))))))))) ∧
    Blank s1 ∧ Blank s2 ∧ Blank s3 ∧ s3 ≠ [] ∧ Blank s4 ∧ Blank s5 ∧ Blank s6 ∧ Blank s7 ∧ Blank s8 ∧ Blank s9 ∧ Blank s10 ∧
    Blank s11 ∧ Blank s12 ∧ n ≠ [] ∧ ∀ c ∈ n, isDigit c = true

/-- No text of a kind is part of the text. -/
def Free (K : List Char → Prop) (text : List Char) : Prop := ∀ t, K t → ¬ t <:+: text

/-! ### Patterns -/

theorem lang_pat {r : Rx} {t : List Char} {g : List (List Char)} (h : Lang r t g) : Word r t := ⟨g, h⟩

theorem infix_of_at {text t : List Char} {i : Nat} (h : At text i t) : t <:+: text :=
  h.isInfix.trans (List.drop_suffix i text).isInfix

theorem at_of_infix {text t : List Char} (h : t <:+: text) : ∃ i : Nat, At text i t := by
  obtain ⟨a, b, rfl⟩ := h
  exact ⟨a.length, b, by simp⟩

theorem free_iff (r : Rx) (text : List Char) : Free (Word r) text ↔ ∀ i t, Word r t → ¬ At text i t := by
  constructor
  · exact fun h i t hw ha => h t hw (infix_of_at ha)
  · intro h t hw hi
    obtain ⟨i, hi⟩ := at_of_infix hi
    exact h i t hw hi

theorem header_iff (t : List Char) : Word header t ↔ IsHeader t := by
  constructor
  · rintro ⟨g, h⟩
    simp only [header, lang_lit, lang_many, lang_some1, lang_gsome1, lang_eps] at h
    obtain ⟨_, rfl, s1, _, rfl, h1, _, rfl, s2, _, rfl, h2, _, rfl, s3, _, rfl, h3n, h3, _, rfl, s4, _, rfl, h4, _, rfl, s5, _, rfl, h5,
      _, rfl, s6, _, rfl, h6, _, rfl, s7, _, rfl, h7, _, rfl, s8, _, rfl, h8, _, rfl, s9, _, rfl, h9, n, _, _, rfl, _, hn, hd, s10, _, rfl,
      h10, _, rfl, s11, _, rfl, h11, _, rfl, s12, _, rfl, h12, _, rfl, rfl, _⟩ := h
    exact ⟨s1, s2, s3, s4, s5, s6, s7, s8, s9, n, s10, s11, s12, by rw [List.append_nil], h1, h2, h3, h3n, h4, h5,
      h6, h7, h8, h9, h10, h11, h12, hn, hd⟩
  · rintro ⟨s1, s2, s3, s4, s5, s6, s7, s8, s9, n, s10, s11, s12, rfl, h1, h2, h3, h3n, h4, h5, h6, h7, h8, h9, h10, h11, h12, hn, hd⟩
    refine ⟨[n], ?_⟩
    simp only [header, lang_lit, lang_many, lang_some1, lang_gsome1, lang_eps]
    exact ⟨_, rfl, s1, _, rfl, h1, _, rfl, s2, _, rfl, h2, _, rfl, s3, _, rfl, h3n, h3, _, rfl, s4, _, rfl, h4, _, rfl, s5, _, rfl, h5,
      _, rfl, s6, _, rfl, h6, _, rfl, s7, _, rfl, h7, _, rfl, s8, _, rfl, h8, _, rfl, s9, _, rfl, h9, n, _, _, rfl, rfl, hn, hd, s10, _, rfl,
      h10, _, rfl, s11, _, rfl, h11, _, rfl, s12, _, rfl, h12, _, (List.append_nil _).symm, rfl, rfl⟩

theorem blank_ne {s : List Char} (h : Blank s) {a : Char} (ha : isSpace a = false) : ∀ c ∈ s, c ≠ a := by
  rintro c hc rfl
  rw [h c hc] at ha
  simp at ha

theorem digits_ne {s : List Char} (h : ∀ c ∈ s, isDigit c = true) {a : Char} (ha : isDigit a = false) : ∀ c ∈ s, c ≠ a := by
  rintro c hc rfl
  rw [h c hc] at ha
  simp at ha

/-- Where the characters of a header are. -/
theorem header_chars {t : List Char} (h : IsHeader t) : ∃ u, t = 'f' :: u ++ [')'] ∧ ∀ c ∈ u, c ≠ 'f' ∧ c ≠ ')' ∧ c ≠ '{' ∧ c ≠ '}' := by
  obtain ⟨s1, s2, s3, s4, s5, s6, s7, s8, s9, n, s10, s11, s12, rfl, h1, h2, h3, h3n, h4, h5, h6, h7, h8, h9, h10, h11, h12, hn, hd⟩ := h
  have hb : ∀ {s : List Char}, Blank s → ∀ c ∈ s, c ≠ 'f' ∧ c ≠ ')' ∧ c ≠ '{' ∧ c ≠ '}' := fun h c hc =>
    ⟨blank_ne h (by decide) c hc, blank_ne h (by decide) c hc, blank_ne h (by decide) c hc, blank_ne h (by decide) c hc⟩
  have hn' : ∀ c ∈ n, c ≠ 'f' ∧ c ≠ ')' ∧ c ≠ '{' ∧ c ≠ '}' := fun c hc =>
    ⟨digits_ne hd (by decide) c hc, digits_ne hd (by decide) c hc, digits_ne hd (by decide) c hc, digits_ne hd (by decide) c hc⟩
  have happ : ∀ {a b : List Char}, (∀ c ∈ a, c ≠ 'f' ∧ c ≠ ')' ∧ c ≠ '{' ∧ c ≠ '}') → (∀ c ∈ b, c ≠ 'f' ∧ c ≠ ')' ∧ c ≠ '{' ∧ c ≠ '}') →
      ∀ c ∈ a ++ b, c ≠ 'f' ∧ c ≠ ')' ∧ c ≠ '{' ∧ c ≠ '}' := fun h h' c hc => (List.mem_append.1 hc).elim (h c) (h' c)
  rw [show chars "for" = 'f' :: chars "or" by unfold chars; decide, show chars ")" = [')'] by unfold chars; decide]
  refine ⟨chars "or" ++ (s1 ++ (chars "(" ++ (s2 ++ (chars "int" ++ (s3 ++ (chars "iq" ++ (s4 ++ (chars "=" ++ (s5 ++ (chars "0" ++ (s6 ++
      (chars ";" ++ (s7 ++ (chars "iq" ++ (s8 ++ (chars "<" ++ (s9 ++ (n ++ (s10 ++ (chars ";" ++ (s11 ++ (chars "++iq" ++ s12)))))))))))))))))))))),
      by simp only [List.append_assoc, List.cons_append], ?_⟩
  repeat' apply happ
  all_goals first
    | exact hn'
    | exact hb (by assumption)
    | (unfold chars; decide)

/-- Headers do not overlap. -/
theorem header_token : Token header where
  nonempty := by
    rintro t ht rfl
    obtain ⟨u, hu, _⟩ := header_chars ((header_iff _).1 ht)
    simp at hu
  apart := apart_of_first (· = 'f') fun t ht => by
    obtain ⟨u, rfl, hu⟩ := header_chars ((header_iff _).1 ht)
    refine ⟨'f', u ++ [')'], rfl, rfl, ?_⟩
    intro d hd
    rcases List.mem_append.1 hd with hd | hd
    · exact (hu d hd).1
    · rw [List.mem_singleton] at hd; subst hd; decide
  prefixFree := prefixFree_of_last (· = ')') fun t ht => by
    obtain ⟨u, rfl, hu⟩ := header_chars ((header_iff _).1 ht)
    refine ⟨'f' :: u, ')', rfl, rfl, ?_⟩
    intro d hd
    rcases List.mem_cons.1 hd with rfl | hd
    · decide
    · exact (hu d hd).2.1

/-- A header is not across a bracket. -/
theorem free_header_bracket {a b : List Char} {c : Char} (hc : c = '{' ∨ c = '}') (ha : Free IsHeader a) (hb : Free IsHeader b) :
    Free IsHeader (a ++ c :: b) := by
  intro t ht hi
  have hct : c ∉ t := by
    obtain ⟨u, rfl, hu⟩ := header_chars ht
    intro hm
    rcases List.mem_append.1 hm with hm | hm
    · rcases List.mem_cons.1 hm with rfl | hm
      · rcases hc with hc | hc <;> exact absurd hc (by decide)
      · rcases hc with rfl | rfl
        · exact (hu _ hm).2.2.1 rfl
        · exact (hu _ hm).2.2.2 rfl
    · rw [List.mem_singleton] at hm
      rcases hc with rfl | rfl <;> exact absurd hm (by decide)
  rcases List.infix_append_iff_ne_nil.1 hi with h | h | ⟨x, y, hx, hy, h1, h2, h3⟩
  · exact ha t ht h
  · rcases List.infix_cons_iff.1 h with h | h
    · obtain ⟨z, hz⟩ := h
      cases t with
      | nil => obtain ⟨u, hu, _⟩ := header_chars ht; simp at hu
      | cons d t =>
        rw [List.cons_append, List.cons.injEq] at hz
        exact hct (by rw [hz.1]; exact List.mem_cons_self ..)
    · exact hb t ht h
  · obtain ⟨d, y', rfl⟩ := List.exists_cons_of_ne_nil hy
    have := (List.cons_prefix_cons.1 h3).1
    subst this
    exact hct (by rw [h1]; simp)

/-- C83: all the loops over the points in a text are found, and nothing else. -/
theorem C83_headers (text : List Char) (i : Nat) (t : List Char) :
    (i, t) ∈ positions (header.findIter text).1 0 ↔ IsHeader t ∧ At text i t := by
  rw [(findIter_exact header header_token text).2.2 i t, header_iff]

/-! ### Loops -/

/-- What is before each header, since the previous one. -/
def gaps : List Char → List Piece → List (List Char × List Char)
  | _, [] => []
  | carry, p :: ps => (carry ++ p.before, p.header) :: gaps (p.space ++ '{' :: (p.body ++ ['}'])) ps

/-- What is after the last header. -/
def lastGap : List Char → List Piece → List Char
  | carry, [] => carry
  | _, p :: ps => lastGap (p.space ++ '{' :: (p.body ++ ['}'])) ps

theorem gaps_text (carry : List Char) (ps : List Piece) (post : List Char) :
    carry ++ assemble ps post = ((gaps carry ps).flatMap fun p => p.1 ++ p.2) ++ (lastGap carry ps ++ post) := by
  induction ps generalizing carry with
  | nil => simp [assemble, gaps, lastGap]
  | cons p ps ih =>
    have := ih (p.space ++ '{' :: (p.body ++ ['}']))
    rw [gaps, lastGap, List.flatMap_cons]
    simp only [List.append_assoc]
    rw [← this]
    simp [assemble]

theorem spans_gaps (carry : List Char) (ps : List Piece) (hs : List Hit) (i : Nat)
    (h : (hs.map fun h => (h.before, h.text)) = gaps carry ps) : spans hs i = headersOf ps (i + carry.length) := by
  induction ps generalizing carry hs i with
  | nil =>
    rw [gaps, List.map_eq_nil_iff] at h
    subst h
    rfl
  | cons p ps ih =>
    cases hs with
    | nil => simp [gaps] at h
    | cons h' hs =>
      simp only [gaps, List.map_cons, List.cons.injEq, Prod.mk.injEq] at h
      obtain ⟨⟨h1, h2⟩, h3⟩ := h
      rw [spans, headersOf, ih _ _ _ h3, h1, h2]
      simp only [List.length_append, List.length_cons, List.length_nil, List.cons.injEq, Prod.mk.injEq]
      refine ⟨⟨by omega, by omega⟩, ?_⟩
      congr 1
      omega

theorem free_blank {s : List Char} (h : Blank s) : Free IsHeader s := by
  intro t ht hi
  obtain ⟨u, rfl, _⟩ := header_chars ht
  exact blank_ne h (a := 'f') (by decide) 'f' (hi.subset (by simp)) rfl

theorem free_gaps (carry : List Char) (ps : List Piece) (post : List Char) (hc : ∀ x, Free IsHeader x → Free IsHeader (carry ++ x))
    (hs : ∀ p ∈ ps, Blank p.space) (hf : ∀ p ∈ ps, Free IsHeader p.before ∧ Free IsHeader p.body) (hp : Free IsHeader post) :
    (∀ g ∈ gaps carry ps, Free IsHeader g.1) ∧ Free IsHeader (lastGap carry ps ++ post) := by
  induction ps generalizing carry with
  | nil => exact ⟨by simp [gaps], hc post hp⟩
  | cons p ps ih =>
    have hp1 := hf p (List.mem_cons_self ..)
    have hcarry : ∀ x, Free IsHeader x → Free IsHeader ((p.space ++ '{' :: (p.body ++ ['}'])) ++ x) := by
      intro x hx
      have := free_header_bracket (.inl rfl) (free_blank (hs p (List.mem_cons_self ..))) (free_header_bracket (c := '}') (.inr rfl) hp1.2 hx)
      simpa using this
    obtain ⟨i1, i2⟩ := ih _ hcarry (fun p hp => hs p (List.mem_cons_of_mem _ hp)) (fun p hp => hf p (List.mem_cons_of_mem _ hp))
    refine ⟨?_, i2⟩
    intro g hg
    rcases List.mem_cons.1 hg with rfl | hg
    · exact hc _ hp1.1
    · exact i1 g hg

theorem idxOf_none {s : List Char} {c : Char} (h : c ∉ s) : s.idxOf? c = none := by
  rw [List.idxOf?_eq_none_iff]
  exact h

theorem idxOf_append {a b : List Char} {c : Char} (h : c ∉ a) : (a ++ c :: b).idxOf? c = some a.length := by
  induction a with
  | nil => simp [List.idxOf?, List.findIdx?_cons]
  | cons d a ih =>
    have hd : d ≠ c := fun hd => h (hd ▸ List.mem_cons_self ..)
    have := ih fun hm => h (List.mem_cons_of_mem _ hm)
    simp only [List.idxOf?, List.cons_append, List.findIdx?_cons] at this ⊢
    rw [this]
    simp [hd]

/-- C83: the body of a function of FFCx: its loops over the points, each with the text before it, its header and its body, with any other
loops and brackets inside, and the name of its quadrature. -/
theorem C83_loops (ps : List Piece) (quads : List (List Char)) (post tail : List Char) (hh : ∀ p ∈ ps, IsHeader p.header)
    (hs : ∀ p ∈ ps, Blank p.space) (hb : ∀ p ∈ ps, Balanced '{' '}' p.body)
    (hf : ∀ p ∈ ps, Free IsHeader p.before ∧ Free IsHeader p.body) (hp : Free IsHeader post)
    (hq : List.Forall₂ (fun p q => quadName p.body = some q) ps quads) (ht : '}' ∉ tail) :
    parseBody (chars "{\n" ++ assemble ps post ++ '}' :: tail) =
      some (List.zipWith (fun p q => ⟨q, p.before, p.header ++ p.space ++ ['{'], p.body⟩) ps quads, post ++ '}' :: tail) := by
  have hopen : chars "{\n" = ['{', '\n'] := by unfold chars; decide
  have hin : (chars "{\n" ++ assemble ps post ++ '}' :: tail).drop 2 = assemble ps post ++ '}' :: tail := by rw [hopen]; rfl
  have htake : (chars "{\n" ++ assemble ps post ++ '}' :: tail).take 2 = ['{', '\n'] := by rw [hopen]; rfl
  have hrev : (assemble ps post ++ '}' :: tail).reverse.idxOf? '}' = some tail.length := by
    rw [show (assemble ps post ++ '}' :: tail).reverse = tail.reverse ++ '}' :: (assemble ps post).reverse by simp,
      idxOf_append (by simpa using ht), List.length_reverse]
  have hlen : (assemble ps post ++ '}' :: tail).length - 1 - tail.length = (assemble ps post).length := by
    simp only [List.length_append, List.length_cons]; omega
  have hgap := free_gaps [] ps post (fun x hx => hx) hs hf hp
  have hpieces := findIter_pieces header header_token (gaps [] ps) (lastGap [] ps ++ post)
    (by
      clear hgap hrev hlen hin htake hq ht hf hb hs hp
      generalize ([] : List Char) = carry
      induction ps generalizing carry with
      | nil => simp [gaps]
      | cons p ps ih =>
        intro g hg
        rcases List.mem_cons.1 hg with rfl | hg
        · exact (header_iff _).2 (hh p (List.mem_cons_self ..))
        · exact ih (fun p hp => hh p (List.mem_cons_of_mem _ hp)) _ g hg)
    (fun g hg i t hw ha => hgap.1 g hg t ((header_iff t).1 hw) (infix_of_at ha))
    (fun i t hw ha => hgap.2 t ((header_iff t).1 hw) (infix_of_at ha))
  rw [← gaps_text, List.nil_append] at hpieces
  have hsp := spans_gaps [] ps _ 0 hpieces.1
  rw [List.length_nil, Nat.add_zero] at hsp
  have hl := C75_loops isSpace ⟨by decide, by decide⟩ ps post [] (fun p hp => List.all_eq_true.2 (hs p hp)) hb
  rw [List.nil_append, List.length_nil] at hl
  have hmap : (ps.map fun p => (⟨p.before, p.header ++ p.space ++ ['{'], p.body⟩ : TextLoop)).mapM
      (fun l => (quadName l.body).map fun q => (⟨q, l⟩ : TLoop)) =
      some (List.zipWith (fun p q => ⟨q, p.before, p.header ++ p.space ++ ['{'], p.body⟩) ps quads) := by
    clear hl hsp hpieces hgap hrev hlen hin htake ht hf hb hs hp hh
    induction hq with
    | nil => rfl
    | cons h1 _ ih => simp only [List.map_cons, List.mapM_cons, h1, ih]; rfl
  rw [parseBody, if_pos htake, hin]
  simp only [hrev, hlen, List.take_left, List.drop_left, hsp, hl, hmap]

/-! ### Names of quadratures -/

/-- C83: the quadrature of a loop, from the tables it uses. -/
theorem C83_quad_tables (body q : List Char) (hq : q.length = 3) (hw : ∀ c ∈ q, isWord c = true) (hsome : chars "_Q" <:+: body)
    (hall : ∀ i, At body i (chars "_Q") → At body i (chars "_Q" ++ q ++ ['['])) : quadName body = some q := by
  obtain ⟨i, hi⟩ := at_of_infix hsome
  have hword : Word quadInBody (chars "_Q" ++ q ++ ['[']) := by
    refine ⟨[q], ?_⟩
    rw [List.append_assoc, quadInBody, lang_lit]
    refine ⟨_, rfl, ?_⟩
    rw [lang_three]
    refine ⟨q, _, [], rfl, rfl, hq, hw, ?_⟩
    rw [lang_one]
    exact ⟨'[', [], rfl, by decide, .eps⟩
  rcases hse : quadInBody.search body with _ | ⟨h, rest⟩
  · exact absurd (hall i hi) (matchAt_complete _ (search_none _ hse i) hword)
  · obtain ⟨h1, h2, h3, h4⟩ := search_some _ hse
    obtain ⟨t', ht', hl⟩ := lang_lit.1 h2
    obtain ⟨u, t'', g', rfl, hg, hu, _, _⟩ := lang_three.1 hl
    have hat : At body h.before.length (chars "_Q") := by
      rw [At, h1, List.append_assoc, List.drop_left, ht']
      exact ⟨u ++ t'' ++ rest, by simp⟩
    obtain ⟨z, hz⟩ := hall _ hat
    rw [h1, List.append_assoc h.before, List.drop_left, ht'] at hz
    simp only [List.append_assoc, List.append_cancel_left_eq] at hz
    have : q = u := (List.append_inj hz (by omega)).1
    rw [quadName, hse]
    show h.groups[0]? = some q
    rw [hg, this]
    rfl

/-- C83: the quadrature of a loop that uses no tables, from its weights. -/
theorem C83_quad_weights (body q : List Char) (hq : q.length = 3) (hw : ∀ c ∈ q, isWord c = true) (hnone : ¬ chars "_Q" <:+: body)
    (hsome : chars "weights_" <:+: body) (hall : ∀ i, At body i (chars "weights_") → At body i (chars "weights_" ++ q)) :
    quadName body = some q := by
  obtain ⟨i, hi⟩ := at_of_infix hsome
  have hword : Word quadInWeights (chars "weights_" ++ q) := by
    refine ⟨[q], ?_⟩
    rw [quadInWeights, lang_lit]
    refine ⟨_, rfl, ?_⟩
    rw [lang_three]
    exact ⟨q, [], [], by simp, rfl, hq, hw, .eps⟩
  have hfirst : quadInBody.search body = none := by
    rcases hse : quadInBody.search body with _ | ⟨h, rest⟩
    · rfl
    · exfalso
      obtain ⟨h1, h2, _, _⟩ := search_some _ hse
      obtain ⟨t', ht', _⟩ := lang_lit.1 h2
      exact hnone ⟨h.before, t' ++ rest, by rw [h1, ht']; simp⟩
  rcases hse : quadInWeights.search body with _ | ⟨h, rest⟩
  · exact absurd (hall i hi) (matchAt_complete _ (search_none _ hse i) hword)
  · obtain ⟨h1, h2, h3, h4⟩ := search_some _ hse
    obtain ⟨t', ht', hl⟩ := lang_lit.1 h2
    obtain ⟨u, t'', g', rfl, hg, hu, _, _⟩ := lang_three.1 hl
    have hat : At body h.before.length (chars "weights_") := by
      rw [At, h1, List.append_assoc, List.drop_left, ht']
      exact ⟨u ++ t'' ++ rest, by simp⟩
    obtain ⟨z, hz⟩ := hall _ hat
    rw [h1, List.append_assoc h.before, List.drop_left, ht'] at hz
    simp only [List.append_assoc, List.append_cancel_left_eq] at hz
    have : q = u := (List.append_inj hz (by omega)).1
    rw [quadName, hfirst, hse, Option.bind_some, hg, this]
    rfl

/-- C83: a loop that uses neither tables nor weights has no quadrature: the code is not accepted. -/
theorem C83_no_quadrature (body : List Char) (hnone : ¬ chars "_Q" <:+: body) (hw : ¬ chars "weights_" <:+: body) :
    quadName body = none := by
  have hfirst : quadInBody.search body = none := by
    rcases hse : quadInBody.search body with _ | ⟨h, rest⟩
    · rfl
    · exfalso
      obtain ⟨h1, h2, _, _⟩ := search_some _ hse
      obtain ⟨t', ht', _⟩ := lang_lit.1 h2
      exact hnone ⟨h.before, t' ++ rest, by rw [h1, ht']; simp⟩
  rcases hse : quadInWeights.search body with _ | ⟨h, rest⟩
  · rw [quadName, hfirst, hse]; rfl
  · exfalso
    obtain ⟨h1, h2, _, _⟩ := search_some _ hse
    obtain ⟨t', ht', _⟩ := lang_lit.1 h2
    exact hw ⟨h.before, t' ++ rest, by rw [h1, ht']; simp⟩

/-! ### Signature -/

/-- The signature of a function of FFCx. -/
def sigText (name args : List Char) : List Char := chars "void tabulate_tensor_integral_" ++ name ++ '(' :: (args ++ [')'])

/-- C83: the function is found in the code, with its name. -/
theorem C83_signature (before name args rest : List Char) (hb : ∀ i, At (before ++ sigText name args ++ rest) i (chars "void") →
    before.length ≤ i) (hn : name ≠ [] ∧ ∀ c ∈ name, isWord c = true)
    (ha : ∀ c ∈ args, isWord c = true ∨ isSpace c = true ∨ c = ',' ∨ c = '*') :
    funcSig.search (before ++ sigText name args ++ rest) = some (⟨before, sigText name args, [name]⟩, rest) := by
  refine search_eq _ _ _ _ (by simp [sigText]) ?_ ?_
  · intro i hi
    exact matchAt_lit_none fun hp => absurd (hb i hp) (by omega)
  · rw [sigText, show chars "void tabulate_tensor_integral_" = chars "void" ++ ([' '] ++ chars "tabulate_tensor_integral_") by
      unfold chars; decide]
    simp only [List.append_assoc, List.cons_append]
    rw [Rx.matchAt, funcSig, run_lit]
    refine run_many (u := [' ']) (by decide) ?_ ?_
    · rw [show chars "tabulate_tensor_integral_" = 't' :: chars "abulate_tensor_integral_" by unfold chars; decide]
      exact stop_cons (by decide)
    · rw [List.nil_append, run_lit]
      refine run_gsome1 hn.1 hn.2 (stop_cons (by decide)) ?_
      refine run_many (u := []) (by simp) (stop_cons (by decide)) ?_
      rw [show '(' :: (args ++ ')' :: rest) = chars "(" ++ (args ++ (chars ")" ++ rest)) by
        rw [show chars "(" = ['('] by unfold chars; decide, show chars ")" = [')'] by unfold chars; decide]; rfl, run_lit]
      refine run_many ?_ ?_ ?_
      · intro c hc
        rcases ha c hc with h | h | h | h <;> simp [h]
      · rw [show chars ")" = [')'] by unfold chars; decide]
        exact stop_cons (by decide)
      · rw [run_lit]
        rfl

/-- C83: the type of the coefficients is that of the parameter `w`, the first one that is `const`. -/
theorem C83_coefficients (a rest : List Char) (d : DType)
    (ha : ∀ i, At (a ++ (chars "const " ++ chars (toC d) ++ chars "* restrict w") ++ rest) i (chars "const") → a.length ≤ i) :
    ∃ h x, wParam.search (a ++ (chars "const " ++ chars (toC d) ++ chars "* restrict w") ++ rest) = some (h, x) ∧
      (h.groups[0]?).bind (fun ty => ofC (String.ofList ty)) = some d := by
  refine ⟨⟨a, chars "const " ++ chars (toC d) ++ chars "* restrict w", [chars (toC d)]⟩, rest, ?_, ?_⟩
  · refine search_eq _ _ _ _ ?_ ?_ ?_
    · rw [show chars "const " = 'c' :: chars "onst " by unfold chars; decide]
      simp
    · intro i hi
      exact matchAt_lit_none fun hp => absurd (ha i hp) (by omega)
    · rw [show chars "const " = chars "const" ++ [' '] by unfold chars; decide,
        show chars "* restrict w" = chars "*" ++ ([' '] ++ (chars "restrict" ++ ([' '] ++ chars "w"))) by unfold chars; decide]
      simp only [List.append_assoc]
      rw [Rx.matchAt, wParam, run_lit]
      refine run_some1 (u := [' ']) (by simp) (by decide) ?_ ?_
      · cases d <;> (unfold chars toC; exact stop_cons (by decide))
      · refine run_gsome1 ?_ ?_ ?_ ?_
        · cases d <;> (unfold chars toC; decide)
        · cases d <;> (unfold chars toC; decide)
        · rw [show chars "*" = ['*'] by unfold chars; decide]
          exact stop_cons (by decide)
        · rw [run_lit]
          refine run_some1 (u := [' ']) (by simp) (by decide) ?_ ?_
          · rw [show chars "restrict" = 'r' :: chars "estrict" by unfold chars; decide]
            exact stop_cons (by decide)
          · rw [run_lit]
            refine run_some1 (u := [' ']) (by simp) (by decide) ?_ ?_
            · rw [show chars "w" = ['w'] by unfold chars; decide]
              exact stop_cons (by decide)
            · rw [run_lit]; rfl
  · show (some (chars (toC d))).bind (fun ty => ofC (String.ofList ty)) = some d
    unfold chars
    rw [Option.bind_some, String.ofList_toList]
    exact (C75_types d).1

/-! ### The whole function -/

/-- The code of FFCx for an integral: a function with loops over points, and other things before and after. -/
structure Source where
  before : List Char
  name : List Char
  args : List Char
  dtype : DType
  pieces : List Piece
  quads : List (List Char)
  post : List Char
  /-- the character after the new line that follows the function -/
  next : Char
  after : List Char

/-- The text of the code. -/
def Source.code (S : Source) : List Char :=
  S.before ++ sigText S.name S.args ++ ('\n' :: (chars "{\n" ++ assemble S.pieces S.post ++ '}' :: '\n' :: S.next :: S.after))

/-- How FFCx writes it. -/
structure Source.Ok (S : Source) : Prop where
  /-- the function is the first thing that is `void` -/
  first : ∀ i, At S.code i (chars "void") → S.before.length ≤ i
  name : S.name ≠ [] ∧ ∀ c ∈ S.name, isWord c = true
  args : ∀ c ∈ S.args, isWord c = true ∨ isSpace c = true ∨ c = ',' ∨ c = '*'
  /-- the first parameter that is `const` is `w` -/
  coeffs : ∃ a rest, sigText S.name S.args = a ++ (chars "const " ++ chars (toC S.dtype) ++ chars "* restrict w") ++ rest ∧
    ∀ i, At (sigText S.name S.args) i (chars "const") → a.length ≤ i
  headers : ∀ p ∈ S.pieces, IsHeader p.header ∧ Blank p.space ∧ Balanced '{' '}' p.body ∧ Free IsHeader p.before ∧ Free IsHeader p.body
  post : Free IsHeader S.post
  quads : List.Forall₂ (fun p q => quadName p.body = some q) S.pieces S.quads
  /-- afterwards there is no bracket at the end of a line -/
  after : ∀ i : Nat, (S.next :: S.after)[i]? = some '}' → (S.next :: S.after)[i + 1]? ≠ some '\n'
  next : S.next ≠ '}'

/-- C83: the code of FFCx is split into what it has. -/
theorem C83_parse (S : Source) (h : S.Ok) :
    fromFfcx S.code = some ⟨S.before, S.after, sigText S.name S.args, S.name,
      List.zipWith (fun p q => ⟨q, p.before, p.header ++ p.space ++ ['{'], p.body⟩) S.pieces S.quads,
      S.post ++ ['}', '\n', S.next], S.dtype⟩ := by
  have hopen : chars "{\n" = ['{', '\n'] := by unfold chars; decide
  have h1 := C83_signature S.before S.name S.args _ h.first h.name h.args
  obtain ⟨a, rest, hsig, hc⟩ := h.coeffs
  obtain ⟨wm, x, hw1, hw2⟩ := C83_coefficients a rest S.dtype (hsig ▸ hc)
  rw [← hsig] at hw1
  have hob : ('\n' :: (chars "{\n" ++ assemble S.pieces S.post ++ '}' :: '\n' :: S.next :: S.after)).idxOf? '{' = some 1 := by
    rw [hopen]
    exact idxOf_append (a := ['\n']) (by decide)
  have hcb := C75_end ('\n' :: (chars "{\n" ++ assemble S.pieces S.post)) (S.next :: S.after) h.after
  rw [List.cons_append] at hcb
  have hlen : ('\n' :: (chars "{\n" ++ assemble S.pieces S.post) ++ ['}', '\n']).length + 1 =
      ('\n' :: (chars "{\n" ++ assemble S.pieces S.post ++ '}' :: ['\n', S.next])).length := by simp [Nat.add_assoc]
  have htext : '\n' :: (chars "{\n" ++ assemble S.pieces S.post ++ '}' :: '\n' :: S.next :: S.after) =
      ('\n' :: (chars "{\n" ++ assemble S.pieces S.post ++ '}' :: ['\n', S.next])) ++ S.after := by simp
  have hbody := C83_loops S.pieces S.quads S.post ['\n', S.next] (fun p hp => (h.headers p hp).1) (fun p hp => (h.headers p hp).2.1)
    (fun p hp => (h.headers p hp).2.2.1) (fun p hp => (h.headers p hp).2.2.2) h.post h.quads (by
      intro hm
      rcases List.mem_cons.1 hm with hm | hm
      · exact absurd hm (by decide)
      · rw [List.mem_singleton] at hm; exact h.next hm.symm)
  rw [hlen] at hcb
  have hslice : slice ('\n' :: (chars "{\n" ++ assemble S.pieces S.post ++ '}' :: '\n' :: S.next :: S.after)) 1
      ('\n' :: (chars "{\n" ++ assemble S.pieces S.post ++ '}' :: ['\n', S.next])).length =
      chars "{\n" ++ assemble S.pieces S.post ++ '}' :: ['\n', S.next] := by
    rw [slice, htext, List.take_left]
    rfl
  have hdrop : ('\n' :: (chars "{\n" ++ assemble S.pieces S.post ++ '}' :: '\n' :: S.next :: S.after)).drop
      ('\n' :: (chars "{\n" ++ assemble S.pieces S.post ++ '}' :: ['\n', S.next])).length = S.after := by
    rw [htext, List.drop_left]
  have hname : ([S.name] : List (List Char))[0]? = some S.name := rfl
  rw [fromFfcx, Source.code, h1]
  simp only [hname, hob, hcb, hw1, hw2, hslice, hbody, hdrop]

/-- C83: nothing of the code is lost: what is read, written again, is the code (with the line break before the bracket removed). -/
theorem C83_render (S : Source) (h : S.Ok) : ∃ b, fromFfcx S.code = some b ∧
    S.code = b.before ++ b.signature ++ '\n' :: (b.renderBody ++ b.after) ∧
    b.render [] = b.signature ++ b.renderBody ++ chars "\n\n" := by
  refine ⟨_, C83_parse S h, ?_, by simp [Body.render]⟩
  have hz : (List.zipWith (fun p q => (⟨q, p.before, p.header ++ p.space ++ ['{'], p.body⟩ : TLoop)) S.pieces S.quads).map (·.loop) =
      S.pieces.map fun p => ⟨p.before, p.header ++ p.space ++ ['{'], p.body⟩ := by
    have hq := h.quads
    generalize S.pieces = ps at hq
    generalize S.quads = qs at hq
    induction hq with
    | nil => rfl
    | cons _ _ ih => simp only [List.zipWith_cons_cons, List.map_cons, ih]
  simp only [Source.code, Body.renderBody, hz, renderLoops, assemble, List.flatMap_map]
  simp

/-- C83: the function of a variant has the name with the suffix, and the same parameters. -/
theorem C83_suffix (name args suffix : List Char) (hn : name ≠ [])
    (hno : ∀ i < (chars "void tabulate_tensor_integral_").length, ¬ At (sigText name args) i name) :
    (lit name .eps).subFirst (fun _ => name ++ suffix) (sigText name args) = sigText (name ++ suffix) args := by
  have hs : (lit name .eps).search (sigText name args) =
      some (⟨chars "void tabulate_tensor_integral_", name, []⟩, '(' :: (args ++ [')'])) := by
    refine search_eq _ _ _ _ hn ?_ ?_
    · intro i hi
      exact matchAt_lit_none (hno i hi)
    · rw [Rx.matchAt, run_lit]; rfl
  rw [Rx.subFirst, hs]
  simp [sigText]

/-- C83: what is written for a variant of the function of the code of FFCx: its name with the suffix, the same parameters and body. -/
theorem C83_render_suffix (S : Source) (h : S.Ok) (suffix : List Char) (hs : suffix ≠ [])
    (hno : ∀ i < (chars "void tabulate_tensor_integral_").length, ¬ At (sigText S.name S.args) i S.name) :
    ∃ b, fromFfcx S.code = some b ∧ b.render suffix = sigText (S.name ++ suffix) S.args ++ b.renderBody ++ chars "\n\n" := by
  refine ⟨_, C83_parse S h, ?_⟩
  have he : suffix.isEmpty = false := by cases suffix with
    | nil => exact absurd rfl hs
    | cons _ _ => rfl
  unfold Body.render
  rw [he, if_neg (by simp)]
  have := C83_suffix S.name S.args suffix h.name.1 hno
  simp only [this]

end Qugar.Py.Text
