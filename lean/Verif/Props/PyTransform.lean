import Verif.Props.PyText
/-
C84: the transformations of the text of a kernel change exactly what they have to.
-/
namespace Qugar.Py.Text
open Regex Kernel

/-- The longest beginning of a text with characters of a class is unique. -/
theorem munch {p : Char → Bool} {u u' x x' : List Char} (hu : ∀ c ∈ u, p c = true) (hu' : ∀ c ∈ u', p c = true) (hx : Stop p x)
    (hx' : Stop p x') (h : u ++ x = u' ++ x') : u = u' := by
  induction u generalizing u' with
  | nil =>
    cases u' with
    | nil => rfl
    | cons c u' =>
      exact (stop_long (b := u' ++ x') hx (a := [c]) (by simpa using h) (by simp) (by simpa using hu' c (List.mem_cons_self ..))).elim
  | cons c u ih =>
    cases u' with
    | nil =>
      exact (stop_long (b := u ++ x) hx' (a := [c]) (by simpa using h.symm) (by simp) (by simpa using hu c (List.mem_cons_self ..))).elim
    | cons c' u' =>
      simp only [List.cons_append, List.cons.injEq] at h
      rw [h.1, ih (fun d hd => hu d (List.mem_cons_of_mem _ hd)) (fun d hd => hu' d (List.mem_cons_of_mem _ hd)) h.2]

/-! ### Bounds of loops -/

/-- C84: the bound of a loop becomes the number of points of its quadrature; nothing else of the header changes. -/
theorem C84_bounds (quad h space : List Char) (hh : IsHeader h) :
    boundText quad (h ++ space ++ ['{']) = chars "for (int iq = 0; iq < n_pts_Q" ++ quad ++ chars "; ++iq)" ++ space ++ ['{'] := by
  have hw := (header_iff h).2 hh
  obtain ⟨g, hm, _⟩ := token_matchAt header header_token hw (space ++ ['{'])
  have := search_eq header [] h (space ++ ['{']) (header_token.nonempty h hw) (by simp) hm
  rw [List.nil_append] at this
  rw [boundText, Rx.subFirst, List.append_assoc h, this]
  simp

/-! ### Normals -/

/-- The characters that can be before a constant. -/
def isSep (c : Char) : Bool := c = '*' || c = '+' || c = '-' || c = '/' || c = '%' || isSpace c || c = '('

/-- Operands of the code: constants of the form and components of normals. -/
inductive Operand where
  | const (k : Nat)
  | normal (i : Nat)
deriving DecidableEq

/-- How an operand is written: `c[k]` or `normals_q[tdim * iq + i]`. -/
def Operand.text (quad : List Char) (tdim : Nat) : Operand → List Char
  | .const k => ['c', '['] ++ Nat.toDigits 10 k ++ [']']
  | .normal i => normalText quad tdim i

/-- A piece of code: some text, a separator and an operand. -/
structure Chunk where
  text : List Char
  sep : Char
  operand : Operand

/-- The code. -/
def chunksText (quad : List Char) (tdim : Nat) (cs : List Chunk) (last : List Char) : List Char :=
  (cs.flatMap fun c => c.text ++ c.sep :: c.operand.text quad tdim) ++ last

/-- No reference to a constant. -/
def NoRef (text : List Char) : Prop := ∀ i s, isSep s = true → ¬ At text i [s, 'c', '[']

/-- The chunks of FFCx. -/
def Chunk.Ok (c : Chunk) : Prop := isSep c.sep = true ∧ NoRef (c.text ++ [c.sep])

/-- The component of the normal that a constant stands for, if any. -/
def normalOf (tdim : Nat) (offsets : List Nat) : Operand → Operand
  | .const k => match offsets.find? fun off => off ≤ k && k < off + tdim with
    | some off => .normal (k - off)
    | none => .const k
  | o => o

theorem digits_isDigit (n : Nat) : ∀ c ∈ Nat.toDigits 10 n, isDigit c = true := by
  intro c hc
  have := Nat.isDigit_of_mem_toDigits (by decide) (by decide) hc
  simp only [Char.isDigit, Bool.and_eq_true, decide_eq_true_eq] at this
  simp only [isDigit, Bool.and_eq_true, decide_eq_true_eq]
  exact this

theorem natOf_digits (n : Nat) : natOf (Nat.toDigits 10 n) = n := by
  have := Nat.ofDigitChars_ten_toDigits (n := n)
  rw [Nat.ofDigitChars_eq_foldl] at this
  exact this

theorem digits_inj {n m : Nat} (h : Nat.toDigits 10 n = Nat.toDigits 10 m) : n = m := by
  rw [← natOf_digits n, h, natOf_digits]

theorem sep_not_digit {c : Char} (h : isDigit c = true) : isSep c = false := by
  rcases hs : isSep c with _ | _
  · rfl
  · exfalso
    simp only [isDigit, Bool.and_eq_true, decide_eq_true_eq] at h
    simp only [isSep, isSpace, Bool.or_eq_true, decide_eq_true_eq] at hs
    have h1 : 48 ≤ c.toNat := h.1
    rcases hs with (((((rfl | rfl) | rfl) | rfl) | rfl) | (((((rfl | rfl) | rfl) | rfl) | hs) | hs)) | rfl
    all_goals first
      | exact absurd h1 (by decide)
      | omega

theorem constRef_iff (k t : List Char) (g : List (List Char)) :
    Lang (constRef k) t g ↔ ∃ s, isSep s = true ∧ t = s :: 'c' :: '[' :: (k ++ [']']) ∧ g = [[s]] := by
  have h1 : chars "c[" = ['c', '['] := by unfold chars; decide
  have h2 : chars "]" = [']'] := by unfold chars; decide
  rw [constRef, lang_gcat]
  constructor
  · rintro ⟨u, t', ga, g', rfl, rfl, ha, hl⟩
    cases ha with
    | @chr _ c hp =>
      simp only [lang_lit, lang_eps, h1, h2] at hl
      obtain ⟨_, rfl, _, rfl, _, rfl, rfl, rfl⟩ := hl
      exact ⟨c, hp, by simp, rfl⟩
  · rintro ⟨s, hs, rfl, rfl⟩
    refine ⟨[s], 'c' :: '[' :: (k ++ [']']), [], [], rfl, rfl, .chr hs, ?_⟩
    simp only [lang_lit, lang_eps, h1, h2]
    exact ⟨_, rfl, _, rfl, [], by simp, rfl, trivial⟩

theorem constRef_token (k : Nat) : Token (constRef (Nat.toDigits 10 k)) where
  nonempty := by
    rintro t ⟨g, h⟩ rfl
    obtain ⟨s, _, h, _⟩ := (constRef_iff _ _ _).1 h
    simp at h
  apart := apart_of_first (fun c => isSep c = true) fun t ⟨g, h⟩ => by
    obtain ⟨s, hs, rfl, _⟩ := (constRef_iff _ _ _).1 h
    refine ⟨s, _, rfl, hs, ?_⟩
    intro d hd
    simp only [List.mem_cons, List.mem_append, List.not_mem_nil, or_false] at hd
    rcases hd with rfl | rfl | hd | rfl
    · decide
    · decide
    · simp [sep_not_digit (digits_isDigit k d hd)]
    · decide
  prefixFree := by
    rintro t t' ⟨g, h⟩ ⟨g', h'⟩ hp
    obtain ⟨s, _, rfl, _⟩ := (constRef_iff _ _ _).1 h
    obtain ⟨s', _, rfl, _⟩ := (constRef_iff _ _ _).1 h'
    exact hp.eq_of_length (by simp)

theorem matchAt_noRef {k text : List Char} (h : ∀ s, isSep s = true → ¬ [s, 'c', '['] <+: text) : (constRef k).matchAt text = none := by
  rcases hm : (constRef k).matchAt text with _ | ⟨rest, g⟩
  · rfl
  · exfalso
    obtain ⟨t, rfl, hl⟩ := matchAt_sound _ hm
    obtain ⟨s, hs, rfl, _⟩ := (constRef_iff _ _ _).1 hl
    exact h s hs ⟨_, rfl⟩

/-- All separators are followed by something that is not `c`. -/
def Quiet : List Char → Prop
  | [] => True
  | c :: l => (isSep c = true → ∃ d l', l = d :: l' ∧ d ≠ 'c') ∧ Quiet l

theorem Quiet.append {a b : List Char} (ha : Quiet a) (hb : Quiet b) : Quiet (a ++ b) := by
  induction a with
  | nil => exact hb
  | cons c a ih =>
    refine ⟨fun hs => ?_, ih ha.2⟩
    obtain ⟨d, l', rfl, hd⟩ := ha.1 hs
    exact ⟨d, l' ++ b, rfl, hd⟩

theorem Quiet.of_none {a : List Char} (h : ∀ c ∈ a, isSep c = false) : Quiet a := by
  induction a with
  | nil => trivial
  | cons c a ih =>
    refine ⟨fun hs => ?_, ih fun d hd => h d (List.mem_cons_of_mem _ hd)⟩
    rw [h c (List.mem_cons_self ..)] at hs
    simp at hs

theorem Quiet.noRef {l : List Char} (h : Quiet l) (rest : List Char) (j : Nat) (hj : j < l.length) (s : Char) (hs : isSep s = true) :
    ¬ [s, 'c', '['] <+: (l ++ rest).drop j := by
  induction l generalizing j with
  | nil => simp at hj
  | cons c l ih =>
    cases j with
    | zero =>
      rw [List.drop_zero, List.cons_append, List.cons_prefix_cons]
      rintro ⟨rfl, hp⟩
      obtain ⟨d, l', rfl, hd⟩ := h.1 hs
      rw [List.cons_append, List.cons_prefix_cons] at hp
      exact hd hp.1.symm
    | succ j => exact ih h.2 j (by simpa using hj)

theorem sep_not_word {c : Char} (h : isWord c = true) : isSep c = false := by
  rcases hs : isSep c with _ | _
  · rfl
  · exfalso
    simp only [isSep, isSpace, Bool.or_eq_true, decide_eq_true_eq] at hs
    rcases hs with (((((rfl | rfl) | rfl) | rfl) | rfl) | (((((rfl | rfl) | rfl) | rfl) | hs) | hs)) | rfl
    all_goals first
      | exact absurd h (by decide)
      | skip
    all_goals
      simp only [isWord, isDigit, Bool.or_eq_true, Bool.and_eq_true, decide_eq_true_eq] at h
      rcases h with ((h | h) | h) | rfl
      · have h1 : 48 ≤ c.toNat := h.1
        omega
      · have h1 : 97 ≤ c.toNat := h.1
        omega
      · have h1 : 65 ≤ c.toNat := h.1
        omega
      · exact absurd hs (by decide)

theorem digits_cons (n : Nat) : ∃ d ds, Nat.toDigits 10 n = d :: ds ∧ isDigit d = true := by
  obtain ⟨d, ds, h⟩ := List.exists_cons_of_ne_nil (Nat.toDigits_ne_nil (b := 10) (n := n))
  exact ⟨d, ds, h, digits_isDigit n d (h ▸ List.mem_cons_self ..)⟩

theorem quiet_digits (n : Nat) : Quiet (Nat.toDigits 10 n) := .of_none fun c hc => sep_not_digit (digits_isDigit n c hc)

theorem quiet_normal (quad : List Char) (tdim i : Nat) (hq : ∀ c ∈ quad, isWord c = true) : Quiet (normalText quad tdim i) := by
  rw [normalText]
  refine .append (.append (.append (.append (.append (.append ?_ ?_) ?_) ?_) ?_) ?_) ?_
  · exact .of_none (by unfold chars; decide)
  · exact .of_none fun c hc => sep_not_word (hq c hc)
  · exact .of_none (by unfold chars; decide)
  · exact quiet_digits tdim
  · rw [show chars " * iq" = [' ', '*', ' ', 'i', 'q'] by unfold chars; decide]
    exact ⟨fun _ => ⟨_, _, rfl, by decide⟩, fun _ => ⟨_, _, rfl, by decide⟩, fun _ => ⟨_, _, rfl, by decide⟩,
      .of_none (by decide)⟩
  · split
    · rw [show chars " + " = [' ', '+', ' '] by unfold chars; decide]
      obtain ⟨d, ds, hd, hdd⟩ := digits_cons i
      refine ⟨fun _ => ⟨_, _, rfl, by decide⟩, fun _ => ⟨_, _, rfl, by decide⟩, fun _ => ⟨d, ds, hd, ?_⟩, quiet_digits i⟩
      rintro rfl
      exact absurd hdd (by decide)
    · trivial
  · exact .of_none (by unfold chars; decide)

theorem quiet_const (k : Nat) : Quiet (['c', '['] ++ Nat.toDigits 10 k ++ [']']) :=
  .append (.append (.of_none (by decide)) (quiet_digits k)) (.of_none (by decide))

theorem operand_head (quad : List Char) (tdim : Nat) (o : Operand) : ∃ c l, o.text quad tdim = c :: l ∧ c ≠ '[' := by
  cases o with
  | const k => exact ⟨'c', _, rfl, by decide⟩
  | normal i =>
    refine ⟨'n', chars "ormals_" ++ quad ++ chars "[" ++ Nat.toDigits 10 tdim ++ chars " * iq" ++
      (if 0 < i then chars " + " ++ Nat.toDigits 10 i else []) ++ chars "]", ?_, by decide⟩
    rw [Operand.text, normalText, show chars "normals_" = 'n' :: chars "ormals_" by unfold chars; decide]
    rfl

theorem operand_quiet (quad : List Char) (tdim : Nat) (hq : ∀ c ∈ quad, isWord c = true) (o : Operand) : Quiet (o.text quad tdim) := by
  cases o with
  | const k => exact quiet_const k
  | normal i => exact quiet_normal quad tdim i hq

/-- No reference begins before the separator of a chunk. -/
theorem chunk_noRef {c : Chunk} (hc : c.Ok) {d : Char} {x : List Char} (hd : d ≠ '[') (i : Nat) (hi : i < c.text.length) (s : Char)
    (hs : isSep s = true) : ¬ [s, 'c', '['] <+: (c.text ++ c.sep :: d :: x).drop i := by
  intro hp
  have h := hc.2 i s hs
  rw [At] at h
  apply h
  have hlen : (c.text ++ c.sep :: d :: x).drop i = (c.text ++ [c.sep]).drop i ++ d :: x := by
    rw [show c.text ++ c.sep :: d :: x = (c.text ++ [c.sep]) ++ d :: x by simp,
      List.drop_append_of_le_length (by simp only [List.length_append, List.length_singleton]; omega)]
  rw [hlen] at hp
  rcases Nat.lt_or_ge ((c.text ++ [c.sep]).drop i).length 3 with hlt | hge
  · exfalso
    have h2 : ((c.text ++ [c.sep]).drop i).length = 2 := by
      simp only [List.length_drop, List.length_append, List.length_singleton] at hlt ⊢
      omega
    match hz : (c.text ++ [c.sep]).drop i, h2 with
    | [a, b], _ =>
      rw [hz] at hp
      simp only [List.cons_append, List.nil_append, List.cons_prefix_cons] at hp
      exact hd hp.2.2.1.symm
  · exact List.prefix_of_prefix_length_le hp (List.prefix_append _ _) hge

/-- One replacement: the operands that are that constant. -/
def replaceOperand (k i : Nat) : Operand → Operand
  | .const k' => if k' = k then .normal i else .const k'
  | o => o

theorem replaceText_chunks (quad : List Char) (tdim k i : Nat) (hq : ∀ c ∈ quad, isWord c = true) (cs : List Chunk) (last : List Char)
    (hc : ∀ c ∈ cs, c.Ok) (hl : NoRef last) :
    replaceText quad tdim k i (chunksText quad tdim cs last) =
      chunksText quad tdim (cs.map fun c => { c with operand := replaceOperand k i c.operand }) last := by
  have hprop : Proper (constRef (Nat.toDigits 10 k)) := (constRef_token k).proper
  induction cs with
  | nil =>
    rw [replaceText, chunksText, List.flatMap_nil, List.nil_append]
    have := sub_skip _ hprop (fun h => h.groups.headD [] ++ normalText quad tdim i) (fun _ _ => rfl) last [] (by
      intro j _
      rw [List.append_nil]
      exact matchAt_noRef fun s hs => hl j s hs)
    rw [List.append_nil, sub_nil _ hprop, List.append_nil] at this
    rw [this]
    simp [chunksText]
  | cons c cs ih =>
    have hcc := hc c (List.mem_cons_self ..)
    have ih' := ih fun c' hc' => hc c' (List.mem_cons_of_mem _ hc')
    rw [replaceText] at ih' ⊢
    obtain ⟨d, x, hx, hd⟩ := operand_head quad tdim c.operand
    have htext : chunksText quad tdim (c :: cs) last = c.text ++ (c.sep :: c.operand.text quad tdim ++ chunksText quad tdim cs last) := by
      simp [chunksText]
    have hnew : chunksText quad tdim ((c :: cs).map fun c => { c with operand := replaceOperand k i c.operand }) last =
        c.text ++ (c.sep :: (replaceOperand k i c.operand).text quad tdim ++
          chunksText quad tdim (cs.map fun c => { c with operand := replaceOperand k i c.operand }) last) := by
      simp [chunksText]
    rw [htext, hnew]
    rw [sub_skip _ hprop _ (fun _ _ => rfl) c.text _ (by
      intro j hj
      rw [hx, List.cons_append, List.cons_append]
      exact matchAt_noRef (chunk_noRef hcc hd j hj))]
    congr 1
    by_cases ho : c.operand = .const k
    · obtain ⟨g, hm, hg⟩ := token_matchAt _ (constRef_token k) (w := c.sep :: c.operand.text quad tdim)
        ⟨[[c.sep]], (constRef_iff _ _ _).2 ⟨c.sep, hcc.1, by rw [ho]; simp [Operand.text], rfl⟩⟩ (chunksText quad tdim cs last)
      obtain ⟨s, _, hs, rfl⟩ := (constRef_iff _ _ _).1 hg
      rw [List.cons.injEq] at hs
      rw [sub_hit _ hprop _ _ _ hm, ih', ho, ← hs.1]
      simp [replaceOperand, Operand.text]
    · have hsame : replaceOperand k i c.operand = c.operand := by
        cases hop : c.operand with
        | const k' =>
          rw [replaceOperand, if_neg]
          rintro rfl
          exact ho hop
        | normal _ => rfl
      rw [hsame, sub_skip _ hprop _ (fun _ _ => rfl) (c.sep :: c.operand.text quad tdim) _ ?_, ih']
      intro j hj
      cases j with
      | zero =>
        rcases hm : (constRef (Nat.toDigits 10 k)).matchAt (List.drop 0 (c.sep :: c.operand.text quad tdim ++ chunksText quad tdim cs last)) with
          _ | ⟨rest, g⟩
        · rfl
        · exfalso
          obtain ⟨t, ht, hlang⟩ := matchAt_sound _ hm
          obtain ⟨s, hs, rfl, _⟩ := (constRef_iff _ _ _).1 hlang
          rw [List.drop_zero, List.cons_append, List.cons_append, List.cons.injEq] at ht
          have ht2 := ht.2
          cases hop : c.operand with
          | const k' =>
            rw [hop, Operand.text] at ht2
            simp only [List.cons_append, List.nil_append, List.cons.injEq, true_and, List.append_assoc] at ht2
            have hkk : Nat.toDigits 10 k' = Nat.toDigits 10 k := munch (p := isDigit) (digits_isDigit k') (digits_isDigit k)
              (stop_cons (by decide)) (stop_cons (by decide)) ht2
            exact ho (by rw [hop, digits_inj hkk])
          | normal i' =>
            rw [hop, Operand.text, normalText, show chars "normals_" = 'n' :: chars "ormals_" by unfold chars; decide] at ht2
            simp only [List.cons_append, List.cons.injEq] at ht2
            exact absurd ht2.1 (by decide)
      | succ j =>
        refine matchAt_noRef fun s hs => ?_
        rw [List.cons_append, List.drop_succ_cons]
        exact (operand_quiet quad tdim hq c.operand).noRef _ j (by simpa using hj) s hs

theorem replace_steps (tdim : Nat) (offsets : List Nat) (o : Operand) :
    offsets.foldl (fun o off => (List.range tdim).foldl (fun o i => replaceOperand (off + i) i o) o) o = normalOf tdim offsets o := by
  have hnormal : ∀ (offs : List Nat) i, offs.foldl (fun o off => (List.range tdim).foldl (fun o i => replaceOperand (off + i) i o) o)
      (.normal i) = .normal i := by
    intro offs i
    induction offs with
    | nil => rfl
    | cons off offs ih =>
      rw [List.foldl_cons]
      have : ∀ l : List Nat, l.foldl (fun o i => replaceOperand (off + i) i o) (.normal i) = .normal i := by
        intro l
        induction l with
        | nil => rfl
        | cons _ l ihl => rw [List.foldl_cons]; exact ihl
      rw [this, ih]
  have hrange : ∀ n off k, (List.range n).foldl (fun o i => replaceOperand (off + i) i o) (.const k) =
      if off ≤ k ∧ k < off + n then .normal (k - off) else .const k := by
    intro n off k
    induction n with
    | zero => rw [if_neg (by omega)]; rfl
    | succ n ih =>
      rw [List.range_succ, List.foldl_append, ih, List.foldl_cons, List.foldl_nil]
      by_cases h : off ≤ k ∧ k < off + n
      · rw [if_pos h, if_pos (by omega)]; rfl
      · rw [if_neg h, replaceOperand]
        by_cases hk : k = off + n
        · rw [if_pos hk, if_pos (by omega)]; congr 1; omega
        · rw [if_neg hk, if_neg (by omega)]
  cases o with
  | normal i => rw [hnormal]; rfl
  | const k =>
    induction offsets with
    | nil => rfl
    | cons off offs ih =>
      rw [List.foldl_cons, hrange, normalOf, List.find?_cons]
      by_cases h : off ≤ k ∧ k < off + tdim
      · rw [if_pos h, hnormal]
        simp [h.1, h.2]
      · rw [if_neg h, ih, normalOf]
        have : (decide (off ≤ k) && decide (k < off + tdim)) = false := by
          rw [Bool.and_eq_false_iff, decide_eq_false_iff_not, decide_eq_false_iff_not]
          omega
        rw [this]

/-- C84: in the loops over unfitted boundaries the constants that stand for the normals, and only those, become the components of the
normal at the point. -/
theorem C84_normals (quad : List Char) (tdim : Nat) (offsets : List Nat) (hq : ∀ c ∈ quad, isWord c = true) (cs : List Chunk)
    (last : List Char) (hc : ∀ c ∈ cs, c.Ok) (hl : NoRef last) :
    normalsText quad tdim offsets (chunksText quad tdim cs last) =
      chunksText quad tdim (cs.map fun c => { c with operand := normalOf tdim offsets c.operand }) last := by
  have hstep : ∀ (l : List Nat) (off : Nat) (cs : List Chunk), (∀ c ∈ cs, c.Ok) →
      l.foldl (fun b i => replaceText quad tdim (off + i) i b) (chunksText quad tdim cs last) =
        chunksText quad tdim (cs.map fun c => { c with operand := l.foldl (fun o i => replaceOperand (off + i) i o) c.operand }) last := by
    intro l off
    induction l with
    | nil => intro cs _; simp
    | cons i l ih =>
      intro cs hcs
      rw [List.foldl_cons, replaceText_chunks quad tdim _ i hq cs last hcs hl, ih _ (by
        intro c hcm
        obtain ⟨c', hc', rfl⟩ := List.mem_map.1 hcm
        exact hcs c' hc'), List.map_map]
      rfl
  have hall : ∀ (offs : List Nat) (cs : List Chunk), (∀ c ∈ cs, c.Ok) → normalsText quad tdim offs (chunksText quad tdim cs last) =
      chunksText quad tdim (cs.map fun c => { c with operand := (offs.foldl (fun o off =>
        (List.range tdim).foldl (fun o i => replaceOperand (off + i) i o) o) c.operand) }) last := by
    intro offs
    induction offs with
    | nil => intro cs _; simp [normalsText]
    | cons off offs ih =>
      intro cs hcs
      have := ih (cs.map fun c => { c with operand := (List.range tdim).foldl (fun o i => replaceOperand (off + i) i o) c.operand }) (by
        intro c hcm
        obtain ⟨c', hc', rfl⟩ := List.mem_map.1 hcm
        exact hcs c' hc')
      rw [normalsText] at this ⊢
      rw [List.foldl_cons, hstep _ off cs hcs, this, List.map_map]
      rfl
  rw [hall offsets cs hc]
  simp only [replace_steps]

/-- C84: a constant after any other character (here a comma) is not replaced. FFCx always writes a space. -/
theorem C84_normals_comma_fails :
    normalsText (chars "083") 2 [0] (chars "pow(c[0],c[1])") = chars "pow(normals_083[2 * iq],c[1])" := by decide +kernel

/-! ### Accesses to tables -/

/-- Indices that FFCx writes: without brackets, or an entry of an array. -/
def IndexOk (i : List Char) : Prop :=
  ('[' ∉ i ∧ ']' ∉ i ∧ Stop isSpace i) ∨
    ∃ w d, i = w ++ '[' :: (d ++ [']']) ∧ w ≠ [] ∧ (∀ c ∈ w, isWord c = true) ∧ d ≠ [] ∧ ∀ c ∈ d, isDigit c = true

/-- An access to a table, the spaces after it and the text up to the next one. -/
structure Access where
  name : List Char
  perm : List Char
  entity : List Char
  point : List Char
  dof : List Char
  space : List Char
  text : List Char

/-- `FEname[perm][entity][point][dof]`. -/
def Access.code (a : Access) : List Char :=
  'F' :: 'E' :: (a.name ++ '[' :: (a.perm ++ ']' :: '[' :: (a.entity ++ ']' :: '[' :: (a.point ++ ']' :: '[' :: (a.dof ++ [']'])))))

/-- How FFCx writes it. -/
structure Access.Ok (a : Access) : Prop where
  name : a.name ≠ [] ∧ ∀ c ∈ a.name, isWord c = true
  perm : IndexOk a.perm
  entity : IndexOk a.entity
  point : IndexOk a.point
  dof : IndexOk a.dof
  space : Blank a.space
  text : Stop isSpace a.text ∧ ¬ chars "FE" <:+: a.text

/-- The code. -/
def accessesText (first : List Char) (as : List Access) : List Char := first ++ as.flatMap fun a => a.code ++ a.space ++ a.text

/-- What the access becomes: the same, if the table is not known or has the same values at all the points. -/
def Access.new (tables : List Char → Option TableInfo) (hasPerms : Bool) (a : Access) : Option (List Char) :=
  match tables ('F' :: 'E' :: a.name) with
  | none => some (a.code ++ a.space)
  | some t => if t.const then some (a.code ++ a.space) else newAccess t a.perm a.point a.dof hasPerms

theorem chars_open : chars "[" = ['['] := by unfold chars; decide
theorem chars_close : chars "]" = [']'] := by unfold chars; decide
theorem chars_FE : chars "FE" = ['F', 'E'] := by unfold chars; decide

theorem word_not_space {c : Char} (h : isWord c = true) : isSpace c = false := by
  rcases hs : isSpace c with _ | _
  · rfl
  · have := sep_not_word h
    simp [isSep, hs] at this

theorem run_gcat_alt {β : Type} (A B R : Rx) (s : List Char) (gs : List (List Char)) (k : List Char → List (List Char) → Option β) :
    (Rx.cat (.grp (.alt A B)) R).run s gs k =
      (A.run s gs fun s' gs' => R.run s' (gs' ++ [s.take (s.length - s'.length)]) k).or
        (B.run s gs fun s' gs' => R.run s' (gs' ++ [s.take (s.length - s'.length)]) k) := rfl

/-- An entry of an array: `name[number]`. -/
def entry : Rx := some1 isWord <| lit (chars "[") <| some1 isDigit <| lit (chars "]") .eps

theorem open_mem {i rest w t : List Char} (hu : i ++ ']' :: rest = w ++ '[' :: t) (hw : ∀ c ∈ w, isWord c = true) : '[' ∈ i := by
  induction i generalizing w with
  | nil =>
    cases w with
    | nil => simp at hu
    | cons c w =>
      simp only [List.nil_append, List.cons_append, List.cons.injEq] at hu
      have := hw c (List.mem_cons_self ..)
      rw [← hu.1] at this
      exact absurd this (by decide)
  | cons c i ih =>
    cases w with
    | nil =>
      simp only [List.nil_append, List.cons_append, List.cons.injEq] at hu
      exact hu.1 ▸ List.mem_cons_self ..
    | cons c' w =>
      simp only [List.cons_append, List.cons.injEq] at hu
      exact List.mem_cons_of_mem _ (ih hu.2 fun d hd => hw d (List.mem_cons_of_mem _ hd))

theorem entry_none {β : Type} {i rest : List Char} (hno : '[' ∉ i) (gs : List (List Char)) (K : List Char → List (List Char) → Option β) :
    entry.run (i ++ ']' :: rest) gs K = none := by
  rcases hr : entry.run (i ++ ']' :: rest) gs K with _ | x
  · rfl
  · exfalso
    obtain ⟨u, rest', g, hu, hl, _⟩ := run_sound _ _ _ _ hr
    simp only [entry, lang_some1, lang_lit, chars_open] at hl
    obtain ⟨w, _, rfl, _, hw, t, rfl, _⟩ := hl
    exact hno (open_mem (by simpa using hu) hw)

theorem entry_some {β : Type} {w d rest : List Char} (hw : w ≠ []) (hww : ∀ c ∈ w, isWord c = true) (hd : d ≠ [])
    (hdd : ∀ c ∈ d, isDigit c = true) (gs : List (List Char)) (K : List Char → List (List Char) → Option β) {v : β}
    (h : K (']' :: rest) gs = some v) : entry.run ((w ++ '[' :: (d ++ [']'])) ++ ']' :: rest) gs K = some v := by
  rw [List.append_assoc, entry]
  refine run_some1 hw hww (stop_cons (by decide)) ?_
  rw [chars_open, chars_close, show '[' :: (d ++ [']']) ++ ']' :: rest = ['['] ++ (d ++ ([']'] ++ ']' :: rest)) by simp, run_lit]
  refine run_some1 hd hdd (stop_cons (by decide)) ?_
  rw [run_lit]
  exact h

theorem run_bracket {β : Type} {r : Rx} {i sp rest : List Char} {gs : List (List Char)} {k : List Char → List (List Char) → Option β} {v : β}
    (hi : IndexOk i) (hsp : Blank sp) (hrest : Stop isSpace rest) (h : r.run rest (gs ++ [i]) k = some v) :
    (bracket r).run ('[' :: (i ++ ']' :: (sp ++ rest))) gs k = some v := by
  have htail : (many isSpace <| lit (chars "]") <| many isSpace r).run (']' :: (sp ++ rest)) (gs ++ [i]) k = some v := by
    refine run_many (u := []) (by simp) (stop_cons (by decide)) ?_
    rw [chars_close, show ']' :: (sp ++ rest) = [']'] ++ (sp ++ rest) from rfl, run_lit]
    exact run_many hsp hrest h
  have hstop : Stop isSpace (i ++ ']' :: (sp ++ rest)) := by
    rcases hi with ⟨_, _, hs⟩ | ⟨w, d, rfl, hw, hww, _⟩
    · cases i with
      | nil => exact stop_cons (by decide)
      | cons c i => exact fun c' hc' => hs c' hc'
    · obtain ⟨c, w', rfl⟩ := List.exists_cons_of_ne_nil hw
      exact stop_cons (word_not_space (hww c (List.mem_cons_self ..)))
  rw [bracket, chars_open, show '[' :: (i ++ ']' :: (sp ++ rest)) = ['['] ++ (i ++ ']' :: (sp ++ rest)) from rfl, run_lit]
  refine run_many (u := []) (x := i ++ ']' :: (sp ++ rest)) (by simp) hstop ?_
  rw [run_gcat_alt, ← chars_open]
  rcases hi with ⟨hno, hnc, _⟩ | ⟨w, d, rfl, hw, hww, hd, hdd⟩
  · have hleft := entry_none (β := β) (rest := sp ++ rest) hno gs
    rw [entry] at hleft
    rw [hleft, Option.none_or]
    refine starRun_stop _ _ i _ (fun c hc => by
      rw [decide_eq_true_eq]
      rintro rfl
      exact hnc hc) (stop_cons (by decide)) ?_
    simp only [take_append_sub]
    exact htail
  · have hleft := entry_some (β := β) (rest := sp ++ rest) hw hww hd hdd gs
      (fun s' gs' => (many isSpace <| lit (chars "]") <| many isSpace r).run s'
          (gs' ++ [((w ++ '[' :: (d ++ [']'])) ++ ']' :: (sp ++ rest)).take
            (((w ++ '[' :: (d ++ [']'])) ++ ']' :: (sp ++ rest)).length - s'.length)]) k) (v := v) (by
        simp only [take_append_sub]
        exact htail)
    rw [entry] at hleft
    rw [hleft]
    rfl

theorem matchAt_access (a : Access) (ha : a.Ok) {rest : List Char} (hrest : Stop isSpace rest) :
    tableAccess.matchAt ((a.code ++ a.space) ++ rest) = some (rest, [a.name, a.perm, a.entity, a.point, a.dof]) := by
  have htext : (a.code ++ a.space) ++ rest = ['F', 'E'] ++ (a.name ++ '[' :: (a.perm ++ ']' :: ([] ++ '[' :: (a.entity ++ ']' :: ([] ++
      '[' :: (a.point ++ ']' :: ([] ++ '[' :: (a.dof ++ ']' :: (a.space ++ rest))))))))) := by simp [Access.code]
  rw [htext, Rx.matchAt, tableAccess, chars_FE, run_lit]
  refine run_gsome1 ha.name.1 (fun c hc => by simp [ha.name.2 c hc]) (stop_cons (by decide)) ?_
  refine run_many (u := []) (by simp) (stop_cons (by decide)) ?_
  refine run_bracket ha.perm (by simp [Blank]) (stop_cons (by decide)) ?_
  refine run_bracket ha.entity (by simp [Blank]) (stop_cons (by decide)) ?_
  refine run_bracket ha.point (by simp [Blank]) (stop_cons (by decide)) ?_
  exact run_bracket ha.dof ha.space hrest rfl

theorem access_skip {x b : List Char} (hx : ¬ chars "FE" <:+: x) (hb : ∀ c ∈ b.head?, c ≠ 'E') (i : Nat) (hi : i < x.length) :
    tableAccess.matchAt ((x ++ b).drop i) = none := by
  refine matchAt_lit_none fun hp => hx ?_
  rw [chars_FE] at hp ⊢
  rw [List.drop_append_of_le_length (by omega)] at hp
  rcases Nat.lt_or_ge (x.drop i).length 2 with hlt | hge
  · exfalso
    have : (x.drop i).length = 1 := by rw [List.length_drop] at hlt ⊢; omega
    match hz : x.drop i, this with
    | [c], _ =>
      rw [hz] at hp
      cases b with
      | nil => simp at hp
      | cons d b =>
        simp only [List.cons_append, List.nil_append, List.cons_prefix_cons] at hp
        exact hb d rfl hp.2.1.symm
  · exact (List.prefix_of_prefix_length_le hp (List.prefix_append _ _) hge).isInfix.trans (List.drop_suffix i x).isInfix

theorem proper_access : Proper tableAccess := by
  rw [tableAccess, chars_FE]
  exact proper_lit

theorem items_head (as : List Access) : ∀ c ∈ (as.flatMap fun a => a.code ++ a.space ++ a.text).head?, c = 'F' := by
  cases as with
  | nil => simp
  | cons a as => simp [Access.code]

theorem findIter_accesses (x : List Char) (as : List Access) (hx : ¬ chars "FE" <:+: x) (ha : ∀ a ∈ as, a.Ok) :
    ∃ hs last, tableAccess.findIter (accessesText x as) = (hs, last) ∧
      ∀ (tables : List Char → Option TableInfo) (hasPerms : Bool),
        ((hs.mapM fun h => (rewriteHit tables hasPerms h).map fun t => h.before ++ t).map fun ts => ts.flatten ++ last) =
          (as.mapM fun (a : Access) => (a.new tables hasPerms).map fun t => t ++ a.text).map fun ts => x ++ ts.flatten := by
  induction as generalizing x with
  | nil =>
    refine ⟨[], x, ?_, by intro _ _; simp⟩
    have := findIter_skip tableAccess proper_access x [] (fun i hi => access_skip hx (by simp) i hi)
    rw [accessesText, List.flatMap_nil, this, findIter_nil _ proper_access]
    simp [addBefore]
  | cons a as ih =>
    have haa := ha a (List.mem_cons_self ..)
    obtain ⟨hs, last, hf, hm⟩ := ih a.text haa.text.2 fun b hb => ha b (List.mem_cons_of_mem _ hb)
    have htext : accessesText x (a :: as) = x ++ ((a.code ++ a.space) ++ accessesText a.text as) := by simp [accessesText]
    have hstop : Stop isSpace (accessesText a.text as) := by
      rw [accessesText]
      cases ht : a.text with
      | nil =>
        intro c hc
        rw [List.nil_append] at hc
        rw [items_head as c hc]
        decide
      | cons c t => exact fun d hd => haa.text.1 d (by rw [ht]; exact hd)
    have hmatch := matchAt_access a haa hstop
    refine ⟨⟨x, a.code ++ a.space, [a.name, a.perm, a.entity, a.point, a.dof]⟩ :: hs, last, ?_, ?_⟩
    · rw [htext, findIter_skip tableAccess proper_access x _ (fun i hi => access_skip hx (by
        intro c hc
        have : c = 'F' := by simpa [Access.code] using hc.symm
        rw [this]; decide) i hi), findIter_hit _ proper_access _ _ hmatch, hf]
      simp [addBefore]
    · intro tables hasPerms
      have hm' := hm tables hasPerms
      have hnew : rewriteHit tables hasPerms ⟨x, a.code ++ a.space, [a.name, a.perm, a.entity, a.point, a.dof]⟩ = a.new tables hasPerms := by
        rw [rewriteHit, Access.new, chars_FE]
        rfl
      rw [List.mapM_cons, List.mapM_cons, hnew]
      rcases h1 : a.new tables hasPerms with _ | t
      · rfl
      · rcases h2 : as.mapM fun (a : Access) => (a.new tables hasPerms).map fun t => t ++ a.text with _ | us
        · rw [h2, Option.map_none, Option.map_eq_none_iff] at hm'
          rw [hm']
          rfl
        · rw [h2, Option.map_some, Option.map_eq_some_iff] at hm'
          obtain ⟨ts, hts, he⟩ := hm'
          rw [hts]
          show some ((x ++ t) ++ ts.flatten ++ last) = some (x ++ ((t ++ a.text) ++ us.flatten))
          rw [List.append_assoc, he]
          simp

/-- C84: every access to a table is rewritten, in order; the text between accesses does not change (the spaces after a new access are
lost). -/
theorem C84_accesses (tables : List Char → Option TableInfo) (hasPerms : Bool) (first : List Char) (as : List Access)
    (hf : ¬ chars "FE" <:+: first) (ha : ∀ a ∈ as, a.Ok) :
    rewriteText tables hasPerms (accessesText first as) =
      (as.mapM fun (a : Access) => (a.new tables hasPerms).map fun t => t ++ a.text).map fun ts => first ++ ts.flatten := by
  obtain ⟨hs, last, h1, h2⟩ := findIter_accesses first as hf ha
  rw [← h2 tables hasPerms, rewriteText, h1]
  rcases hs.mapM fun h => (rewriteHit tables hasPerms h).map fun t => h.before ++ t with _ | ts <;> rfl

/-- C84: the new access, when the point and the function are not written as 0. -/
theorem C84_new_access (t : TableInfo) (hc : t.const = false) (p i j : List Char) (hi : isZeroText i = false) (hj : isZeroText j = false) :
    newAccess t p i j false = some (t.name ++ chars "[" ++ Nat.toDigits 10 t.funcs ++ chars " * " ++ i ++ chars " + " ++ j ++ chars "]") := by
  rw [newAccess, hc, hi, hj]
  simp [List.intercalate]

/-- C84: in interior facets, the side is the index of the permutation. -/
theorem C84_new_access_permuted (t : TableInfo) (hc : t.const = false) (hp : 1 < t.perms) (side : Nat) (i j : List Char)
    (hi : isZeroText i = false) (hj : isZeroText j = false) :
    newAccess t (chars "quadrature_permutation[" ++ Nat.toDigits 10 side ++ chars "]") i j true =
      some (t.name ++ chars "[" ++ Nat.toDigits 10 side ++ chars "]" ++ chars "[" ++ Nat.toDigits 10 t.funcs ++ chars " * " ++ i ++
        chars " + " ++ j ++ chars "]") := by
  have hs : permIndex.search (chars "quadrature_permutation[" ++ Nat.toDigits 10 side ++ chars "]") =
      some (⟨[], chars "quadrature_permutation[" ++ Nat.toDigits 10 side ++ chars "]", [Nat.toDigits 10 side]⟩, []) := by
    have := search_eq permIndex [] (chars "quadrature_permutation[" ++ Nat.toDigits 10 side ++ chars "]") [] (g := [Nat.toDigits 10 side])
      (by rw [chars_close]; simp) (by simp) (by
        rw [List.append_nil, Rx.matchAt, permIndex, List.append_assoc, run_lit]
        refine run_gsome1 Nat.toDigits_ne_nil (digits_isDigit side) (by rw [chars_close]; exact stop_cons (by decide)) ?_
        have := run_lit (r := .eps) (cs := chars "]") (s := []) (gs := [] ++ [Nat.toDigits 10 side]) (k := fun s' gs => some (s', gs))
        rw [List.append_nil] at this
        rw [this]
        rfl)
    simpa using this
  have hne : chars "quadrature_permutation[" ++ Nat.toDigits 10 side ++ chars "]" ≠ ['0'] := by
    rw [show chars "quadrature_permutation[" = 'q' :: chars "uadrature_permutation[" by unfold chars; decide]
    intro h
    simp at h
  rw [newAccess, hc, hi, hj, hs]
  rw [List.append_assoc] at hne ⊢
  simp [List.intercalate, hp, hne, natOf_digits]

/-- C84: an index counts as 0 exactly when it is a number whose digits are all 0; a variable is not. -/
theorem C84_zero_index (index : List Char) :
    isZeroText index = true ↔ (∃ c ∈ index, c ≠ ' ') ∧ ∀ c ∈ index, c = '0' ∨ c = ' ' := by
  have hz : ∀ (s : List Char) (n : Nat), s.all isDigit = true → ((s.foldl (fun n c => 10 * n + (c.toNat - 48)) n) = 0 ↔ n = 0 ∧ ∀ c ∈ s, c = '0') := by
    intro s
    induction s with
    | nil => simp
    | cons c s ih =>
      intro n hs
      rw [List.all_cons, Bool.and_eq_true] at hs
      rw [List.foldl_cons, ih _ hs.2]
      have h48 : 48 ≤ c.toNat ∧ c.toNat ≤ 57 := by
        have := hs.1
        unfold isDigit at this
        simp only [decide_eq_true_eq, Bool.and_eq_true] at this
        exact ⟨Char.le_def.1 this.1, Char.le_def.1 this.2⟩
      have : c = '0' ↔ c.toNat = 48 := by
        constructor
        · rintro rfl; rfl
        · intro h; exact Char.toNat_inj.1 h
      simp only [List.mem_cons, forall_eq_or_imp, this]
      constructor
      · rintro ⟨h1, h2⟩; exact ⟨by omega, by omega, h2⟩
      · rintro ⟨h1, h2, h3⟩; exact ⟨by omega, h3⟩
  unfold isZeroText
  simp only [Bool.and_eq_true, Bool.not_eq_true', beq_iff_eq, natOf]
  constructor
  · rintro ⟨⟨h1, h2⟩, h3⟩
    rw [hz _ _ h2] at h3
    constructor
    · rcases hl : index.filter (· ≠ ' ') with _ | ⟨c, cs⟩
      · rw [hl] at h1; simp at h1
      · have : c ∈ index.filter (· ≠ ' ') := by rw [hl]; exact List.mem_cons_self ..
        obtain ⟨a, b⟩ := List.mem_filter.1 this
        exact ⟨c, a, by simpa using b⟩
    · intro c hc
      by_cases h : c = ' '
      · exact .inr h
      · exact .inl (h3.2 c (List.mem_filter.2 ⟨hc, by simpa using h⟩))
  · rintro ⟨⟨c, hc, hne⟩, hall⟩
    have h0 : ∀ c ∈ index.filter (· ≠ ' '), c = '0' := by
      intro c hc
      obtain ⟨a, b⟩ := List.mem_filter.1 hc
      exact (hall c a).resolve_right (by simpa using b)
    have hd : (index.filter (· ≠ ' ')).all isDigit = true := by
      rw [List.all_eq_true]; intro c hc; rw [h0 c hc]; decide
    refine ⟨⟨?_, hd⟩, (hz _ _ hd).2 ⟨rfl, h0⟩⟩
    have : c ∈ index.filter (· ≠ ' ') := List.mem_filter.2 ⟨hc, by simpa using hne⟩
    rcases hl : index.filter (· ≠ ' ') with _ | ⟨c, cs⟩
    · rw [hl] at this; simp at this
    · rfl

/-- C84: an index that is 0 is left out. -/
theorem C84_new_access_zero (t : TableInfo) (hc : t.const = false) (p i j : List Char) :
    (isZeroText i = true → isZeroText j = false → newAccess t p i j false = some (t.name ++ chars "[" ++ j ++ chars "]")) ∧
    (isZeroText i = false → isZeroText j = true →
      newAccess t p i j false = some (t.name ++ chars "[" ++ Nat.toDigits 10 t.funcs ++ chars " * " ++ i ++ chars "]")) := by
  refine ⟨fun hi hj => ?_, fun hi hj => ?_⟩
  · rw [newAccess, hc, hi, hj]; simp [List.intercalate]
  · rw [newAccess, hc, hi, hj]; simp [List.intercalate]

/-- C84: if both indices are 0 nothing is left between the brackets, which is not an access (tables that vary with the points are
accessed by FFCx with a variable for the point). -/
theorem C84_new_access_both_zero (t : TableInfo) (hc : t.const = false) (p i j : List Char) (hi : isZeroText i = true) (hj : isZeroText j = true) :
    newAccess t p i j false = some (t.name ++ chars "[]") := by
  rw [newAccess, hc, hi, hj, show chars "[]" = chars "[" ++ chars "]" by unfold chars; decide]; simp [List.intercalate]

/-- C84: an index with brackets that is not just an entry of an array is not understood: the access stays as it was. -/
theorem C84_index_fails : rewriteText (fun _ => some ⟨chars "FE0", false, 1, 3⟩) false (chars "FE0[0][2 * e[0]][iq][i]") =
    some (chars "FE0[0][2 * e[0]][iq][i]") := by decide +kernel

end Qugar.Py.Text
