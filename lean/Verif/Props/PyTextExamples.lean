import Verif.Props.PyTextTables
/-
Examples of the texts of C83, C84 and C85: that of the code that FFCx writes for a mass matrix with a coefficient.
-/
namespace Qugar.Py.Text
open Regex Kernel

/-! ### The code -/

/-- A loop over the points of a quadrature. -/
def exPiece : Piece where
  before := chars "// Quadrature rules\nstatic const double weights_083[2] = {0.5, 0.5};\nstatic const double FE0_C0_Q083[1][1][2][3] = {{{{0.1, 0.2, 0.7},\n  {0.3, 0.3, 0.4}}}};\n"
  header := chars "for (int iq = 0; iq < 2; ++iq)"
  space := chars "\n"
  body := chars "\n  double w0 = 0.0;\n  {\n    for (int ic = 0; ic < 3; ++ic)\n      w0 += w[ic] * FE0_C0_Q083[0][0][iq][ic];\n  }\n"

/-- The code of an integral. -/
def exSource : Source where
  before := chars "// This code was generated by FFCx\n#include <math.h>\n\n"
  name := chars "abc1"
  args := chars "double* restrict A,\n const double* restrict w,\n const double* restrict c"
  dtype := .float64
  pieces := [exPiece]
  quads := [chars "083"]
  post := chars "\n"
  next := '\n'
  after := chars "\nufcx_integral integral_abc1 =\n{\n  .enabled_coefficients = 0,\n};\n"

/-- A header begins with `for (`, without words between them, and has no `ic`. -/
theorem header_start {t : List Char} (h : IsHeader t) : ∃ s1 s2 s3 z, t = chars "for" ++ (s1 ++ (chars "(" ++ (s2 ++ (chars "int" ++ (s3 ++ chars "iq" ++ z))))) ∧
    Blank s1 ∧ Blank s2 ∧ Blank s3 := by
  obtain ⟨s1, s2, s3, s4, s5, s6, s7, s8, s9, n, s10, s11, s12, rfl, h1, h2, h3, _⟩ := h
  exact ⟨s1, s2, s3, _, by rw [List.append_assoc s3], h1, h2, h3⟩

/-- Texts whose only `for` is that of the loop over `ic`. -/
theorem free_of_for {text : List Char} (h : ∀ i < text.length, (chars "for").isPrefixOf (text.drop i) = true →
    (chars "for (int ic").isPrefixOf (text.drop i) = true) : Free IsHeader text := by
  intro t ht hin
  obtain ⟨i, hi⟩ := at_of_infix hin
  obtain ⟨s1, s2, s3, z, rfl, h1, h2, h3⟩ := header_start ht
  obtain ⟨w, hw⟩ := hi
  have hlen : i < text.length := by
    by_contra hge
    rw [List.drop_eq_nil_of_le (Nat.le_of_not_lt hge)] at hw
    have := congrArg List.length hw
    rw [show chars "for" = ['f', 'o', 'r'] by unfold chars; decide] at this
    simp at this
  have hp := h i hlen (List.isPrefixOf_iff_prefix.2 ⟨_, by rw [← hw, List.append_assoc]⟩)
  obtain ⟨v, hv⟩ := List.isPrefixOf_iff_prefix.1 hp
  rw [← hw, show chars "for (int ic" = ['f', 'o', 'r', ' ', '(', 'i', 'n', 't', ' ', 'i', 'c'] by unfold chars; decide,
    show chars "for" = ['f', 'o', 'r'] by unfold chars; decide, show chars "(" = ['('] by unfold chars; decide,
    show chars "int" = ['i', 'n', 't'] by unfold chars; decide, show chars "iq" = ['i', 'q'] by unfold chars; decide] at hv
  simp only [List.cons_append, List.nil_append, List.append_assoc, List.cons.injEq, true_and] at hv
  -- the spaces are those of the text
  have sp : ∀ (s a b : List Char) (c d : Char), Blank s → isSpace c = true → isSpace d = false → (∀ e l, b = e :: l → isSpace e = false) →
      c :: d :: a = s ++ b → b ≠ [] → s = [c] ∧ d :: a = b := by
    intro s a b c d hs hc hd hb he hbn
    cases s with
    | nil =>
      rw [List.nil_append] at he
      have := hb c _ he.symm
      rw [hc] at this
      simp at this
    | cons e s =>
      simp only [List.cons_append, List.cons.injEq] at he
      obtain ⟨rfl, he⟩ := he
      cases s with
      | nil => exact ⟨rfl, he⟩
      | cons e s =>
        simp only [List.cons_append, List.cons.injEq] at he
        have := hs e (by simp)
        rw [← he.1, hd] at this
        simp at this
  obtain ⟨rfl, hv'⟩ := sp s1 _ _ _ _ h1 (by decide) (by decide) (fun e l he => by simp only [List.cons.injEq] at he; rw [← he.1]; decide) hv (by simp)
  clear hv
  rename' hv' => hv
  simp only [List.cons.injEq, true_and] at hv
  have hs2 : s2 = [] := by
    cases s2 with
    | nil => rfl
    | cons e s =>
      simp only [List.cons_append, List.cons.injEq] at hv
      have := h2 e (by simp)
      rw [← hv.1] at this
      exact absurd this (by decide)
  subst hs2
  simp only [List.nil_append, List.cons.injEq, true_and] at hv
  obtain ⟨rfl, hv'⟩ := sp s3 _ _ _ _ h3 (by decide) (by decide) (fun e l he => by simp only [List.cons.injEq] at he; rw [← he.1]; decide) hv (by simp)
  simp at hv'

theorem exSource_code : exSource.code = chars "// This code was generated by FFCx\n#include <math.h>\n\nvoid tabulate_tensor_integral_abc1(double* restrict A,\n const double* restrict w,\n const double* restrict c)\n{\n// Quadrature rules\nstatic const double weights_083[2] = {0.5, 0.5};\nstatic const double FE0_C0_Q083[1][1][2][3] = {{{{0.1, 0.2, 0.7},\n  {0.3, 0.3, 0.4}}}};\nfor (int iq = 0; iq < 2; ++iq)\n{\n  double w0 = 0.0;\n  {\n    for (int ic = 0; ic < 3; ++ic)\n      w0 += w[ic] * FE0_C0_Q083[0][0][iq][ic];\n  }\n}\n}\n\n\nufcx_integral integral_abc1 =\n{\n  .enabled_coefficients = 0,\n};\n" := by
  decide +kernel

/-- A check of brackets: the number of those that are open never is negative. -/
def balancedFrom (op cl : Char) : Nat → List Char → Bool
  | n, [] => n == 0
  | n, c :: s => if c = op then balancedFrom op cl (n + 1) s else if c = cl then (match n with | 0 => false | n + 1 => balancedFrom op cl n s)
    else balancedFrom op cl n s

/-- Text that closes `n` brackets. -/
inductive Closes (op cl : Char) : Nat → List Char → Prop
  | zero {t : List Char} : Balanced op cl t → Closes op cl 0 t
  | succ {n : Nat} {t t' : List Char} : Balanced op cl t → Closes op cl n t' → Closes op cl (n + 1) (t ++ cl :: t')

theorem closes_of {op cl : Char} (hne : op ≠ cl) : ∀ (s : List Char) (n : Nat), balancedFrom op cl n s = true → Closes op cl n s := by
  intro s
  induction s with
  | nil =>
    intro n h
    cases n with
    | zero => exact .zero .nil
    | succ n => simp [balancedFrom] at h
  | cons c s ih =>
    intro n h
    unfold balancedFrom at h
    split at h
    · rename_i hc
      subst hc
      have := ih _ h
      cases this with
      | succ h1 h2 =>
        rename_i t t'
        cases h2 with
        | zero h2 => exact .zero (by simpa using Balanced.pair h1 h2)
        | succ h2 h3 =>
          rename_i n u u'
          have := Closes.succ (Balanced.pair h1 h2) h3
          simpa using this
    · split at h
      · rename_i hc
        subst hc
        cases n with
        | zero => simp at h
        | succ n =>
          have := Closes.succ (Balanced.nil (op := op) (cl := c)) (ih n h)
          simpa using this
      · rename_i h1 h2
        have := ih n h
        cases this with
        | zero h3 => exact .zero (.char h1 h2 h3)
        | succ h3 h4 =>
          have := Closes.succ (Balanced.char h1 h2 h3) h4
          simpa using this

theorem balanced_of {op cl : Char} (hne : op ≠ cl) {s : List Char} (h : balancedFrom op cl 0 s = true) : Balanced op cl s := by
  cases closes_of hne s 0 h with
  | zero h => exact h

/-- The code meets the hypotheses of `C83_parse`. -/
theorem exSource_ok : exSource.Ok where
  first := by
    intro i hi
    by_contra hlt
    have h1 : ∀ i < exSource.before.length, (chars "void").isPrefixOf (exSource.code.drop i) = false := by decide +kernel
    have := h1 i (Nat.lt_of_not_ge hlt)
    rw [List.isPrefixOf_iff_prefix.2 hi] at this
    simp at this
  name := by decide +kernel
  args := by decide +kernel
  coeffs := by
    refine ⟨chars "void tabulate_tensor_integral_abc1(double* restrict A,\n ", chars ",\n const double* restrict c)", by decide +kernel, ?_⟩
    intro i hi
    by_contra hlt
    have h1 : ∀ i < (chars "void tabulate_tensor_integral_abc1(double* restrict A,\n ").length,
        (chars "const").isPrefixOf ((sigText exSource.name exSource.args).drop i) = false := by decide +kernel
    have := h1 i (Nat.lt_of_not_ge hlt)
    rw [List.isPrefixOf_iff_prefix.2 hi] at this
    simp at this
  headers := by
    intro p hp
    obtain rfl : p = exPiece := List.mem_singleton.1 hp
    refine ⟨⟨[' '], [], [' '], [' '], [' '], [], [' '], [' '], [' '], ['2'], [], [' '], [], by decide +kernel, ?_⟩, ?_, balanced_of (by decide) (by decide +kernel),
      free_of_for (by decide +kernel), free_of_for (by decide +kernel)⟩
    · unfold Blank; decide
    · unfold Blank; decide +kernel
  post := free_of_for (by decide +kernel)
  quads := .cons (by decide +kernel) .nil
  after := by
    have h1 : ∀ i < (exSource.next :: exSource.after).length, (exSource.next :: exSource.after)[i]? = some '}' →
      (exSource.next :: exSource.after)[i + 1]? ≠ some '\n' := by decide +kernel
    intro i hi
    exact h1 i (List.getElem?_eq_some_iff.1 hi).1 hi
  next := by decide

/-! ### Tables -/

/-- The declaration of a table of derivatives. -/
def exDecl : Decl where
  type := .float64
  id := 12
  component := 1
  opts := ⟨some [1, 0], some .facet, true⟩
  quad := chars "3f5"
  perms := 1
  ents := 4
  pts := 2
  funcs := 3
  values := chars "{{{0.1, 0.2, 0.7},\n  {0.3, 0.3, 0.4}}}"

example : exDecl.text = chars "static const double FE12_C1_D10_AF_F_Q3f5[1][4][2][3] = {{{{0.1, 0.2, 0.7},\n  {0.3, 0.3, 0.4}}}};" := by
  decide +kernel

theorem exDecl_ok : exDecl.Ok .facet where
  type := Or.inr rfl
  opts := ⟨fun ds h d hd => by
    obtain rfl : [1, 0] = ds := by simpa [exDecl] using h
    revert hd d
    decide, fun e h => by
    obtain rfl : Entity.facet = e := by simpa [exDecl] using h
    exact ⟨rfl, by decide⟩, fun _ => rfl⟩
  quad := by decide +kernel
  values := by decide +kernel

/-- The region with two tables. -/
def exRegion : List (List Char × Decl) :=
  [(chars "// Precomputed values\n", exDecl), (chars "\n", { exDecl with id := 3, opts := ⟨none, none, true⟩ })]

theorem exRegion_ok : RegionOk .facet exRegion (chars "\ndouble w0 = 0.0;\n") where
  decl := by
    intro p hp
    simp only [exRegion, List.mem_cons, List.not_mem_nil, or_false] at hp
    rcases hp with rfl | rfl
    · exact exDecl_ok
    · exact ⟨exDecl_ok.type, ⟨fun ds h => by simp at h, fun e h => by simp at h, fun _ => rfl⟩, exDecl_ok.quad, exDecl_ok.values⟩
  gap := by
    have hno : ∀ (g : List Char), 'F' ∉ g → ∀ d, isDigit d = true → ¬ ['F', 'E', d] <:+: g := fun g hg d _ hin =>
      hg (hin.subset (by simp))
    intro p hp
    simp only [exRegion, List.mem_cons, List.not_mem_nil, or_false] at hp
    rcases hp with rfl | rfl
    · exact ⟨⟨chars "// Precomputed values\n", [], by simp, by simp [Blank], Or.inr ⟨chars "// Precomputed value", 's', by decide +kernel, by decide, by decide⟩⟩,
        hno _ (by decide +kernel)⟩
    · exact ⟨⟨[], chars "\n", rfl, by unfold Blank; decide +kernel, Or.inl rfl⟩, hno _ (by decide +kernel)⟩
  lineEnd := by
    intro p hp
    simp only [exRegion, List.tail_cons, List.mem_cons, List.not_mem_nil, or_false] at hp
    subst hp
    decide +kernel
  last := by
    refine ⟨by decide +kernel, ?_, ?_⟩
    · intro hin
      obtain ⟨i, hi⟩ := at_of_infix hin
      have h1 : ∀ i < (chars "\ndouble w0 = 0.0;\n").length, (chars "static").isPrefixOf ((chars "\ndouble w0 = 0.0;\n").drop i) = false := by
        decide +kernel
      by_cases hlt : i < (chars "\ndouble w0 = 0.0;\n").length
      · have := h1 i hlt
        rw [List.isPrefixOf_iff_prefix.2 hi] at this
        simp at this
      · unfold At at hi
        rw [List.drop_eq_nil_of_le (Nat.le_of_not_lt hlt)] at hi
        exact absurd (List.prefix_nil.1 hi) (by decide +kernel)
    · rintro ⟨b, d, z, hb, _, h⟩
      have h2 : 'F' ∉ (chars "\ndouble w0 = 0.0;\n").tail := by decide +kernel
      exact h2 (by rw [h]; simp)

/-! ### Accesses, constants and checks -/

/-- An access to a table of functions in facets, at both sides. -/
def exAccess : Access where
  name := chars "0_C0_Q083"
  perm := chars "quadrature_permutation[1]"
  entity := chars "entity_local_index[1]"
  point := chars "iq"
  dof := chars "ic + 3"
  space := chars " "
  text := chars "* w0;\n"

theorem exAccess_ok : exAccess.Ok where
  name := by decide +kernel
  perm := Or.inr ⟨chars "quadrature_permutation", ['1'], by decide +kernel, by decide +kernel, by decide +kernel, by decide, by decide⟩
  entity := Or.inr ⟨chars "entity_local_index", ['1'], by decide +kernel, by decide +kernel, by decide +kernel, by decide, by decide⟩
  point := Or.inl ⟨by decide +kernel, by decide +kernel, by
    rw [show exAccess.point = 'i' :: ['q'] by unfold exAccess chars; decide]
    exact stop_cons (by decide)⟩
  dof := Or.inl ⟨by decide +kernel, by decide +kernel, by
    rw [show exAccess.dof = 'i' :: chars "c + 3" by unfold exAccess chars; decide]
    exact stop_cons (by decide)⟩
  space := by unfold Blank; decide +kernel
  text := by
    constructor
    · rw [show exAccess.text = '*' :: chars " w0;\n" by unfold exAccess chars; decide]
      exact stop_cons (by decide)
    · intro hin
      have h1 : 'F' ∈ chars "FE" := by decide +kernel
      exact absurd (hin.subset h1) (by decide +kernel)

/-- `pow(x - c[3], 2) + ...`. -/
def exChunk : Chunk := ⟨chars "pow(x -", ' ', .const 3⟩

theorem exChunk_ok : exChunk.Ok := by
  refine ⟨by decide +kernel, fun i s _ h => ?_⟩
  have h1 : 'c' ∈ exChunk.text ++ [exChunk.sep] := (List.drop_suffix i _).isInfix.subset (h.subset (by simp))
  exact absurd h1 (by decide +kernel)

/-- Code of an exterior facet. -/
def exLoops : List TextLoop :=
  [⟨chars "double J = 1.0;\n", chars "for (int iq = 0; iq < 2; ++iq)\n{", chars "w0 += w[ic] * FE0_C0_F_Q083[0][entity_local_index[0]][iq][ic];"⟩]

example : checkInput .facet .exterior true false .complex64 .float32 exLoops = true := by decide +kernel

example : checkInput .facet .exterior true false .complex64 .float64 exLoops = false := by decide +kernel

end Qugar.Py.Text
