import Verif.Model.PyRegex
import Mathlib.Data.List.Basic
/-
The regular expressions of Python: what the matcher finds, in terms of the texts that a pattern describes.
-/
namespace Qugar.Py.Regex

/-! ### Specification -/

/-- The texts that a pattern describes, with the groups. -/
inductive Lang : Rx → List Char → List (List Char) → Prop
  | eps : Lang .eps [] []
  | chr {p : Char → Bool} {c : Char} : p c = true → Lang (.chr p) [c] []
  | star {p : Char → Bool} {u : List Char} : (∀ c ∈ u, p c = true) → Lang (.star p) u []
  | cat {a b : Rx} {u v : List Char} {g h : List (List Char)} : Lang a u g → Lang b v h → Lang (.cat a b) (u ++ v) (g ++ h)
  | left {a b : Rx} {u : List Char} {g : List (List Char)} : Lang a u g → Lang (.alt a b) u g
  | right {a b : Rx} {u : List Char} {g : List (List Char)} : Lang b u g → Lang (.alt a b) u g
  | grp {a : Rx} {u : List Char} {g : List (List Char)} : Lang a u g → Lang (.grp a) u (g ++ [u])

/-- The pattern describes the text. -/
def Word (r : Rx) (t : List Char) : Prop := ∃ g, Lang r t g

/-- `t` is in the text, at position `i`. -/
def At (text : List Char) (i : Nat) (t : List Char) : Prop := t <+: text.drop i

/-- Positions, texts and groups of matches. -/
def positions : List Hit → Nat → List (Nat × List Char)
  | [], _ => []
  | h :: hs, i => (i + h.before.length, h.text) :: positions hs (i + h.before.length + h.text.length)

/-- Texts of the pattern are not empty, do not overlap, and none is the beginning of another one. -/
structure Token (r : Rx) : Prop where
  nonempty : ∀ t, Word r t → t ≠ []
  apart : ∀ t t' x y, Word r t → Word r t' → t = x ++ y → x ≠ [] → y ≠ [] → ¬ (y <+: t' ∨ t' <+: y)
  prefixFree : ∀ t t', Word r t → Word r t' → t <+: t' → t = t'

/-! ### The matcher -/

theorem starRun_sound {β : Type} (p : Char → Bool) (k : List Char → Option β) (s : List Char) {x : β} (h : starRun p k s = some x) :
    ∃ u rest, s = u ++ rest ∧ (∀ c ∈ u, p c = true) ∧ k rest = some x := by
  induction s with
  | nil => exact ⟨[], [], rfl, by simp, h⟩
  | cons c s ih =>
    rw [starRun] at h
    split at h
    · next hp =>
      rw [Option.or_eq_some_iff] at h
      rcases h with h | ⟨_, h⟩
      · obtain ⟨u, rest, rfl, hu, hk⟩ := ih h
        exact ⟨c :: u, rest, rfl, by simpa [hp] using hu, hk⟩
      · exact ⟨[], c :: s, rfl, by simp, h⟩
    · exact ⟨[], c :: s, rfl, by simp, h⟩

theorem starRun_complete {β : Type} (p : Char → Bool) (k : List Char → Option β) (u rest : List Char) (hu : ∀ c ∈ u, p c = true)
    (h : (k rest).isSome = true) : (starRun p k (u ++ rest)).isSome = true := by
  induction u with
  | nil =>
    cases rest with
    | nil => exact h
    | cons c s =>
      rw [List.nil_append, starRun]
      split
      · simp [h]
      · exact h
  | cons c u ih =>
    rw [List.cons_append, starRun, if_pos (hu c (List.mem_cons_self ..))]
    have := ih fun d hd => hu d (List.mem_cons_of_mem _ hd)
    simp [this]

theorem run_sound {β : Type} (r : Rx) (s : List Char) (gs : List (List Char)) (k : List Char → List (List Char) → Option β) {x : β}
    (h : r.run s gs k = some x) : ∃ u rest g, s = u ++ rest ∧ Lang r u g ∧ k rest (gs ++ g) = some x := by
  induction r generalizing s gs k x with
  | eps => exact ⟨[], s, [], rfl, .eps, by simpa [Rx.run] using h⟩
  | chr p =>
    cases s with
    | nil => simp [Rx.run] at h
    | cons c s =>
      rw [Rx.run] at h
      split at h
      · next hp => exact ⟨[c], s, [], rfl, .chr hp, by simpa using h⟩
      · simp at h
  | star p =>
    obtain ⟨u, rest, rfl, hu, hk⟩ := starRun_sound _ _ _ h
    exact ⟨u, rest, [], rfl, .star hu, by simpa using hk⟩
  | cat a b iha ihb =>
    obtain ⟨u, rest, g, rfl, ha, hk⟩ := iha _ _ _ h
    obtain ⟨v, rest', g', rfl, hb, hk'⟩ := ihb _ _ _ hk
    exact ⟨u ++ v, rest', g ++ g', by simp, .cat ha hb, by simpa using hk'⟩
  | alt a b iha ihb =>
    rw [Rx.run, Option.or_eq_some_iff] at h
    rcases h with h | ⟨_, h⟩
    · obtain ⟨u, rest, g, rfl, ha, hk⟩ := iha _ _ _ h
      exact ⟨u, rest, g, rfl, .left ha, hk⟩
    · obtain ⟨u, rest, g, rfl, hb, hk⟩ := ihb _ _ _ h
      exact ⟨u, rest, g, rfl, .right hb, hk⟩
  | grp a ih =>
    obtain ⟨u, rest, g, rfl, ha, hk⟩ := ih _ _ _ h
    refine ⟨u, rest, g ++ [u], rfl, .grp ha, ?_⟩
    simpa using hk

theorem run_complete {β : Type} (r : Rx) {u : List Char} {g : List (List Char)} (h : Lang r u g) (rest : List Char) (gs : List (List Char))
    (k : List Char → List (List Char) → Option β) (hk : (k rest (gs ++ g)).isSome = true) : (r.run (u ++ rest) gs k).isSome = true := by
  induction h generalizing rest gs k with
  | eps => simpa [Rx.run] using hk
  | chr hp => simpa [Rx.run, hp] using hk
  | star hu => exact starRun_complete _ _ _ _ hu (by simpa using hk)
  | cat _ _ iha ihb =>
    rw [List.append_assoc, Rx.run]
    exact iha _ _ _ (ihb _ _ _ (by simpa using hk))
  | left _ ih => rw [Rx.run]; simp [ih rest gs k hk]
  | right _ ih => rw [Rx.run]; simp [ih rest gs k hk]
  | @grp a u g _ ih =>
    rw [Rx.run]
    refine ih _ _ _ ?_
    simpa using hk

/-- What `re.match` finds is described by the pattern. -/
theorem matchAt_sound (r : Rx) {s rest : List Char} {g : List (List Char)} (h : r.matchAt s = some (rest, g)) :
    ∃ t, s = t ++ rest ∧ Lang r t g := by
  obtain ⟨u, rest', g', rfl, hl, hk⟩ := run_sound r _ _ _ h
  simp only [List.nil_append, Option.some.injEq, Prod.mk.injEq] at hk
  obtain ⟨rfl, rfl⟩ := hk
  exact ⟨u, rfl, hl⟩

/-- `re.match` finds something if the pattern describes a beginning of the text. -/
theorem matchAt_complete (r : Rx) {s : List Char} (h : r.matchAt s = none) {t : List Char} (hw : Word r t) : ¬ t <+: s := by
  rintro ⟨rest, rfl⟩
  obtain ⟨g, hg⟩ := hw
  have := run_complete r hg rest [] (fun s' gs => some (s', gs)) rfl
  rw [Rx.matchAt] at h
  rw [h] at this
  simp at this

/-- What `re.search` finds: a match, and there is none before. -/
theorem search_some (r : Rx) {s rest : List Char} {h : Hit} (hs : r.search s = some (h, rest)) :
    s = h.before ++ h.text ++ rest ∧ Lang r h.text h.groups ∧ r.matchAt (h.text ++ rest) = some (rest, h.groups) ∧
      ∀ i < h.before.length, r.matchAt (s.drop i) = none := by
  induction s generalizing h rest with
  | nil =>
    rw [Rx.search, Option.map_eq_some_iff] at hs
    obtain ⟨⟨rest', g⟩, hm, he⟩ := hs
    obtain ⟨t, ht, hl⟩ := matchAt_sound r hm
    simp only [Prod.mk.injEq] at he
    obtain ⟨rfl, rfl⟩ := he
    simp only [List.nil_eq, List.append_eq_nil_iff] at ht
    obtain ⟨rfl, rfl⟩ := ht
    exact ⟨rfl, hl, by simpa using hm, by simp⟩
  | cons c s ih =>
    rw [Rx.search] at hs
    split at hs
    · next rest' g hm =>
      simp only [Option.some.injEq, Prod.mk.injEq] at hs
      obtain ⟨rfl, rfl⟩ := hs
      obtain ⟨t, ht, hl⟩ := matchAt_sound r hm
      have htk : (c :: s).take ((c :: s).length - rest'.length) = t := by rw [ht]; simp
      rw [ht] at hm
      refine ⟨?_, ?_, ?_, by simp⟩
      · simp only [htk, List.nil_append]; exact ht
      · simpa only [htk] using hl
      · simpa only [htk] using hm
    · next hm =>
      rw [Option.map_eq_some_iff] at hs
      obtain ⟨⟨h', rest'⟩, hs', he⟩ := hs
      simp only [Prod.mk.injEq] at he
      obtain ⟨rfl, rfl⟩ := he
      obtain ⟨h1, h2, h3, h4⟩ := ih hs'
      refine ⟨by simpa using h1, h2, h3, ?_⟩
      intro i hi
      cases i with
      | zero => exact hm
      | succ i => exact h4 i (by simpa using hi)

theorem search_none (r : Rx) {s : List Char} (hs : r.search s = none) : ∀ i : Nat, r.matchAt (s.drop i) = none := by
  induction s with
  | nil =>
    rw [Rx.search, Option.map_eq_none_iff] at hs
    simpa using hs
  | cons c s ih =>
    rw [Rx.search] at hs
    split at hs
    · simp at hs
    · next hm =>
      rw [Option.map_eq_none_iff] at hs
      intro i
      cases i with
      | zero => exact hm
      | succ i => exact ih hs i

/-- `re.search` when the place of the match is known. -/
theorem search_eq (r : Rx) (before t rest : List Char) {g : List (List Char)} (ht : t ≠ [])
    (hb : ∀ i < before.length, r.matchAt ((before ++ t ++ rest).drop i) = none) (hm : r.matchAt (t ++ rest) = some (rest, g)) :
    r.search (before ++ t ++ rest) = some (⟨before, t, g⟩, rest) := by
  induction before with
  | nil =>
    obtain ⟨c, t', rfl⟩ := List.exists_cons_of_ne_nil ht
    have htk : (c :: t' ++ rest).take ((c :: t' ++ rest).length - rest.length) = c :: t' := by
      rw [List.length_append, Nat.add_sub_cancel, List.take_left]
    rw [List.nil_append, List.cons_append, Rx.search, ← List.cons_append, hm]
    simp only [htk]
  | cons c before ih =>
    have h0 := hb 0 (by simp)
    rw [List.drop_zero] at h0
    rw [List.cons_append, List.cons_append] at h0 ⊢
    rw [Rx.search, h0]
    simp only
    rw [ih fun i hi => by simpa using hb (i + 1) (by simpa using hi)]
    rfl

theorem search_eq_none (r : Rx) (s : List Char) (h : ∀ i : Nat, r.matchAt (s.drop i) = none) : r.search s = none := by
  induction s with
  | nil => rw [Rx.search, Option.map_eq_none_iff]; exact h 0
  | cons c s ih =>
    rw [Rx.search, show r.matchAt (c :: s) = none from h 0]
    simp only
    rw [ih fun i => by simpa using h (i + 1)]
    rfl

/-! ### Tokens -/

/-- `re.finditer` with a pattern of tokens: the text is what is found and what is between, and the positions found are all those where
the pattern describes the text. -/
theorem findAll_exact (r : Rx) (hr : Token r) (n : Nat) (s done : List Char) (hn : s.length ≤ n) {hs : List Hit} {last : List Char}
    (h : r.findAll n s = (hs, last)) :
    s = (hs.flatMap fun h => h.before ++ h.text) ++ last ∧ (∀ h ∈ hs, Lang r h.text h.groups) ∧
      ∀ i t, done.length ≤ i → ((i, t) ∈ positions hs done.length ↔ Word r t ∧ At (done ++ s) i t) := by
  induction n generalizing s done hs last with
  | zero =>
    have : s = [] := List.length_eq_zero_iff.1 (by omega)
    subst this
    simp only [Rx.findAll, Prod.mk.injEq] at h
    obtain ⟨rfl, rfl⟩ := h
    refine ⟨rfl, by simp, ?_⟩
    intro i t hi
    simp only [positions, List.not_mem_nil, false_iff, not_and]
    intro hw ha
    rw [At, List.append_nil, List.drop_eq_nil_of_le hi, List.prefix_nil] at ha
    exact hr.nonempty t hw ha
  | succ n ih =>
    rw [Rx.findAll] at h
    split at h
    · next hse =>
      simp only [Prod.mk.injEq] at h
      obtain ⟨rfl, rfl⟩ := h
      refine ⟨rfl, by simp, ?_⟩
      intro i t hi
      simp only [positions, List.not_mem_nil, false_iff, not_and]
      intro hw ha
      rw [At, List.drop_append, List.drop_eq_nil_of_le hi, List.nil_append] at ha
      exact matchAt_complete r (search_none r hse _) hw ha
    · next hit rest hse =>
      obtain ⟨h1, h2, h3, h4⟩ := search_some r hse
      rcases hf : r.findAll n rest with ⟨hs', last'⟩
      rw [hf] at h
      simp only [Prod.mk.injEq] at h
      obtain ⟨rfl, rfl⟩ := h
      have hne := hr.nonempty _ ⟨_, h2⟩
      have hpos : 0 < hit.text.length := List.length_pos_of_ne_nil hne
      have hlen : rest.length ≤ n := by
        have : s.length = hit.before.length + hit.text.length + rest.length := by rw [h1]; simp [Nat.add_assoc]
        omega
      obtain ⟨g1, g2, g3⟩ := ih rest (done ++ hit.before ++ hit.text) hlen hf
      refine ⟨?_, ?_, ?_⟩
      · rw [List.flatMap_cons, List.append_assoc, ← g1]; exact h1
      · intro h' hh'
        rcases List.mem_cons.1 hh' with rfl | hh'
        · exact h2
        · exact g2 h' hh'
      · intro i t hi
        rw [positions, List.mem_cons]
        have hlen' : done.length + hit.before.length + hit.text.length = (done ++ hit.before ++ hit.text).length := by simp [Nat.add_assoc]
        have hpt : ∀ j u, (j, u) ∈ positions hs' (done ++ hit.before ++ hit.text).length →
            (done ++ hit.before ++ hit.text).length ≤ j := by
          clear g1 g2 g3
          generalize (done ++ hit.before ++ hit.text).length = m
          intro j u hj
          clear hf
          induction hs' generalizing m with
          | nil => simp [positions] at hj
          | cons h' hs' ih' =>
            rw [positions, List.mem_cons] at hj
            rcases hj with hj | hj
            · simp only [Prod.mk.injEq] at hj; omega
            · exact Nat.le_trans (by omega) (ih' _ hj)
        rw [hlen']
        constructor
        · rintro (he | hm)
          · simp only [Prod.mk.injEq] at he
            obtain ⟨rfl, rfl⟩ := he
            refine ⟨⟨_, h2⟩, ?_⟩
            rw [At, h1, show done.length + hit.before.length = (done ++ hit.before).length by simp,
              show done ++ (hit.before ++ hit.text ++ rest) = (done ++ hit.before) ++ (hit.text ++ rest) by simp, List.drop_left]
            exact List.prefix_append _ _
          · have hle := hpt i t hm
            obtain ⟨k1, k2⟩ := (g3 i t hle).1 hm
            exact ⟨k1, by rw [h1]; simpa using k2⟩
        · rintro ⟨hw, ha⟩
          by_cases hcase : (done ++ hit.before ++ hit.text).length ≤ i
          · exact .inr ((g3 i t hcase).2 ⟨hw, by rw [h1] at ha; simpa using ha⟩)
          · left
            rw [At, List.drop_append, List.drop_eq_nil_of_le hi, List.nil_append] at ha
            have hnone : ¬ i - done.length < hit.before.length := fun hlt =>
              matchAt_complete r (h4 _ hlt) hw ha
            obtain ⟨j, hj⟩ : ∃ j : Nat, i = done.length + hit.before.length + j := ⟨i - done.length - hit.before.length, by omega⟩
            have hjlt : j < hit.text.length := by simp only [List.length_append] at hcase; omega
            rw [h1, show i - done.length = hit.before.length + j by omega, List.append_assoc, List.drop_append,
              List.drop_eq_nil_of_le (by omega), List.nil_append, show hit.before.length + j - hit.before.length = j by omega,
              List.drop_append_of_le_length (by omega)] at ha
            have hcmp : hit.text.drop j <+: t ∨ t <+: hit.text.drop j := by
              rcases Nat.le_total (hit.text.drop j).length t.length with hl | hl
              · exact .inl (List.prefix_of_prefix_length_le (List.prefix_append _ _) ha hl)
              · exact .inr (List.prefix_of_prefix_length_le ha (List.prefix_append _ _) hl)
            have hj0 : j = 0 := by
              by_contra hj0
              refine hr.apart hit.text t (hit.text.take j) (hit.text.drop j) ⟨_, h2⟩ hw (List.take_append_drop j _).symm ?_ ?_ hcmp
              · intro he
                rw [List.take_eq_nil_iff] at he
                rcases he with he | he
                · exact hj0 he
                · exact hne he
              · rw [Ne, List.drop_eq_nil_iff]; omega
            subst hj0
            rw [List.drop_zero] at hcmp
            have : hit.text = t := by
              rcases hcmp with hc | hc
              · exact hr.prefixFree _ _ ⟨_, h2⟩ hw hc
              · exact (hr.prefixFree _ _ hw ⟨_, h2⟩ hc).symm
            rw [this, hj]
            simp

/-- `re.finditer` with a pattern of tokens. -/
theorem findIter_exact (r : Rx) (hr : Token r) (s : List Char) :
    s = ((r.findIter s).1.flatMap fun h => h.before ++ h.text) ++ (r.findIter s).2 ∧
      (∀ h ∈ (r.findIter s).1, Lang r h.text h.groups) ∧
      ∀ i t, (i, t) ∈ positions (r.findIter s).1 0 ↔ Word r t ∧ At s i t := by
  obtain ⟨h1, h2, h3⟩ := findAll_exact r hr s.length s [] (Nat.le_refl _) (hs := (r.findIter s).1) (last := (r.findIter s).2) rfl
  exact ⟨h1, h2, fun i t => by simpa using h3 i t (Nat.zero_le _)⟩

/-- A text of tokens, with other things between: exactly those are found. -/
theorem findAll_pieces (r : Rx) (hr : Token r) (ps : List (List Char × List Char)) (last : List Char) (hw : ∀ p ∈ ps, Word r p.2)
    (hg : ∀ p ∈ ps, ∀ i t, Word r t → ¬ At p.1 i t) (hl : ∀ i t, Word r t → ¬ At last i t) (n : Nat)
    (hn : ((ps.flatMap fun p => p.1 ++ p.2) ++ last).length ≤ n) :
    ((r.findAll n ((ps.flatMap fun p => p.1 ++ p.2) ++ last)).1.map fun h => (h.before, h.text)) = ps ∧
      (r.findAll n ((ps.flatMap fun p => p.1 ++ p.2) ++ last)).2 = last := by
  induction n generalizing ps with
  | zero =>
    cases ps with
    | nil => simp [Rx.findAll]
    | cons p ps =>
      have := List.length_pos_of_ne_nil (hr.nonempty _ (hw p (List.mem_cons_self ..)))
      simp only [List.flatMap_cons, List.length_append] at hn
      omega
  | succ n ih =>
    cases ps with
    | nil =>
      have hnone : r.search last = none := by
        refine search_eq_none r last fun i => ?_
        rcases hm : r.matchAt (last.drop i) with _ | ⟨rest, g⟩
        · rfl
        · obtain ⟨t, ht, hlang⟩ := matchAt_sound r hm
          exact absurd ⟨rest, ht.symm⟩ (hl i t ⟨g, hlang⟩)
      simp [Rx.findAll, hnone]
    | cons p ps =>
      obtain ⟨gap, w⟩ := p
      have hwp : Word r w := hw (gap, w) (List.mem_cons_self ..)
      have hgp : ∀ i t, Word r t → ¬ At gap i t := hg (gap, w) (List.mem_cons_self ..)
      have hwne := hr.nonempty _ hwp
      have htext : ((((gap, w) :: ps).flatMap fun p => p.1 ++ p.2) ++ last) = gap ++ w ++ ((ps.flatMap fun p => p.1 ++ p.2) ++ last) := by
        simp
      rw [htext] at hn ⊢
      generalize hrest : ((ps.flatMap fun p => p.1 ++ p.2) ++ last) = rest at hn ⊢
      have hbefore : ∀ i < gap.length, r.matchAt ((gap ++ w ++ rest).drop i) = none := by
        intro i hi
        rcases hm : r.matchAt ((gap ++ w ++ rest).drop i) with _ | ⟨rest', g⟩
        · rfl
        · exfalso
          obtain ⟨t, ht, hlang⟩ := matchAt_sound r hm
          have htw : Word r t := ⟨g, hlang⟩
          have hpre : t <+: gap.drop i ++ (w ++ rest) := by
            refine ⟨rest', ?_⟩
            rw [← ht, List.append_assoc, List.drop_append_of_le_length (by omega)]
          rcases Nat.le_total t.length (gap.drop i).length with hlen | hlen
          · exact hgp i t htw (List.prefix_of_prefix_length_le hpre (List.prefix_append _ _) hlen)
          · have hx : gap.drop i <+: t := List.prefix_of_prefix_length_le (List.prefix_append _ _) hpre hlen
            obtain ⟨y, rfl⟩ := hx
            have hy : y <+: w ++ rest := by
              obtain ⟨z, hz⟩ := hpre
              rw [List.append_assoc] at hz
              exact ⟨z, List.append_cancel_left hz⟩
            have hxne : gap.drop i ≠ [] := by rw [Ne, List.drop_eq_nil_iff]; omega
            by_cases hyne : y = []
            · subst hyne
              rw [List.append_nil] at htw
              exact hgp i _ htw (List.prefix_refl _)
            · refine hr.apart _ w (gap.drop i) y htw hwp rfl hxne hyne ?_
              rcases Nat.le_total y.length w.length with hl' | hl'
              · exact .inl (List.prefix_of_prefix_length_le hy (List.prefix_append _ _) hl')
              · exact .inr (List.prefix_of_prefix_length_le (List.prefix_append _ _) hy hl')
      obtain ⟨g, hm⟩ : ∃ g, r.matchAt (w ++ rest) = some (rest, g) := by
        rcases hm : r.matchAt (w ++ rest) with _ | ⟨rest', g⟩
        · exact absurd (List.prefix_append _ _) (matchAt_complete r hm hwp)
        · obtain ⟨t, ht, hlang⟩ := matchAt_sound r hm
          have htw : t = w := by
            have hp : t <+: w ++ rest := ⟨rest', ht.symm⟩
            rcases Nat.le_total t.length w.length with hl' | hl'
            · exact hr.prefixFree _ _ ⟨g, hlang⟩ hwp (List.prefix_of_prefix_length_le hp (List.prefix_append _ _) hl')
            · exact (hr.prefixFree _ _ hwp ⟨g, hlang⟩ (List.prefix_of_prefix_length_le (List.prefix_append _ _) hp hl')).symm
          subst htw
          have := List.append_cancel_left ht
          subst this
          exact ⟨g, rfl⟩
      have hse := search_eq r gap w rest hwne hbefore hm
      have hlen : rest.length ≤ n := by
        have := List.length_pos_of_ne_nil hwne
        simp only [List.length_append] at hn
        omega
      subst hrest
      obtain ⟨i1, i2⟩ := ih ps (fun p hp => hw p (List.mem_cons_of_mem _ hp)) (fun p hp => hg p (List.mem_cons_of_mem _ hp)) hlen
      rw [Rx.findAll, hse]
      exact ⟨by simp only [List.map_cons, i1], i2⟩

/-- The same, for `re.finditer`. -/
theorem findIter_pieces (r : Rx) (hr : Token r) (ps : List (List Char × List Char)) (last : List Char) (hw : ∀ p ∈ ps, Word r p.2)
    (hg : ∀ p ∈ ps, ∀ i t, Word r t → ¬ At p.1 i t) (hl : ∀ i t, Word r t → ¬ At last i t) :
    ((r.findIter ((ps.flatMap fun p => p.1 ++ p.2) ++ last)).1.map fun h => (h.before, h.text)) = ps ∧
      (r.findIter ((ps.flatMap fun p => p.1 ++ p.2) ++ last)).2 = last :=
  findAll_pieces r hr ps last hw hg hl _ (Nat.le_refl _)

/-! ### Texts of the patterns -/

theorem lang_eps {t : List Char} {g : List (List Char)} : Lang .eps t g ↔ t = [] ∧ g = [] := by
  constructor
  · rintro ⟨⟩; exact ⟨rfl, rfl⟩
  · rintro ⟨rfl, rfl⟩; exact .eps

theorem lang_lit {cs : List Char} {r : Rx} {t : List Char} {g : List (List Char)} :
    Lang (lit cs r) t g ↔ ∃ t', t = cs ++ t' ∧ Lang r t' g := by
  induction cs generalizing t with
  | nil => simp [lit]
  | cons c cs ih =>
    rw [lit]
    constructor
    · rintro ⟨⟩
      next u v g' h ha hb =>
      cases ha with
      | chr hp =>
        obtain ⟨t', rfl, hl⟩ := ih.1 hb
        rw [beq_iff_eq] at hp
        subst hp
        exact ⟨t', rfl, hl⟩
    · rintro ⟨t', rfl, hl⟩
      exact .cat (u := [c]) (g := []) (.chr (by simp)) (ih.2 ⟨t', rfl, hl⟩)

theorem lang_many {p : Char → Bool} {r : Rx} {t : List Char} {g : List (List Char)} :
    Lang (many p r) t g ↔ ∃ u t', t = u ++ t' ∧ (∀ c ∈ u, p c = true) ∧ Lang r t' g := by
  constructor
  · rintro ⟨⟩
    next u v g' h ha hb =>
    cases ha with
    | star hu => exact ⟨u, v, rfl, hu, hb⟩
  · rintro ⟨u, t', rfl, hu, hl⟩
    exact .cat (g := []) (.star hu) hl

theorem lang_some1 {p : Char → Bool} {r : Rx} {t : List Char} {g : List (List Char)} :
    Lang (some1 p r) t g ↔ ∃ u t', t = u ++ t' ∧ u ≠ [] ∧ (∀ c ∈ u, p c = true) ∧ Lang r t' g := by
  constructor
  · rintro ⟨⟩
    next u v g' h ha hb =>
    cases ha with
    | @chr _ c hp =>
      obtain ⟨u', t', rfl, hu, hl⟩ := lang_many.1 hb
      exact ⟨c :: u', t', by simp, by simp, by simpa [hp] using hu, hl⟩
  · rintro ⟨u, t', rfl, hne, hu, hl⟩
    obtain ⟨c, u', rfl⟩ := List.exists_cons_of_ne_nil hne
    exact .cat (u := [c]) (g := []) (.chr (hu c (List.mem_cons_self ..)))
      (lang_many.2 ⟨u', t', rfl, fun d hd => hu d (List.mem_cons_of_mem _ hd), hl⟩)

theorem lang_gmany {p : Char → Bool} {r : Rx} {t : List Char} {g : List (List Char)} :
    Lang (gmany p r) t g ↔ ∃ u t' g', t = u ++ t' ∧ g = u :: g' ∧ (∀ c ∈ u, p c = true) ∧ Lang r t' g' := by
  constructor
  · rintro ⟨⟩
    next u v g' h ha hb =>
    cases ha with
    | grp ha =>
      cases ha with
      | star hu => exact ⟨u, v, h, rfl, rfl, hu, hb⟩
  · rintro ⟨u, t', g', rfl, rfl, hu, hl⟩
    exact .cat (g := [u]) (.grp (g := []) (.star hu)) hl

theorem lang_gsome1 {p : Char → Bool} {r : Rx} {t : List Char} {g : List (List Char)} :
    Lang (gsome1 p r) t g ↔ ∃ u t' g', t = u ++ t' ∧ g = u :: g' ∧ u ≠ [] ∧ (∀ c ∈ u, p c = true) ∧ Lang r t' g' := by
  constructor
  · rintro ⟨⟩
    next u v g' h ha hb =>
    cases ha with
    | grp ha =>
      cases ha with
      | cat h1 h2 =>
        cases h1 with
        | chr hp =>
          cases h2 with
          | star hu => exact ⟨_, v, h, rfl, rfl, by simp, by simpa [hp] using hu, hb⟩
  · rintro ⟨u, t', g', rfl, rfl, hne, hu, hl⟩
    obtain ⟨c, u', rfl⟩ := List.exists_cons_of_ne_nil hne
    exact .cat (g := [c :: u']) (.grp (g := []) (.cat (u := [c]) (g := []) (h := []) (.chr (hu c (List.mem_cons_self ..)))
      (.star fun d hd => hu d (List.mem_cons_of_mem _ hd)))) hl

theorem lang_one {p : Char → Bool} {r : Rx} {t : List Char} {g : List (List Char)} :
    Lang (one p r) t g ↔ ∃ c t', t = c :: t' ∧ p c = true ∧ Lang r t' g := by
  constructor
  · rintro ⟨⟩
    next u v g' h ha hb =>
    cases ha with
    | @chr _ c hp => exact ⟨c, v, rfl, hp, hb⟩
  · rintro ⟨c, t', rfl, hp, hl⟩
    exact .cat (u := [c]) (g := []) (.chr hp) hl

theorem lang_gcat {a r : Rx} {t : List Char} {g : List (List Char)} :
    Lang (.cat (.grp a) r) t g ↔ ∃ u t' ga g', t = u ++ t' ∧ g = ga ++ u :: g' ∧ Lang a u ga ∧ Lang r t' g' := by
  constructor
  · rintro ⟨⟩
    next u v g' h ha hb =>
    cases ha with
    | @grp _ _ ga ha => exact ⟨u, v, ga, h, rfl, by simp, ha, hb⟩
  · rintro ⟨u, t', ga, g', rfl, rfl, ha, hl⟩
    rw [show ga ++ u :: g' = (ga ++ [u]) ++ g' by simp]
    exact .cat (.grp ha) hl

/-- A group of three characters. -/
theorem lang_three {p : Char → Bool} {r : Rx} {t : List Char} {g : List (List Char)} :
    Lang (.cat (.grp (one p <| one p <| one p .eps)) r) t g ↔
      ∃ u t' g', t = u ++ t' ∧ g = u :: g' ∧ u.length = 3 ∧ (∀ c ∈ u, p c = true) ∧ Lang r t' g' := by
  rw [lang_gcat]
  simp only [lang_one, lang_eps]
  constructor
  · rintro ⟨_, t', _, g', rfl, rfl, ⟨a, _, rfl, ha, b, _, rfl, hb, c, _, rfl, hc, rfl, rfl⟩, hl⟩
    exact ⟨[a, b, c], t', g', rfl, rfl, rfl, by simp [ha, hb, hc], hl⟩
  · rintro ⟨u, t', g', rfl, rfl, hlen, hu, hl⟩
    match u, hlen with
    | [a, b, c], _ =>
      exact ⟨[a, b, c], t', [], g', rfl, rfl, ⟨a, _, rfl, hu a (by simp), b, _, rfl, hu b (by simp), c, _, rfl, hu c (by simp), rfl, rfl⟩, hl⟩

/-- All of the characters of the texts of a pattern satisfy `Q`. -/
def Rx.Within (Q : Char → Prop) : Rx → Prop
  | .eps => True
  | .chr p => ∀ c, p c = true → Q c
  | .star p => ∀ c, p c = true → Q c
  | .cat a b => a.Within Q ∧ b.Within Q
  | .alt a b => a.Within Q ∧ b.Within Q
  | .grp a => a.Within Q

theorem within_lang {Q : Char → Prop} {r : Rx} (hr : r.Within Q) {t : List Char} {g : List (List Char)} (h : Lang r t g) : ∀ c ∈ t, Q c := by
  induction h with
  | eps => simp
  | chr hp => intro c hc; rw [List.mem_singleton] at hc; subst hc; exact hr _ hp
  | star hu => exact fun c hc => hr c (hu c hc)
  | cat _ _ iha ihb =>
    intro c hc
    rcases List.mem_append.1 hc with hc | hc
    · exact iha hr.1 c hc
    · exact ihb hr.2 c hc
  | left _ ih => exact ih hr.1
  | right _ ih => exact ih hr.2
  | grp _ ih => exact ih hr

/-- Patterns whose texts have a character of some class only at the beginning do not overlap. -/
theorem apart_of_first {r : Rx} (A : Char → Prop) (h : ∀ t, Word r t → ∃ c t', t = c :: t' ∧ A c ∧ ∀ d ∈ t', ¬ A d) (t t' x y : List Char)
    (hw : Word r t) (hw' : Word r t') (ht : t = x ++ y) (hx : x ≠ []) (hy : y ≠ []) : ¬ (y <+: t' ∨ t' <+: y) := by
  obtain ⟨c, u, rfl, hc, hu⟩ := h t hw
  obtain ⟨c', u', rfl, hc', _⟩ := h t' hw'
  obtain ⟨d, y', rfl⟩ := List.exists_cons_of_ne_nil hy
  obtain ⟨e, x', rfl⟩ := List.exists_cons_of_ne_nil hx
  rw [List.cons_append, List.cons.injEq] at ht
  have hd : ¬ A d := hu d (by rw [ht.2]; simp)
  rintro (h | h)
  · exact hd ((List.cons_prefix_cons.1 h).1 ▸ hc')
  · exact hd ((List.cons_prefix_cons.1 h).1 ▸ hc')

/-- Patterns whose texts have a character of some class only at the end: none is the beginning of another one. -/
theorem prefixFree_of_last {r : Rx} (B : Char → Prop) (h : ∀ t, Word r t → ∃ t' c, t = t' ++ [c] ∧ B c ∧ ∀ d ∈ t', ¬ B d) (t t' : List Char)
    (hw : Word r t) (hw' : Word r t') (hp : t <+: t') : t = t' := by
  obtain ⟨u, c, rfl, hc, hu⟩ := h t hw
  obtain ⟨u', c', rfl, hc', hu'⟩ := h t' hw'
  obtain ⟨z, hz⟩ := hp
  rcases List.eq_nil_or_concat z with rfl | ⟨z', d, rfl⟩
  · simpa using hz
  · exfalso
    rw [List.concat_eq_append, ← List.append_assoc] at hz
    have := (List.append_inj_left' hz rfl)
    exact hu' c (by rw [← this]; simp) hc

/-! ### Evaluation -/

/-- The text does not begin with a character of the class. -/
def Stop (p : Char → Bool) (x : List Char) : Prop := ∀ c ∈ x.head?, p c = false

theorem stop_cons {p : Char → Bool} {c : Char} {x : List Char} (h : p c = false) : Stop p (c :: x) := by
  intro d hd
  simp only [List.head?_cons, Option.mem_def, Option.some.injEq] at hd
  exact hd ▸ h

/-- The first success of a repetition: longer ones fail. -/
theorem starRun_last {β : Type} (p : Char → Bool) (k : List Char → Option β) (u x : List Char) {v : β} (hu : ∀ c ∈ u, p c = true)
    (hlong : ∀ a b, x = a ++ b → a ≠ [] → (∀ c ∈ a, p c = true) → k b = none) (hk : k x = some v) : starRun p k (u ++ x) = some v := by
  have hx : starRun p k x = some v := by
    cases x with
    | nil => exact hk
    | cons c x =>
      rw [starRun]
      split
      · next hp =>
        rcases hs : starRun p k x with _ | w
        · simpa using hk
        · obtain ⟨a, b, rfl, ha, hb⟩ := starRun_sound _ _ _ hs
          rw [hlong (c :: a) b rfl (by simp) (by simpa [hp] using ha)] at hb
          simp at hb
      · exact hk
  induction u with
  | nil => exact hx
  | cons c u ih =>
    rw [List.cons_append, starRun, if_pos (hu c (List.mem_cons_self ..)), ih fun d hd => hu d (List.mem_cons_of_mem _ hd)]
    rfl

theorem starRun_stop {β : Type} (p : Char → Bool) (k : List Char → Option β) (u x : List Char) {v : β} (hu : ∀ c ∈ u, p c = true)
    (hx : Stop p x) (hk : k x = some v) : starRun p k (u ++ x) = some v := by
  refine starRun_last p k u x hu ?_ hk
  rintro a b rfl ha hp
  obtain ⟨c, a', rfl⟩ := List.exists_cons_of_ne_nil ha
  have := hx c (by simp)
  rw [hp c (List.mem_cons_self ..)] at this
  simp at this

theorem starRun_none {β : Type} (p : Char → Bool) (k : List Char → Option β) (s : List Char)
    (h : ∀ a b, s = a ++ b → (∀ c ∈ a, p c = true) → k b = none) : starRun p k s = none := by
  rcases hs : starRun p k s with _ | v
  · rfl
  · obtain ⟨a, b, rfl, ha, hb⟩ := starRun_sound _ _ _ hs
    rw [h a b rfl ha] at hb
    simp at hb

theorem run_lit {β : Type} (cs : List Char) (r : Rx) (s : List Char) (gs : List (List Char)) (k : List Char → List (List Char) → Option β) :
    (lit cs r).run (cs ++ s) gs k = r.run s gs k := by
  induction cs with
  | nil => rfl
  | cons c cs ih =>
    rw [lit, Rx.run, List.cons_append, Rx.run, if_pos (by simp)]
    exact ih

theorem run_lit_none {β : Type} (cs : List Char) (r : Rx) (s : List Char) (gs : List (List Char))
    (k : List Char → List (List Char) → Option β) (h : ¬ cs <+: s) : (lit cs r).run s gs k = none := by
  induction cs generalizing s with
  | nil => exact absurd (List.nil_prefix) h
  | cons c cs ih =>
    rw [lit, Rx.run]
    cases s with
    | nil => rw [Rx.run]
    | cons d s =>
      rw [Rx.run]
      split
      · next hc =>
        rw [beq_iff_eq] at hc
        subst hc
        exact ih s fun hp => h (List.cons_prefix_cons.2 ⟨rfl, hp⟩)
      · rfl

theorem run_many {β : Type} {p : Char → Bool} {r : Rx} {u x : List Char} {gs : List (List Char)}
    {k : List Char → List (List Char) → Option β} {v : β} (hu : ∀ c ∈ u, p c = true) (hx : Stop p x) (h : r.run x gs k = some v) :
    (many p r).run (u ++ x) gs k = some v := by
  rw [many, Rx.run, Rx.run]
  exact starRun_stop p _ u x hu hx h

theorem run_some1 {β : Type} {p : Char → Bool} {r : Rx} {u x : List Char} {gs : List (List Char)}
    {k : List Char → List (List Char) → Option β} {v : β} (hne : u ≠ []) (hu : ∀ c ∈ u, p c = true) (hx : Stop p x)
    (h : r.run x gs k = some v) : (some1 p r).run (u ++ x) gs k = some v := by
  obtain ⟨c, u', rfl⟩ := List.exists_cons_of_ne_nil hne
  rw [some1, Rx.run, List.cons_append, Rx.run, if_pos (hu c (List.mem_cons_self ..))]
  exact run_many (fun d hd => hu d (List.mem_cons_of_mem _ hd)) hx h

theorem take_append_sub (u x : List Char) : (u ++ x).take ((u ++ x).length - x.length) = u := by
  rw [List.length_append, Nat.add_sub_cancel, List.take_left]

theorem run_gmany {β : Type} {p : Char → Bool} {r : Rx} {u x : List Char} {gs : List (List Char)}
    {k : List Char → List (List Char) → Option β} {v : β} (hu : ∀ c ∈ u, p c = true)
    (hlong : ∀ a b, x = a ++ b → a ≠ [] → (∀ c ∈ a, p c = true) → ∀ gs', r.run b gs' k = none) (h : r.run x (gs ++ [u]) k = some v) :
    (gmany p r).run (u ++ x) gs k = some v := by
  rw [gmany, Rx.run, Rx.run, Rx.run]
  refine starRun_last p _ u x hu (fun a b h1 h2 h3 => hlong a b h1 h2 h3 _) ?_
  rw [take_append_sub]
  exact h

theorem run_gsome1_long {β : Type} {p : Char → Bool} {r : Rx} {u x : List Char} {gs : List (List Char)}
    {k : List Char → List (List Char) → Option β} {v : β} (hne : u ≠ []) (hu : ∀ c ∈ u, p c = true)
    (hlong : ∀ a b, x = a ++ b → a ≠ [] → (∀ c ∈ a, p c = true) → ∀ gs', r.run b gs' k = none) (h : r.run x (gs ++ [u]) k = some v) :
    (gsome1 p r).run (u ++ x) gs k = some v := by
  obtain ⟨c, u', rfl⟩ := List.exists_cons_of_ne_nil hne
  rw [gsome1, Rx.run, Rx.run, Rx.run, List.cons_append, Rx.run, if_pos (hu c (List.mem_cons_self ..)), Rx.run]
  refine starRun_last p _ u' x (fun d hd => hu d (List.mem_cons_of_mem _ hd)) (fun a b h1 h2 h3 => hlong a b h1 h2 h3 _) ?_
  rw [← List.cons_append, take_append_sub]
  exact h

theorem stop_long {p : Char → Bool} {x : List Char} (hx : Stop p x) {a b : List Char} (h : x = a ++ b) (ha : a ≠ [])
    (hp : ∀ c ∈ a, p c = true) : False := by
  subst h
  obtain ⟨c, a', rfl⟩ := List.exists_cons_of_ne_nil ha
  have := hx c (by simp)
  rw [hp c (List.mem_cons_self ..)] at this
  simp at this

theorem run_gsome1 {β : Type} {p : Char → Bool} {r : Rx} {u x : List Char} {gs : List (List Char)}
    {k : List Char → List (List Char) → Option β} {v : β} (hne : u ≠ []) (hu : ∀ c ∈ u, p c = true) (hx : Stop p x)
    (h : r.run x (gs ++ [u]) k = some v) : (gsome1 p r).run (u ++ x) gs k = some v :=
  run_gsome1_long hne hu (fun _ _ h1 h2 h3 => (stop_long hx h1 h2 h3).elim) h

theorem run_eps {β : Type} (s : List Char) (gs : List (List Char)) (k : List Char → List (List Char) → Option β) :
    Rx.eps.run s gs k = k s gs := rfl

/-- A pattern that begins with a literal matches only there. -/
theorem matchAt_lit_none {cs : List Char} {r : Rx} {s : List Char} (h : ¬ cs <+: s) : (lit cs r).matchAt s = none :=
  run_lit_none cs r s _ _ h

/-! ### Step by step -/

/-- Tokens match where they are. -/
theorem token_matchAt (r : Rx) (hr : Token r) {w : List Char} (hw : Word r w) (rest : List Char) :
    ∃ g, r.matchAt (w ++ rest) = some (rest, g) ∧ Lang r w g := by
  rcases hm : r.matchAt (w ++ rest) with _ | ⟨rest', g⟩
  · exact absurd (List.prefix_append _ _) (matchAt_complete r hm hw)
  · obtain ⟨t, ht, hlang⟩ := matchAt_sound r hm
    have htw : t = w := by
      have hp : t <+: w ++ rest := ⟨rest', ht.symm⟩
      rcases Nat.le_total t.length w.length with hl' | hl'
      · exact hr.prefixFree _ _ ⟨g, hlang⟩ hw (List.prefix_of_prefix_length_le hp (List.prefix_append _ _) hl')
      · exact (hr.prefixFree _ _ hw ⟨g, hlang⟩ (List.prefix_of_prefix_length_le (List.prefix_append _ _) hp hl')).symm
    subst htw
    have := List.append_cancel_left ht
    subst this
    exact ⟨g, rfl, hlang⟩

/-- No text of the pattern is empty. -/
def Proper (r : Rx) : Prop := ∀ g, ¬ Lang r [] g

theorem search_length (r : Rx) (hr : Proper r) {s rest : List Char} {h : Hit} (hs : r.search s = some (h, rest)) : rest.length < s.length := by
  obtain ⟨h1, h2, _, _⟩ := search_some r hs
  have : h.text ≠ [] := fun he => hr _ (he ▸ h2)
  have := List.length_pos_of_ne_nil this
  rw [h1]
  simp only [List.length_append]
  omega

theorem findAll_fuel (r : Rx) (hr : Proper r) (n m : Nat) (s : List Char) (hn : s.length ≤ n) (hm : s.length ≤ m) :
    r.findAll n s = r.findAll m s := by
  induction n generalizing m s with
  | zero =>
    have : s = [] := List.length_eq_zero_iff.1 (by omega)
    subst this
    cases m with
    | zero => rfl
    | succ m =>
      rw [Rx.findAll, Rx.findAll]
      rcases hs : r.search [] with _ | ⟨h, rest⟩
      · rfl
      · have := search_length r hr hs
        simp at this
  | succ n ih =>
    cases m with
    | zero =>
      have : s = [] := List.length_eq_zero_iff.1 (by omega)
      subst this
      rw [Rx.findAll, Rx.findAll]
      rcases hs : r.search [] with _ | ⟨h, rest⟩
      · rfl
      · have := search_length r hr hs
        simp at this
    | succ m =>
      rw [Rx.findAll, Rx.findAll]
      rcases hs : r.search s with _ | ⟨h, rest⟩
      · rfl
      · have := search_length r hr hs
        simp only [ih m rest (by omega) (by omega)]

theorem findIter_unfold (r : Rx) (hr : Proper r) (s : List Char) :
    r.findIter s = match r.search s with
      | none => ([], s)
      | some (h, rest) => (h :: (r.findIter rest).1, (r.findIter rest).2) := by
  rcases hs : r.search s with _ | ⟨h, rest⟩
  · rw [Rx.findIter]
    cases hl : s.length with
    | zero => rfl
    | succ n => rw [Rx.findAll, hs]
  · have hlt := search_length r hr hs
    rw [Rx.findIter]
    obtain ⟨n, hn⟩ : ∃ n, s.length = n + 1 := ⟨s.length - 1, by omega⟩
    rw [hn, Rx.findAll, hs]
    simp only
    rw [findAll_fuel r hr n rest.length rest (by omega) (Nat.le_refl _)]
    rfl

/-- Text added before the first match. -/
def addBefore (a : List Char) : List Hit × List Char → List Hit × List Char
  | ([], last) => ([], a ++ last)
  | (h :: hs, last) => ({ h with before := a ++ h.before } :: hs, last)

theorem search_skip (r : Rx) (a b : List Char) (h : ∀ i < a.length, r.matchAt ((a ++ b).drop i) = none) :
    r.search (a ++ b) = (r.search b).map fun x => ({ x.1 with before := a ++ x.1.before }, x.2) := by
  induction a with
  | nil => simp
  | cons c a ih =>
    rw [List.cons_append, Rx.search, show r.matchAt (c :: (a ++ b)) = none from h 0 (by simp)]
    simp only
    rw [ih fun i hi => by simpa using h (i + 1) (by simpa using hi), Option.map_map]
    rfl

/-- `re.finditer`, where nothing matches. -/
theorem findIter_skip (r : Rx) (hr : Proper r) (a b : List Char) (h : ∀ i < a.length, r.matchAt ((a ++ b).drop i) = none) :
    r.findIter (a ++ b) = addBefore a (r.findIter b) := by
  rw [findIter_unfold r hr (a ++ b), findIter_unfold r hr b, search_skip r a b h]
  rcases r.search b with _ | ⟨h', rest⟩ <;> rfl

/-- `re.finditer`, where the text begins with a match. -/
theorem findIter_hit (r : Rx) (hr : Proper r) (t rest : List Char) {g : List (List Char)} (h : r.matchAt (t ++ rest) = some (rest, g)) :
    r.findIter (t ++ rest) = (⟨[], t, g⟩ :: (r.findIter rest).1, (r.findIter rest).2) := by
  have ht : t ≠ [] := by
    rintro rfl
    obtain ⟨t, h1, h2⟩ := matchAt_sound r h
    have : t = [] := by
      have := congrArg List.length h1
      simp only [List.nil_append, List.length_append] at this
      exact List.length_eq_zero_iff.1 (by omega)
    exact hr _ (this ▸ h2)
  have := search_eq r [] t rest ht (by simp) h
  rw [List.nil_append] at this
  rw [findIter_unfold r hr, this]

theorem findIter_nil (r : Rx) (hr : Proper r) : r.findIter [] = ([], []) := by
  rw [findIter_unfold r hr]
  rcases hs : r.search [] with _ | ⟨h, rest⟩
  · rfl
  · have := search_length r hr hs
    simp at this

theorem sub_skip (r : Rx) (hr : Proper r) (f : Hit → List Char) (hf : ∀ h a, f { h with before := a ++ h.before } = f h) (a b : List Char)
    (h : ∀ i < a.length, r.matchAt ((a ++ b).drop i) = none) : r.sub f (a ++ b) = a ++ r.sub f b := by
  rw [Rx.sub, Rx.sub, findIter_skip r hr a b h]
  rcases r.findIter b with ⟨_ | ⟨h', hs⟩, last⟩
  · rfl
  · simp [addBefore, hf]

theorem sub_hit (r : Rx) (hr : Proper r) (f : Hit → List Char) (t rest : List Char) {g : List (List Char)}
    (h : r.matchAt (t ++ rest) = some (rest, g)) : r.sub f (t ++ rest) = f ⟨[], t, g⟩ ++ r.sub f rest := by
  rw [Rx.sub, Rx.sub, findIter_hit r hr t rest h]
  simp

theorem sub_nil (r : Rx) (hr : Proper r) (f : Hit → List Char) : r.sub f [] = [] := by
  rw [Rx.sub, findIter_nil r hr]; rfl

theorem Token.proper {r : Rx} (hr : Token r) : Proper r := fun g h => hr.nonempty [] ⟨g, h⟩ rfl

theorem proper_lit {c : Char} {cs : List Char} {r : Rx} : Proper (lit (c :: cs) r) := by
  intro g h
  obtain ⟨t, ht, _⟩ := lang_lit.1 h
  simp at ht

end Qugar.Py.Regex
