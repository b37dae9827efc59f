import Verif.Model.PyBoundary
import Mathlib.Tactic.Ring
import Mathlib.Tactic.Linarith
/-
Property theorems C69 (versions of the dependencies: python/qugar/utils.py).
-/
namespace Qugar.Py.Version

/-! ### Specification -/

/-- Version `l` is older than `r`: the first number in which they differ is smaller. -/
inductive Older : Version → Version → Prop
  | major {a b c a' b' c'} : a < a' → Older (a, b, c) (a', b', c')
  | minor {a b c b' c'} : b < b' → Older (a, b, c) (a, b', c')
  | revision {a b c c'} : c < c' → Older (a, b, c) (a, b, c')

/-- Between `lower` (included) and `upper` (excluded). -/
def Between (v lower upper : Version) : Prop := (lower = v ∨ Older lower v) ∧ Older v upper

/-! ### Theorems -/

theorem older_iff (l r : Version) : Older l r ↔
    l.1 < r.1 ∨ (l.1 = r.1 ∧ (l.2.1 < r.2.1 ∨ (l.2.1 = r.2.1 ∧ l.2.2 < r.2.2))) := by
  constructor
  · intro h
    cases h <;> simp_all
  · obtain ⟨a, b, c⟩ := l
    obtain ⟨a', b', c'⟩ := r
    rintro (h | ⟨h, h' | ⟨h', h''⟩⟩)
    · exact .major h
    · simp only at h h'; subst h; exact .minor h'
    · simp only at h h' h''; subst h; subst h'; exact .revision h''

/-- C69: the strict comparison of versions is the one of versions. -/
theorem C69_lt (l r : Version) : lt l r = true ↔ Older l r := by
  rw [older_iff, lt]
  split_ifs with h h' <;> simp <;> omega

/-- C69 (partial): the other comparison is right between versions with the same major number, if they have the same minor number too or
the revision of the first one is 0. -/
theorem C69_le_partial (l r : Version) (h : l.1 = r.1) (hr : l.2.1 = r.2.1 ∨ l.2.2 = 0) :
    le l r = true ↔ (l = r ∨ Older l r) := by
  obtain ⟨a, b, c⟩ := l
  obtain ⟨a', b', c'⟩ := r
  rw [older_iff, le]
  simp only [Prod.mk.injEq] at *
  split_ifs with h1 h2 <;> simp <;> omega

/-- C69, the full statement fails: 0.9.5 is older than 0.10.0 but is not accepted as such, ... -/
theorem C69_le_fails : (Older (0, 9, 5) (0, 10, 0) ∧ le (0, 9, 5) (0, 10, 0) = false) ∧
    (Older (0, 10, 0) (1, 0, 0) ∧ le (0, 10, 0) (1, 0, 0) = false) :=
  ⟨⟨.minor (by decide), by decide⟩, ⟨.major (by decide), by decide⟩⟩

/-- … and of two versions possibly none is accepted. -/
theorem C69_le_not_total : le (1, 0, 0) (0, 9, 5) = false ∧ le (0, 9, 5) (1, 0, 0) = false := by decide

/-- C69: what the comparison accepts is not newer. -/
theorem C69_le_sound (l r : Version) (h : le l r = true) : l = r ∨ Older l r := by
  obtain ⟨a, b, c⟩ := l
  obtain ⟨a', b', c'⟩ := r
  rw [older_iff]
  rw [le] at h
  simp only [Prod.mk.injEq] at *
  split_ifs at h with h1 h2
  simp at h
  omega

/-- C69: for a range of all the revisions of a minor version the answer is right. -/
theorem C69_range (a b : Nat) (v : Version) : inRange v (a, b, 0) (a, b + 1, 0) = true ↔ Between v (a, b, 0) (a, b + 1, 0) := by
  obtain ⟨a', b', c'⟩ := v
  rw [inRange, Bool.and_eq_true, C69_lt, Between]
  constructor
  · rintro ⟨h, h'⟩
    exact ⟨C69_le_sound _ _ h, h'⟩
  · rintro ⟨h, h'⟩
    refine ⟨?_, h'⟩
    rw [older_iff] at h h'
    simp only [Prod.mk.injEq] at h h'
    simp only [le]
    split_ifs
    · omega
    · omega
    · exact decide_eq_true (Nat.zero_le _)

theorem check_true (a b : Nat) (o : Option (List (Option Nat))) :
    check o (a, b, 0) (a, b + 1, 0) = some true ↔ ∃ i, o = some [some a, some b, some i] := by
  cases o with
  | none => simp [check]
  | some parts =>
    simp only [check, Option.map_eq_some_iff, C69_range, Between, older_iff]
    constructor
    · rintro ⟨⟨a', b', c'⟩, h, h'⟩
      have h1 : parts = [some a', some b', some c'] := by
        unfold extract at h
        split at h
        · simp only [Option.some.injEq, Prod.mk.injEq] at h
          obtain ⟨h1, h2, h3⟩ := h
          subst h1; subst h2; subst h3
          rfl
        · simp at h
      subst h1
      simp only [Prod.mk.injEq] at h'
      refine ⟨c', ?_⟩
      have h2 : a' = a := by omega
      have h3 : b' = b := by omega
      rw [h2, h3]
    · rintro ⟨i, h⟩
      obtain rfl := Option.some.inj h
      refine ⟨(a, b, i), rfl, ?_, .inr ⟨rfl, .inl (Nat.lt_succ_self b)⟩⟩
      rcases Nat.eq_zero_or_pos i with h | h
      · exact .inl (by rw [h])
      · exact .inr (.inr ⟨rfl, .inr ⟨rfl, h⟩⟩)

/-- C69: the layer for FEniCSx is enabled exactly when DOLFINx, Basix and FFCx 0.10.* and UFL 2025.2.* are installed. -/
theorem C69_enabled (dolfinx basix ffcx ufl : Option (List (Option Nat))) :
    enabled dolfinx basix ffcx ufl = some true ↔
      ∃ i j k l, dolfinx = some [some 0, some 10, some i] ∧ basix = some [some 0, some 10, some j] ∧
        ffcx = some [some 0, some 10, some k] ∧ ufl = some [some 2025, some 2, some l] := by
  have step : ∀ p rest, hasFenicsx (p :: rest) = some true ↔ check p.1 p.2.1 p.2.2 = some true ∧ hasFenicsx rest = some true := by
    intro p rest
    rw [hasFenicsx]
    split
    · next h => simp [h]
    · next r h => 
      constructor
      · intro h'; exact absurd h' h
      · intro h'; exact absurd h'.1 h
  simp only [enabled, minima, maxima, List.zip_cons_cons, List.zip_nil_right, step]
  rw [check_true 0 10, check_true 0 10, check_true 0 10, check_true 2025 2]
  simp only [hasFenicsx, exists_and_left, exists_and_right, and_true]

/-- C69: it is disabled, and no exception raised, when any of them is missing and the ones before it are in their range. -/
theorem C69_missing (basix ffcx ufl : Option (List (Option Nat))) (i j k : Nat) :
    enabled none basix ffcx ufl = some false ∧ enabled (some [some 0, some 10, some i]) none ffcx ufl = some false ∧
    enabled (some [some 0, some 10, some i]) (some [some 0, some 10, some j]) none ufl = some false ∧
    enabled (some [some 0, some 10, some i]) (some [some 0, some 10, some j]) (some [some 0, some 10, some k]) none = some false := by
  have h : ∀ i, check (some [some 0, some 10, some i]) (0, 10, 0) (0, 11, 0) = some true := fun i => (check_true 0 10 _).2 ⟨i, rfl⟩
  simp only [enabled, minima, maxima, List.zip_cons_cons, List.zip_nil_right, hasFenicsx, h]
  simp [check]

/-- C69, the full statement fails: with an installed version of DOLFINx that is not made of three numbers (such as 0.11.0.dev0) the layer
is not disabled: the import raises an exception. -/
theorem C69_other_versions_raise (parts : List (Option Nat)) (h : ∀ a b c, parts ≠ [some a, some b, some c])
    (basix ffcx ufl : Option (List (Option Nat))) : enabled (some parts) basix ffcx ufl = none := by
  have h1 : extract parts = none := by
    unfold extract
    split
    · next a b c => exact absurd rfl (h a b c)
    · rfl
  simp [enabled, minima, maxima, hasFenicsx, check, h1]

/-! ### Examples -/

example : lt (0, 9, 5) (0, 10, 0) = true ∧ lt (0, 10, 0) (0, 9, 5) = false := by decide
example : enabled (some [some 0, some 10, some 2]) (some [some 0, some 10, some 0]) (some [some 0, some 10, some 1])
    (some [some 2025, some 2, some 1]) = some true := by decide
example : enabled (some [some 0, some 10, some 2]) none (some [some 0, some 10, some 1]) (some [some 2025, some 2, some 1]) = some false := by
  decide
example : enabled (some [some 0, some 9, some 5]) (some [none]) none none = some false := by decide
example : enabled (some [some 0, some 11, some 0, none]) none none none = none :=
  C69_other_versions_raise _ (by simp) none none none
example : le (0, 10, 0) (0, 11, 0) = true ∧ Between (0, 10, 3) (0, 10, 0) (0, 11, 0) :=
  ⟨by decide, .inr (.revision (by decide)), .minor (by decide)⟩

end Qugar.Py.Version
