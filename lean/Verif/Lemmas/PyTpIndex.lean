import Verif.Model.PyNumbering
import Verif.Spec.Numbering
import Verif.Lemmas.TensorSum
import Mathlib.Tactic.Ring
import Mathlib.Tactic.Linarith
/-
Lemmas on tensor-product index sets (mesh/tp_index.py).
-/
namespace Qugar.Py
open Spec Spec.Cell TS

theorem arange_mul {a b s k : Nat} (hs : 0 < s) (h1 : a + k * s < b + s) (h2 : b ≤ a + k * s) (hab : a ≤ b) :
    arange a b s = (List.range k).map fun i => a + i * s := by
  unfold arange
  have : (b - a + s - 1) / s = k := by
    rw [Nat.div_eq_iff hs]
    constructor
    · omega
    · omega
  rw [this]

theorem arange_zero {b s k : Nat} (hs : 0 < s) (h : b = k * s) : arange 0 b s = (List.range k).map fun i => i * s := by
  rw [arange_mul hs (a := 0) (b := b) (k := k) (by omega) (by omega) (by omega)]
  simp

theorem arange_one {n : Nat} : arange 0 n 1 = List.range n := by
  rw [arange_zero (k := n) (by omega) (by omega)]; simp

theorem sorted_map_range (k : Nat) (f : Nat → Nat) (h : ∀ i j, i < j → j < k → f i < f j) :
    ((List.range k).map f).Pairwise (· < ·) := by
  rw [List.pairwise_map]
  refine List.Pairwise.imp_of_mem ?_ List.pairwise_lt_range
  intro a b _ hb hab
  exact h a b hab (List.mem_range.1 hb)

theorem sorted_shift {l : List Nat} (h : l.Pairwise (· < ·)) (c : Nat) : (l.map (· + c)).Pairwise (· < ·) := by
  rw [List.pairwise_map]
  exact h.imp fun hab => by omega

theorem sorted_flatMap {L : List Nat} {s : Nat} (hL : L.Pairwise (· < ·)) (hs : ∀ x ∈ L, x < s) (I : List Nat)
    (hI : I.Pairwise (· < ·)) : (I.flatMap fun i => L.map (· + i * s)).Pairwise (· < ·) := by
  rw [List.pairwise_flatMap]
  refine ⟨fun i _ => sorted_shift hL _, hI.imp ?_⟩
  intro i j hij x hx y hy
  obtain ⟨x', hx', rfl⟩ := List.mem_map.1 hx
  obtain ⟨y', hy', rfl⟩ := List.mem_map.1 hy
  have h1 := hs x' hx'
  have h2 : (i + 1) * s ≤ j * s := Nat.mul_le_mul_right _ hij
  have h3 : (i + 1) * s = i * s + s := by ring
  omega

theorem inSize1 {n0 : Nat} {t : List Nat} : InSize [n0] t ↔ ∃ a, t = [a] ∧ a < n0 := by
  rw [← forall2_lt_iff_inSize]
  constructor
  · rintro (_ | ⟨h, _ | _⟩); exact ⟨_, rfl, h⟩
  · rintro ⟨a, rfl, h⟩; exact .cons h .nil

theorem inSize2 {n0 n1 : Nat} {t : List Nat} : InSize [n0, n1] t ↔ ∃ a b, t = [a, b] ∧ a < n0 ∧ b < n1 := by
  rw [← forall2_lt_iff_inSize]
  constructor
  · rintro (_ | ⟨h, _ | ⟨h', _ | _⟩⟩); exact ⟨_, _, rfl, h, h'⟩
  · rintro ⟨a, b, rfl, h, h'⟩; exact .cons h (.cons h' .nil)

theorem inSize3 {n0 n1 n2 : Nat} {t : List Nat} :
    InSize [n0, n1, n2] t ↔ ∃ a b c, t = [a, b, c] ∧ a < n0 ∧ b < n1 ∧ c < n2 := by
  rw [← forall2_lt_iff_inSize]
  constructor
  · rintro (_ | ⟨h, _ | ⟨h', _ | ⟨h'', _ | _⟩⟩⟩); exact ⟨_, _, _, rfl, h, h', h''⟩
  · rintro ⟨a, b, c, rfl, h, h', h''⟩; exact .cons h (.cons h' (.cons h'' .nil))

/-- Flat indices in up to three dimensions. -/
theorem flat1 (a n0 : Nat) : flatIndex [a] [n0] = a := by simp [flatIndex]
theorem flat2 (a b n0 n1 : Nat) : flatIndex [a, b] [n0, n1] = a + n0 * b := by simp [flatIndex]
theorem flat3 (a b c n0 n1 n2 : Nat) : flatIndex [a, b, c] [n0, n1, n2] = a + n0 * b + n0 * n1 * c := by
  simp [flatIndex]; ring

/-- Membership of the listed set, two dimensions. -/
theorem lists2 {n0 n1 : Nat} {p : List Nat → Prop} {l : List Nat} (hs : l.Pairwise (· < ·))
    (h : ∀ x, x ∈ l ↔ ∃ a b, a < n0 ∧ b < n1 ∧ p [a, b] ∧ a + n0 * b = x) :
    Lists [n0, n1] (fun t => InSize [n0, n1] t ∧ p t) l := by
  refine ⟨hs, fun x => (h x).trans ?_⟩
  constructor
  · rintro ⟨a, b, ha, hb, hp, hx⟩
    exact ⟨[a, b], ⟨inSize2.2 ⟨a, b, rfl, ha, hb⟩, hp⟩, by rw [flat2]; exact hx⟩
  · rintro ⟨t, ⟨ht, hp⟩, hx⟩
    obtain ⟨a, b, rfl, ha, hb⟩ := inSize2.1 ht
    exact ⟨a, b, ha, hb, hp, by rw [← flat2 a b n0 n1]; exact hx⟩

/-- Membership of the listed set, three dimensions. -/
theorem lists3 {n0 n1 n2 : Nat} {p : List Nat → Prop} {l : List Nat} (hs : l.Pairwise (· < ·))
    (h : ∀ x, x ∈ l ↔ ∃ a b c, a < n0 ∧ b < n1 ∧ c < n2 ∧ p [a, b, c] ∧ a + n0 * b + n0 * n1 * c = x) :
    Lists [n0, n1, n2] (fun t => InSize [n0, n1, n2] t ∧ p t) l := by
  refine ⟨hs, fun x => (h x).trans ?_⟩
  constructor
  · rintro ⟨a, b, c, ha, hb, hc, hp, hx⟩
    exact ⟨[a, b, c], ⟨inSize3.2 ⟨a, b, c, rfl, ha, hb, hc⟩, hp⟩, by rw [flat3]; exact hx⟩
  · rintro ⟨t, ⟨ht, hp⟩, hx⟩
    obtain ⟨a, b, c, rfl, ha, hb, hc⟩ := inSize3.1 ht
    exact ⟨a, b, c, ha, hb, hc, hp, by rw [← flat3 a b c n0 n1 n2]; exact hx⟩

theorem lists1 {n0 : Nat} {p : List Nat → Prop} {l : List Nat} (hs : l.Pairwise (· < ·))
    (h : ∀ x, x ∈ l ↔ x < n0 ∧ p [x]) : Lists [n0] (fun t => InSize [n0] t ∧ p t) l := by
  refine ⟨hs, fun x => (h x).trans ?_⟩
  constructor
  · rintro ⟨hx, hp⟩
    exact ⟨[x], ⟨inSize1.2 ⟨x, rfl, hx⟩, hp⟩, flat1 _ _⟩
  · rintro ⟨t, ⟨ht, hp⟩, hx⟩
    obtain ⟨a, rfl, ha⟩ := inSize1.1 ht
    rw [flat1] at hx; subst hx
    exact ⟨ha, hp⟩

/-- Quotient and remainder by the first size. -/
theorem split_flat {n0 m x : Nat} (h : x < n0 * m) : ∃ a b, a < n0 ∧ b < m ∧ a + n0 * b = x :=
  ⟨x % n0, x / n0, Nat.mod_lt _ (Nat.pos_of_ne_zero (by rintro rfl; omega)),
    Nat.div_lt_of_lt_mul h, Nat.mod_add_div x n0⟩

theorem flat_bound2 {n0 n1 a b : Nat} (ha : a < n0) (hb : b < n1) : a + n0 * b < n0 * n1 := by
  have : n0 * (b + 1) ≤ n0 * n1 := Nat.mul_le_mul_left _ hb
  have h2 : n0 * (b + 1) = n0 * b + n0 := by ring
  omega

/-- The facets, two dimensions. -/
theorem faceLex2 {n0 n1 : Nat} (h0 : 0 < n0) (h1 : 0 < n1) (f : Nat) (hf : f < 4) :
    ∃ l, faceLex [n0, n1] f = some l ∧ Lists [n0, n1] (OnLexFacet [n0, n1] f) l := by
  have e0 : arange 0 (n0 * n1) n0 = (List.range n1).map fun i => i * n0 := arange_zero h0 (by ring)
  have s0 : ((List.range n1).map fun i => i * n0).Pairwise (· < ·) :=
    sorted_map_range _ _ fun i j hij _ => Nat.mul_lt_mul_of_pos_right hij h0
  have hf' : f = 0 ∨ f = 1 ∨ f = 2 ∨ f = 3 := by omega
  rcases hf' with rfl | rfl | rfl | rfl
  · refine ⟨_, rfl, ?_⟩
    rw [e0]
    refine lists2 s0 fun x => ?_
    simp only [List.mem_map, List.mem_range]
    constructor
    · rintro ⟨i, hi, rfl⟩; exact ⟨0, i, h0, hi, by simp, by ring⟩
    · rintro ⟨a, b, -, hb, hp, rfl⟩
      refine ⟨b, hb, ?_⟩
      have : a = 0 := by simpa using hp
      subst this; ring
  · refine ⟨_, rfl, ?_⟩
    rw [e0]
    have : (fun x => x + n0 - 1) = fun x => x + (n0 - 1) := by funext x; omega
    rw [this]
    refine lists2 (sorted_shift s0 _) fun x => ?_
    simp only [List.mem_map, List.mem_range, exists_exists_and_eq_and]
    constructor
    · rintro ⟨i, hi, rfl⟩; exact ⟨n0 - 1, i, by omega, hi, by simp, by ring⟩
    · rintro ⟨a, b, -, hb, hp, rfl⟩
      refine ⟨b, hb, ?_⟩
      have : a = n0 - 1 := by simpa using hp
      subst this; ring
  · refine ⟨_, rfl, ?_⟩
    rw [arange_one]
    refine lists2 List.pairwise_lt_range fun x => ?_
    simp only [List.mem_range]
    constructor
    · intro hx; exact ⟨x, 0, hx, h1, by simp, by ring⟩
    · rintro ⟨a, b, ha, -, hp, rfl⟩
      have : b = 0 := by simpa using hp
      subst this; simpa using ha
  · refine ⟨_, rfl, ?_⟩
    rw [arange_one]
    refine lists2 (sorted_shift List.pairwise_lt_range _) fun x => ?_
    simp only [List.mem_map, List.mem_range]
    constructor
    · rintro ⟨a, ha, rfl⟩; exact ⟨a, n1 - 1, ha, by omega, by simp, by ring⟩
    · rintro ⟨a, b, ha, -, hp, rfl⟩
      have : b = n1 - 1 := by simpa using hp
      subst this; exact ⟨a, ha, rfl⟩

theorem outer_flatten (n0 n1 n2 : Nat) (h : 0 < n0 * n1) :
    (outerAdd (arange 0 n0 1) (arange 0 (n0 * n1 * n2) (n0 * n1))).flatten =
      (List.range n2).flatMap fun k => (List.range n0).map (· + k * (n0 * n1)) := by
  unfold outerAdd
  rw [arange_one, arange_zero (k := n2) h (by ring), List.map_map, List.flatMap_def]
  rfl

/-- The facets, three dimensions. -/
theorem faceLex3 {n0 n1 n2 : Nat} (h0 : 0 < n0) (h1 : 0 < n1) (h2 : 0 < n2) (f : Nat) (hf : f < 6) :
    ∃ l, faceLex [n0, n1, n2] f = some l ∧ Lists [n0, n1, n2] (OnLexFacet [n0, n1, n2] f) l := by
  have h01 : 0 < n0 * n1 := Nat.mul_pos h0 h1
  have e0 : arange 0 (n0 * n1 * n2) n0 = (List.range (n1 * n2)).map fun i => i * n0 := arange_zero h0 (by ring)
  have s0 : ((List.range (n1 * n2)).map fun i => i * n0).Pairwise (· < ·) :=
    sorted_map_range _ _ fun i j hij _ => Nat.mul_lt_mul_of_pos_right hij h0
  have s2 : ((List.range n2).flatMap fun k => (List.range n0).map (· + k * (n0 * n1))).Pairwise (· < ·) := by
    refine sorted_flatMap List.pairwise_lt_range ?_ _ List.pairwise_lt_range
    intro x hx
    have hx' := List.mem_range.1 hx
    calc x < n0 * 1 := by omega
      _ ≤ n0 * n1 := Nat.mul_le_mul_left _ h1
  have hf' : f = 0 ∨ f = 1 ∨ f = 2 ∨ f = 3 ∨ f = 4 ∨ f = 5 := by omega
  rcases hf' with rfl | rfl | rfl | rfl | rfl | rfl
  · refine ⟨_, rfl, ?_⟩
    rw [e0]
    refine lists3 s0 fun x => ?_
    simp only [List.mem_map, List.mem_range]
    constructor
    · rintro ⟨i, hi, rfl⟩
      obtain ⟨b, c, hb, hc, rfl⟩ := split_flat hi
      exact ⟨0, b, c, h0, hb, hc, by simp, by ring⟩
    · rintro ⟨a, b, c, -, hb, hc, hp, rfl⟩
      have : a = 0 := by simpa using hp
      subst this
      exact ⟨b + n1 * c, flat_bound2 hb hc, by ring⟩
  · refine ⟨_, rfl, ?_⟩
    rw [e0]
    have : (fun x => x + n0 - 1) = fun x => x + (n0 - 1) := by funext x; omega
    rw [this]
    refine lists3 (sorted_shift s0 _) fun x => ?_
    simp only [List.mem_map, List.mem_range, exists_exists_and_eq_and]
    constructor
    · rintro ⟨i, hi, rfl⟩
      obtain ⟨b, c, hb, hc, rfl⟩ := split_flat hi
      exact ⟨n0 - 1, b, c, by omega, hb, hc, by simp, by ring⟩
    · rintro ⟨a, b, c, -, hb, hc, hp, rfl⟩
      have : a = n0 - 1 := by simpa using hp
      subst this
      exact ⟨b + n1 * c, flat_bound2 hb hc, by ring⟩
  · refine ⟨_, rfl, ?_⟩
    rw [outer_flatten _ _ _ h01]
    refine lists3 s2 fun x => ?_
    simp only [List.mem_flatMap, List.mem_map, List.mem_range]
    constructor
    · rintro ⟨k, hk, a, ha, rfl⟩; exact ⟨a, 0, k, ha, h1, hk, by simp, by ring⟩
    · rintro ⟨a, b, c, ha, -, hc, hp, rfl⟩
      have : b = 0 := by simpa using hp
      subst this
      exact ⟨c, hc, a, ha, by ring⟩
  · refine ⟨_, rfl, ?_⟩
    rw [outer_flatten _ _ _ h01]
    refine lists3 (sorted_shift s2 _) fun x => ?_
    simp only [List.mem_map, List.mem_flatMap, List.mem_range]
    constructor
    · rintro ⟨_, ⟨k, hk, a, ha, rfl⟩, rfl⟩
      exact ⟨a, n1 - 1, k, ha, by omega, hk, by simp, by ring⟩
    · rintro ⟨a, b, c, ha, -, hc, hp, rfl⟩
      have : b = n1 - 1 := by simpa using hp
      subst this
      exact ⟨_, ⟨c, hc, a, ha, rfl⟩, by ring⟩
  · refine ⟨_, rfl, ?_⟩
    rw [arange_one]
    refine lists3 List.pairwise_lt_range fun x => ?_
    simp only [List.mem_range]
    constructor
    · intro hx
      obtain ⟨a, b, ha, hb, rfl⟩ := split_flat hx
      exact ⟨a, b, 0, ha, hb, h2, by simp, by ring⟩
    · rintro ⟨a, b, c, ha, hb, -, hp, rfl⟩
      have : c = 0 := by simpa using hp
      subst this
      simpa using flat_bound2 ha hb
  · refine ⟨_, rfl, ?_⟩
    rw [arange_one]
    refine lists3 (sorted_shift List.pairwise_lt_range _) fun x => ?_
    simp only [List.mem_map, List.mem_range]
    constructor
    · rintro ⟨y, hy, rfl⟩
      obtain ⟨a, b, ha, hb, rfl⟩ := split_flat hy
      exact ⟨a, b, n2 - 1, ha, hb, by omega, by simp, by ring⟩
    · rintro ⟨a, b, c, ha, hb, -, hp, rfl⟩
      have : c = n2 - 1 := by simpa using hp
      subst this
      exact ⟨_, flat_bound2 ha hb, rfl⟩

end Qugar.Py
