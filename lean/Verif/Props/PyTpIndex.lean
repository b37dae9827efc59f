import Verif.Lemmas.PyTpIndex
import Verif.Props.PyNumbering
/-
Property theorems C62 (index sets of tensor-product structures, python/qugar/mesh/tp_index.py).
-/
namespace Qugar.Py
open Spec Spec.Cell TS

/-- Sizes of the structure: up to three directions, at least `m` indices in each. -/
def Sizes (m : Nat) (n : List Nat) : Prop := 1 ≤ n.length ∧ n.length ≤ 3 ∧ ∀ k, k < n.length → m ≤ n.getD k 0

theorem sizes_cases {m : Nat} {n : List Nat} (h : Sizes m n) :
    (∃ n0, n = [n0] ∧ m ≤ n0) ∨ (∃ n0 n1, n = [n0, n1] ∧ m ≤ n0 ∧ m ≤ n1) ∨
      ∃ n0 n1 n2, n = [n0, n1, n2] ∧ m ≤ n0 ∧ m ≤ n1 ∧ m ≤ n2 := by
  obtain ⟨h1, h3, h⟩ := h
  match n, h1, h3, h with
  | [n0], _, _, h => exact .inl ⟨n0, rfl, h 0 (by simp)⟩
  | [n0, n1], _, _, h => exact .inr (.inl ⟨n0, n1, rfl, h 0 (by simp), h 1 (by simp)⟩)
  | [n0, n1, n2], _, _, h => exact .inr (.inr ⟨n0, n1, n2, rfl, h 0 (by simp), h 1 (by simp), h 2 (by simp)⟩)

/-- **C62** (facets, lexicographical ids): facet `2 k` or `2 k + 1` is made of the points on the lower or upper side in
direction `k`, in increasing order. -/
theorem C62_face (n : List Nat) (hn : Sizes 1 n) (f : Nat) (hf : f < 2 * n.length) :
    ∃ l, face n f true = some l ∧ Lists n (OnLexFacet n f) l := by
  rcases sizes_cases hn with ⟨n0, rfl, h0⟩ | ⟨n0, n1, rfl, h0, h1⟩ | ⟨n0, n1, n2, rfl, h0, h1, h2⟩
  · have hf' : f = 0 ∨ f = 1 := by simp at hf; omega
    rcases hf' with rfl | rfl
    · refine ⟨[0], rfl, lists1 (by simp) fun x => ?_⟩
      simp; omega
    · refine ⟨[n0 - 1], rfl, lists1 (by simp) fun x => ?_⟩
      simp; omega
  · exact faceLex2 h0 h1 f hf
  · exact faceLex3 h0 h1 h2 f hf

/-- **C62** (facets, DOLFINx ids): facet `f` is made of the points spanned by the corners of basix's facet `f`. -/
theorem C62_face_dolfinx (n : List Nat) (hn : Sizes 1 n) (f : Nat) (hf : f < 2 * n.length) :
    ∃ l p, face n f false = some l ∧ ((basix n.length).facets n.length)[f]? = some p ∧
      Lists n (OnEntity n ((basix n.length).corner p.1) ((basix n.length).corner p.2)) l := by
  have key : ∀ (n : List Nat) (f g : Nat) (p : Nat × Nat) (t : List Nat), Sizes 1 n → g < 2 * n.length →
      lexicgToDlfFaces n.length = some t → t[f]? = some g →
      ((basix n.length).facets n.length)[f]? = some p →
      (∀ t, OnLexFacet n g t ↔ OnEntity n ((basix n.length).corner p.1) ((basix n.length).corner p.2) t) →
      ∃ l p, face n f false = some l ∧ ((basix n.length).facets n.length)[f]? = some p ∧
        Lists n (OnEntity n ((basix n.length).corner p.1) ((basix n.length).corner p.2)) l := by
    intro n f g p t hn hg ht htf hp h
    obtain ⟨l, hl, hL⟩ := C62_face n hn g hg
    refine ⟨l, p, ?_, hp, hL.1, fun x => (hL.2 x).trans ?_⟩
    · unfold face
      rw [if_neg (by decide), ht, Option.bind_some, htf, Option.bind_some]
      exact hl
    · exact exists_congr fun t => and_congr_left fun _ => h t
  rcases sizes_cases hn with ⟨n0, rfl, h0⟩ | ⟨n0, n1, rfl, h0, h1⟩ | ⟨n0, n1, n2, rfl, h0, h1, h2⟩
  · have hf' : f = 0 ∨ f = 1 := by simp at hf; omega
    rcases hf' with rfl | rfl
    · refine key _ 0 0 _ _ hn (by simp) rfl rfl rfl fun t => and_congr_right fun ht => ?_
      obtain ⟨a, rfl, ha⟩ := inSize1.1 ht
      simp [basix, Numbering.corner]
    · refine key _ 1 1 _ _ hn (by simp) rfl rfl rfl fun t => and_congr_right fun ht => ?_
      obtain ⟨a, rfl, ha⟩ := inSize1.1 ht
      simp [basix, Numbering.corner]
  · have hf' : f = 0 ∨ f = 1 ∨ f = 2 ∨ f = 3 := by simp at hf; omega
    have fin2 : ∀ q : Nat → Prop, (∀ k, k < [n0, n1].length → q k) ↔ q 0 ∧ q 1 := by
      intro q
      constructor
      · intro h; exact ⟨h 0 (by simp), h 1 (by simp)⟩
      · rintro ⟨h, h'⟩ k hk
        have : k = 0 ∨ k = 1 := by simp at hk; omega
        rcases this with rfl | rfl <;> assumption
    rcases hf' with rfl | rfl | rfl | rfl
    · refine key _ 0 2 (0, 1) _ hn (by simp) rfl rfl rfl fun t => and_congr_right fun ht => ?_
      obtain ⟨a, b, rfl, ha, hb⟩ := inSize2.1 ht
      rw [fin2]; simp [basix, Numbering.corner]
    · refine key _ 1 0 (0, 2) _ hn (by simp) rfl rfl rfl fun t => and_congr_right fun ht => ?_
      obtain ⟨a, b, rfl, ha, hb⟩ := inSize2.1 ht
      rw [fin2]; simp [basix, Numbering.corner]
    · refine key _ 2 1 (1, 3) _ hn (by simp) rfl rfl rfl fun t => and_congr_right fun ht => ?_
      obtain ⟨a, b, rfl, ha, hb⟩ := inSize2.1 ht
      rw [fin2]; simp [basix, Numbering.corner]
    · refine key _ 3 3 (2, 3) _ hn (by simp) rfl rfl rfl fun t => and_congr_right fun ht => ?_
      obtain ⟨a, b, rfl, ha, hb⟩ := inSize2.1 ht
      rw [fin2]; simp [basix, Numbering.corner]
  · have hf' : f = 0 ∨ f = 1 ∨ f = 2 ∨ f = 3 ∨ f = 4 ∨ f = 5 := by simp at hf; omega
    have fin3 : ∀ q : Nat → Prop, (∀ k, k < [n0, n1, n2].length → q k) ↔ q 0 ∧ q 1 ∧ q 2 := by
      intro q
      constructor
      · intro h; exact ⟨h 0 (by simp), h 1 (by simp), h 2 (by simp)⟩
      · rintro ⟨h, h', h''⟩ k hk
        have : k = 0 ∨ k = 1 ∨ k = 2 := by simp at hk; omega
        rcases this with rfl | rfl | rfl <;> assumption
    rcases hf' with rfl | rfl | rfl | rfl | rfl | rfl
    · refine key _ 0 4 (0, 3) _ hn (by simp) rfl rfl rfl fun t => and_congr_right fun ht => ?_
      obtain ⟨a, b, c, rfl, ha, hb, hc⟩ := inSize3.1 ht
      rw [fin3]; simp [basix, Numbering.corner]
    · refine key _ 1 2 (0, 5) _ hn (by simp) rfl rfl rfl fun t => and_congr_right fun ht => ?_
      obtain ⟨a, b, c, rfl, ha, hb, hc⟩ := inSize3.1 ht
      rw [fin3]; simp [basix, Numbering.corner]
    · refine key _ 2 0 (0, 6) _ hn (by simp) rfl rfl rfl fun t => and_congr_right fun ht => ?_
      obtain ⟨a, b, c, rfl, ha, hb, hc⟩ := inSize3.1 ht
      rw [fin3]; simp [basix, Numbering.corner]
    · refine key _ 3 1 (1, 7) _ hn (by simp) rfl rfl rfl fun t => and_congr_right fun ht => ?_
      obtain ⟨a, b, c, rfl, ha, hb, hc⟩ := inSize3.1 ht
      rw [fin3]; simp [basix, Numbering.corner]
    · refine key _ 4 3 (2, 7) _ hn (by simp) rfl rfl rfl fun t => and_congr_right fun ht => ?_
      obtain ⟨a, b, c, rfl, ha, hb, hc⟩ := inSize3.1 ht
      rw [fin3]; simp [basix, Numbering.corner]
    · refine key _ 5 5 (4, 7) _ hn (by simp) rfl rfl rfl fun t => and_congr_right fun ht => ?_
      obtain ⟨a, b, c, rfl, ha, hb, hc⟩ := inSize3.1 ht
      rw [fin3]; simp [basix, Numbering.corner]

/-- **C62** (corners): corner `c` is the lattice point on the sides given by the binary digits of `c` (direction 0 first),
and these are all the corners, in increasing order. -/
theorem C62_corner (n : List Nat) (hn : Sizes 1 n) (c : Nat) (hc : c < 2 ^ n.length) :
    corner n c = some (flatIndex (List.zipWith (fun k nk => (c / 2 ^ k % 2) * (nk - 1)) (List.range n.length) n) n) := by
  rcases sizes_cases hn with ⟨n0, rfl, h0⟩ | ⟨n0, n1, rfl, h0, h1⟩ | ⟨n0, n1, n2, rfl, h0, h1, h2⟩
  · have hc' : c = 0 ∨ c = 1 := by simp at hc; omega
    rcases hc' with rfl | rfl <;> simp [corner, allCorners, flatIndex, List.range_succ]
  · have hc' : c = 0 ∨ c = 1 ∨ c = 2 ∨ c = 3 := by simp at hc; omega
    rcases hc' with rfl | rfl | rfl | rfl <;> simp [corner, allCorners, flatIndex, List.range_succ]
  · have hc' : c = 0 ∨ c = 1 ∨ c = 2 ∨ c = 3 ∨ c = 4 ∨ c = 5 ∨ c = 6 ∨ c = 7 := by simp at hc; omega
    have e : n0 * n1 * (n2 - 1) = n0 * (n1 * (n2 - 1)) := by ring
    rcases hc' with rfl | rfl | rfl | rfl | rfl | rfl | rfl | rfl <;>
      simp [corner, allCorners, flatIndex, List.range_succ, e, Nat.mul_add, Nat.add_assoc]

theorem allFaces2 {n0 n1 : Nat} (h0 : 2 ≤ n0) (h1 : 2 ≤ n1) :
    ∃ l, allFaces [n0, n1] = some l ∧ l.Pairwise (· < ·) ∧
      ∀ x, x ∈ l ↔ ∃ a b, a < n0 ∧ b < n1 ∧ (a = 0 ∨ a + 1 = n0 ∨ b = 0 ∨ b + 1 = n1) ∧ a + n0 * b = x := by
  refine ⟨_, rfl, ?_, fun x => ?_⟩
  · rw [arange_one, List.pairwise_append, List.pairwise_append]
    have hmid : ∀ j ∈ List.range' 1 (n1 - 2), 1 ≤ j ∧ j + 1 < n1 := by
      intro j hj; rw [List.mem_range'_1] at hj; omega
    refine ⟨⟨List.pairwise_lt_range, ?_, ?_⟩, sorted_shift List.pairwise_lt_range _, ?_⟩
    · rw [List.pairwise_flatMap]
      refine ⟨fun j hj => ?_, (List.pairwise_lt_range' (s := 1) (n := n1 - 2)).imp ?_⟩
      · have e : (j + 1) * n0 = j * n0 + n0 := by ring
        simp only [List.pairwise_cons, List.mem_singleton, forall_eq, List.Pairwise.nil, and_true, List.not_mem_nil,
          false_imp_iff, implies_true]
        omega
      · intro i j hij x hx y hy
        have h2 : (i + 1) * n0 ≤ j * n0 := Nat.mul_le_mul_right _ hij
        have h3 : (i + 1) * n0 = i * n0 + n0 := by ring
        have h4 : (j + 1) * n0 = j * n0 + n0 := by ring
        simp only [List.mem_cons, List.not_mem_nil, or_false] at hx hy
        rcases hx with rfl | rfl <;> rcases hy with rfl | rfl <;> omega
    · intro x hx y hy
      rw [List.mem_range] at hx
      obtain ⟨j, hj, hy⟩ := List.mem_flatMap.1 hy
      obtain ⟨hj1, hj2⟩ := hmid j hj
      have h3 : 1 * n0 ≤ j * n0 := Nat.mul_le_mul_right _ hj1
      have h4 : (j + 1) * n0 = j * n0 + n0 := by ring
      simp only [List.mem_cons, List.not_mem_nil, or_false] at hy
      rcases hy with rfl | rfl <;> omega
    · intro x hx y hy
      obtain ⟨a, ha, rfl⟩ := List.mem_map.1 hy
      have h4 : 1 * n0 ≤ (n1 - 1) * n0 := Nat.mul_le_mul_right _ (by omega)
      have e : n0 * (n1 - 1) = (n1 - 1) * n0 := by ring
      rcases List.mem_append.1 hx with hx | hx
      · rw [List.mem_range] at hx; omega
      · obtain ⟨j, hj, hx⟩ := List.mem_flatMap.1 hx
        obtain ⟨hj1, hj2⟩ := hmid j hj
        have h3 : (j + 1) * n0 ≤ (n1 - 1) * n0 := Nat.mul_le_mul_right _ (by omega)
        have h5 : (j + 1) * n0 = j * n0 + n0 := by ring
        simp only [List.mem_cons, List.not_mem_nil, or_false] at hx
        rcases hx with rfl | rfl <;> omega
  · rw [arange_one]
    simp only [List.mem_append, List.mem_range, List.mem_flatMap, List.mem_range'_1, List.mem_cons, List.not_mem_nil,
      or_false, List.mem_map]
    constructor
    · rintro ((hx | ⟨j, hj, rfl | rfl⟩) | ⟨a, ha, rfl⟩)
      · exact ⟨x, 0, hx, by omega, by simp, by simp⟩
      · exact ⟨0, j, by omega, by omega, by simp, by ring⟩
      · refine ⟨n0 - 1, j, by omega, by omega, by omega, ?_⟩
        have : (j + 1) * n0 = n0 * j + n0 := by ring
        omega
      · exact ⟨a, n1 - 1, ha, by omega, by omega, rfl⟩
    · rintro ⟨a, b, ha, hb, hp, rfl⟩
      by_cases hb0 : b = 0
      · subst hb0; left; left; simpa using ha
      by_cases hb1 : b + 1 = n1
      · right; exact ⟨a, ha, by rw [← hb1]; simp⟩
      left; right
      refine ⟨b, by omega, ?_⟩
      have e : (b + 1) * n0 = n0 * b + n0 := by ring
      have e2 : b * n0 = n0 * b := by ring
      rcases hp with rfl | hp | hp | hp
      · left; omega
      · right; omega
      · exact absurd hp hb0
      · exact absurd hp hb1

theorem onBoundary1 {n0 a : Nat} : (∃ k, k < [n0].length ∧ ([a].getD k 0 = 0 ∨ [a].getD k 0 + 1 = [n0].getD k 0)) ↔
    (a = 0 ∨ a + 1 = n0) := by
  constructor
  · rintro ⟨k, hk, h⟩
    have : k = 0 := by simpa using hk
    subst this; simpa using h
  · intro h; exact ⟨0, by simp, by simpa using h⟩

theorem onBoundary2 {n0 n1 a b : Nat} :
    (∃ k, k < [n0, n1].length ∧ ([a, b].getD k 0 = 0 ∨ [a, b].getD k 0 + 1 = [n0, n1].getD k 0)) ↔
    (a = 0 ∨ a + 1 = n0 ∨ b = 0 ∨ b + 1 = n1) := by
  constructor
  · rintro ⟨k, hk, h⟩
    have : k = 0 ∨ k = 1 := by simp at hk; omega
    rcases this with rfl | rfl <;> simp at h <;> omega
  · rintro (h | h | h | h)
    · exact ⟨0, by simp, by simp [h]⟩
    · exact ⟨0, by simp, by simp [h]⟩
    · exact ⟨1, by simp, by simp [h]⟩
    · exact ⟨1, by simp, by simp [h]⟩

theorem onBoundary3 {n0 n1 n2 a b c : Nat} :
    (∃ k, k < [n0, n1, n2].length ∧ ([a, b, c].getD k 0 = 0 ∨ [a, b, c].getD k 0 + 1 = [n0, n1, n2].getD k 0)) ↔
    (a = 0 ∨ a + 1 = n0 ∨ b = 0 ∨ b + 1 = n1 ∨ c = 0 ∨ c + 1 = n2) := by
  constructor
  · rintro ⟨k, hk, h⟩
    have : k = 0 ∨ k = 1 ∨ k = 2 := by simp at hk; omega
    rcases this with rfl | rfl | rfl <;> simp at h <;> omega
  · rintro (h | h | h | h | h | h)
    · exact ⟨0, by simp, by simp [h]⟩
    · exact ⟨0, by simp, by simp [h]⟩
    · exact ⟨1, by simp, by simp [h]⟩
    · exact ⟨1, by simp, by simp [h]⟩
    · exact ⟨2, by simp, by simp [h]⟩
    · exact ⟨2, by simp, by simp [h]⟩

/-- **C62** (boundary): `get_all_faces` lists exactly the boundary points, in increasing order, once each. -/
theorem C62_all_faces (n : List Nat) (hn : Sizes 2 n) : ∃ l, allFaces n = some l ∧ Lists n (OnBoundary n) l := by
  rcases sizes_cases hn with ⟨n0, rfl, h0⟩ | ⟨n0, n1, rfl, h0, h1⟩ | ⟨n0, n1, n2, rfl, h0, h1, h2⟩
  · refine ⟨[0, n0 - 1], rfl, lists1 ?_ fun x => ?_⟩
    · simp; omega
    · rw [onBoundary1]; simp; omega
  · obtain ⟨l, hl, hs, hm⟩ := allFaces2 h0 h1
    refine ⟨l, hl, lists2 hs fun x => (hm x).trans ?_⟩
    simp only [onBoundary2]
  · obtain ⟨l, hl, hs, hm⟩ := allFaces2 h0 h1
    have h01 : 0 < n0 * n1 := Nat.mul_pos (by omega) (by omega)
    have hlt : ∀ x ∈ l, x < n0 * n1 := by
      intro x hx
      obtain ⟨a, b, ha, hb, -, rfl⟩ := (hm x).1 hx
      exact flat_bound2 ha hb
    have hmid : ∀ j ∈ List.range' 1 (n2 - 2), 1 ≤ j ∧ j + 1 < n2 := by
      intro j hj; rw [List.mem_range'_1] at hj; omega
    refine ⟨_, ?_, lists3 (l := (List.range (n0 * n1) ++
      ((List.range' 1 (n2 - 2)).flatMap fun k => l.map (· + k * (n0 * n1)))) ++
        (List.range (n0 * n1)).map (· + n0 * n1 * (n2 - 1))) ?_ fun x => ?_⟩
    · change allFaces2D n0 n1 = some l at hl
      rw [allFaces, hl]
      simp only [faceLex, arange_one]; rfl
    · rw [List.pairwise_append, List.pairwise_append]
      refine ⟨⟨List.pairwise_lt_range, sorted_flatMap hs hlt _ (List.pairwise_lt_range' ..), ?_⟩,
        sorted_shift List.pairwise_lt_range _, ?_⟩
      · intro x hx y hy
        rw [List.mem_range] at hx
        obtain ⟨j, hj, hy⟩ := List.mem_flatMap.1 hy
        obtain ⟨y', hy', rfl⟩ := List.mem_map.1 hy
        have := Nat.mul_le_mul_right (n0 * n1) (hmid j hj).1
        omega
      · intro x hx y hy
        obtain ⟨a, ha, rfl⟩ := List.mem_map.1 hy
        have e : n0 * n1 * (n2 - 1) = (n2 - 1) * (n0 * n1) := by ring
        rcases List.mem_append.1 hx with hx | hx
        · rw [List.mem_range] at hx
          have := Nat.mul_le_mul_right (n0 * n1) (show 1 ≤ n2 - 1 by omega)
          omega
        · obtain ⟨j, hj, hx⟩ := List.mem_flatMap.1 hx
          obtain ⟨x', hx', rfl⟩ := List.mem_map.1 hx
          have h3 := Nat.mul_le_mul_right (n0 * n1) (show j + 1 ≤ n2 - 1 by have := (hmid j hj).2; omega)
          have h4 : (j + 1) * (n0 * n1) = j * (n0 * n1) + n0 * n1 := by ring
          have := hlt x' hx'
          omega
    · simp only [onBoundary3, List.mem_append, List.mem_range, List.mem_flatMap, List.mem_range'_1, List.mem_map]
      constructor
      · rintro ((hx | ⟨k, hk, y, hy, rfl⟩) | ⟨y, hy, rfl⟩)
        · obtain ⟨a, b, ha, hb, rfl⟩ := split_flat hx
          exact ⟨a, b, 0, ha, hb, by omega, by simp, by ring⟩
        · obtain ⟨a, b, ha, hb, hp, rfl⟩ := (hm y).1 hy
          exact ⟨a, b, k, ha, hb, by omega, by omega, by ring⟩
        · obtain ⟨a, b, ha, hb, rfl⟩ := split_flat hy
          exact ⟨a, b, n2 - 1, ha, hb, by omega, by omega, by ring⟩
      · rintro ⟨a, b, c, ha, hb, hc, hp, rfl⟩
        by_cases hc0 : c = 0
        · subst hc0; left; left; simpa using flat_bound2 ha hb
        by_cases hc1 : c + 1 = n2
        · right; exact ⟨a + n0 * b, flat_bound2 ha hb, by rw [← hc1]; simp⟩
        left; right
        exact ⟨c, by omega, a + n0 * b, (hm _).2 ⟨a, b, ha, hb, by omega, rfl⟩, by ring⟩

theorem arange_interior {s m : Nat} (hs : 0 < s) (hm : 2 ≤ m) :
    arange s (s * (m - 1)) s = (List.range' 1 (m - 2)).map fun i => i * s := by
  obtain ⟨k, rfl⟩ : ∃ k, m = k + 2 := ⟨m - 2, by omega⟩
  have e : s * (k + 2 - 1) = s + k * s := by
    rw [show k + 2 - 1 = k + 1 by omega]; ring
  rw [e, arange_mul hs (k := k) (by omega) (by omega) (by omega), List.range'_eq_map_range, List.map_map]
  refine List.map_congr_left fun i _ => ?_
  simp only [Function.comp]; ring

theorem internal1_eq {n0 : Nat} (h0 : 2 ≤ n0) : internal1 n0 = List.range' 1 (n0 - 2) := by
  have := arange_interior (s := 1) (by omega) h0
  simp only [one_mul, mul_one, List.map_id'] at this
  exact this

theorem internal2_eq {n0 n1 : Nat} (h0 : 2 ≤ n0) (h1 : 2 ≤ n1) :
    internal2 n0 n1 = (List.range' 1 (n1 - 2)).map fun j => (List.range' 1 (n0 - 2)).map (· + j * n0) := by
  unfold internal2 outerAdd
  rw [internal1_eq h0, arange_interior (by omega) h1, List.map_map]; rfl

theorem internal2_spec {n0 n1 : Nat} (h0 : 2 ≤ n0) (h1 : 2 ≤ n1) :
    (internal2 n0 n1).flatten.Pairwise (· < ·) ∧ ∀ x, x ∈ (internal2 n0 n1).flatten ↔
      ∃ a b, a < n0 ∧ b < n1 ∧ (0 < a ∧ a + 1 < n0 ∧ 0 < b ∧ b + 1 < n1) ∧ a + n0 * b = x := by
  rw [internal2_eq h0 h1, ← List.flatMap_def]
  refine ⟨sorted_flatMap (List.pairwise_lt_range' ..) ?_ _ (List.pairwise_lt_range' ..), fun x => ?_⟩
  · intro x hx; rw [List.mem_range'_1] at hx; omega
  · simp only [List.mem_flatMap, List.mem_map, List.mem_range'_1]
    constructor
    · rintro ⟨b, hb, a, ha, rfl⟩
      exact ⟨a, b, by omega, by omega, by omega, by ring⟩
    · rintro ⟨a, b, -, -, hp, rfl⟩
      exact ⟨b, by omega, a, by omega, by ring⟩

theorem interior1 {n0 a : Nat} :
    (∀ k, k < [n0].length → 0 < [a].getD k 0 ∧ [a].getD k 0 + 1 < [n0].getD k 0) ↔ (0 < a ∧ a + 1 < n0) := by
  constructor
  · intro h; simpa using h 0 (by simp)
  · intro h k hk
    have : k = 0 := by simpa using hk
    subst this; simpa using h

theorem interior2 {n0 n1 a b : Nat} :
    (∀ k, k < [n0, n1].length → 0 < [a, b].getD k 0 ∧ [a, b].getD k 0 + 1 < [n0, n1].getD k 0) ↔
      (0 < a ∧ a + 1 < n0 ∧ 0 < b ∧ b + 1 < n1) := by
  constructor
  · intro h
    have h0 := h 0 (by simp); have h1 := h 1 (by simp)
    simp at h0 h1; omega
  · intro h k hk
    have : k = 0 ∨ k = 1 := by simp at hk; omega
    rcases this with rfl | rfl <;> simp <;> omega

theorem interior3' {n0 n1 n2 a b c : Nat} :
    (∀ k, k < [n0, n1, n2].length → 0 < [a, b, c].getD k 0 ∧ [a, b, c].getD k 0 + 1 < [n0, n1, n2].getD k 0) ↔
      (0 < a ∧ a + 1 < n0 ∧ 0 < b ∧ b + 1 < n1 ∧ 0 < c ∧ c + 1 < n2) := by
  constructor
  · intro h
    have h0 := h 0 (by simp); have h1 := h 1 (by simp); have h2 := h 2 (by simp)
    simp at h0 h1 h2; omega
  · intro h k hk
    have : k = 0 ∨ k = 1 ∨ k = 2 := by simp at hk; omega
    rcases this with rfl | rfl | rfl <;> simp <;> omega

/-- **C62** (interior), dimensions 1 and 2: `get_all_internal` lists exactly the interior points, in increasing order.
Missing: dimension 3, see `C62_internal_3D_fails`. -/
theorem C62_internal_partial (n : List Nat) (hn : Sizes 2 n) (hd : n.length ≤ 2) :
    ∃ l, allInternal n = some l ∧ Lists n (Interior n) l := by
  rcases sizes_cases hn with ⟨n0, rfl, h0⟩ | ⟨n0, n1, rfl, h0, h1⟩ | ⟨n0, n1, n2, rfl, h0, h1, h2⟩
  · refine ⟨_, rfl, ?_⟩
    rw [internal1_eq h0]
    refine lists1 (List.pairwise_lt_range' ..) fun x => ?_
    rw [interior1, List.mem_range'_1]; omega
  · obtain ⟨hs, hm⟩ := internal2_spec h0 h1
    refine ⟨_, rfl, lists2 hs fun x => (hm x).trans ?_⟩
    simp only [interior2]
  · simp at hd

/-- **C62** fails for the interior in dimension 3: with at least 3 indices in direction 0 and 4 in the other ones, the
request either raises (the arrays cannot be broadcast together) or misses interior points. -/
theorem C62_internal_3D_fails (n0 n1 n2 : Nat) (h0 : 3 ≤ n0) (h1 : 4 ≤ n1) (h2 : 4 ≤ n2) :
    ¬ ∃ l, allInternal [n0, n1, n2] = some l ∧ Lists [n0, n1, n2] (Interior [n0, n1, n2]) l := by
  rintro ⟨l, hl, hL⟩
  have h01 : 0 < n0 * n1 := Nat.mul_pos (by omega) (by omega)
  have e2 := internal2_eq (n0 := n0) (n1 := n1) (by omega) (by omega)
  have e3 : arange (n0 * n1) (n0 * n1 * (n2 - 1)) (n0 * n1) = (List.range' 1 (n2 - 2)).map fun i => i * (n0 * n1) :=
    arange_interior h01 (by omega)
  have l2 : (internal2 n0 n1).length = n1 - 2 := by rw [e2]; simp
  have l3 : (arange (n0 * n1) (n0 * n1 * (n2 - 1)) (n0 * n1)).length = n2 - 2 := by rw [e3]; simp
  by_cases h12 : n1 = n2
  · subst h12
    -- the point (1, 2, 1) is missing: row `j` is added to layer `j`
    simp only [allInternal, internal3, broadcastAdd, l2, l3, if_true, Option.map_some] at hl
    obtain rfl := Option.some.inj hl
    have hin : 1 + n0 * 2 + n0 * n1 * 1 ∈
        (List.zipWith (fun r c => r.map (· + c)) (internal2 n0 n1) (arange (n0 * n1) (n0 * n1 * (n1 - 1)) (n0 * n1))).flatten := by
      rw [hL.2]
      refine ⟨[1, 2, 1], ⟨inSize3.2 ⟨1, 2, 1, rfl, by omega, by omega, by omega⟩, interior3'.2 (by omega)⟩, flat3 ..⟩
    obtain ⟨r, hr, hx⟩ := List.mem_flatten.1 hin
    rw [e2, e3, List.zipWith_map, List.zipWith_self] at hr
    obtain ⟨j, hj, rfl⟩ := List.mem_map.1 hr
    obtain ⟨y, hy, hxy⟩ := List.mem_map.1 hx
    obtain ⟨a, ha, rfl⟩ := List.mem_map.1 hy
    rw [List.mem_range'_1] at hj ha
    have hj2 : 2 * (n0 * n1) ≤ j * (n0 * n1) ∨ j = 1 := by
      by_cases h : j = 1
      · exact .inr h
      · exact .inl (Nat.mul_le_mul_right _ (by omega))
    have hn : n0 * 4 ≤ n0 * n1 := Nat.mul_le_mul_left _ h1
    rcases hj2 with hj2 | rfl
    · have : 0 ≤ j * n0 := Nat.zero_le _
      omega
    · omega
  · -- the shapes do not match
    have hne : ¬ (internal2 n0 n1).length = (arange (n0 * n1) (n0 * n1 * (n2 - 1)) (n0 * n1)).length := by omega
    simp only [allInternal, internal3, broadcastAdd, if_neg hne] at hl
    match hA : internal2 n0 n1, hB : arange (n0 * n1) (n0 * n1 * (n2 - 1)) (n0 * n1) with
    | [], _ => rw [hA] at l2; simp at l2; omega
    | [_], _ => rw [hA] at l2; simp at l2; omega
    | _ :: _ :: _, [] => rw [hB] at l3; simp at l3; omega
    | _ :: _ :: _, [_] => rw [hB] at l3; simp at l3; omega
    | _ :: _ :: _, _ :: _ :: _ =>
      rw [hA, hB] at hl
      simp at hl

theorem edge_z {n0 n1 n2 a b : Nat} (h0 : 1 ≤ n0) (h1 : 1 ≤ n1) (_h2 : 1 ≤ n2) (ha : a < n0) (hb : b < n1) :
    Lists [n0, n1, n2] (fun t => InSize [n0, n1, n2] t ∧ t.getD 0 0 = a ∧ t.getD 1 0 = b)
      (arange (a + n0 * b) (n0 * n1 * n2) (n0 * n1)) := by
  have h01 : 0 < n0 * n1 := Nat.mul_pos h0 h1
  have hlt := flat_bound2 ha hb
  have hle : n0 * n1 * 1 ≤ n0 * n1 * n2 := Nat.mul_le_mul_left _ _h2
  have e : n2 * (n0 * n1) = n0 * n1 * n2 := by ring
  rw [arange_mul h01 (k := n2) (by omega) (by omega) (by omega)]
  refine lists3 (sorted_map_range _ _ fun i j hij _ => ?_) fun x => ?_
  · have := Nat.mul_lt_mul_of_pos_right hij h01; omega
  · simp only [List.mem_map, List.mem_range]
    constructor
    · rintro ⟨c, hc, rfl⟩; exact ⟨a, b, c, ha, hb, hc, ⟨rfl, rfl⟩, by ring⟩
    · rintro ⟨a', b', c, -, -, hc, ⟨h, h'⟩, rfl⟩
      obtain rfl : a' = a := h
      obtain rfl : b' = b := h'
      exact ⟨c, hc, by ring⟩

theorem edge_y {n0 n1 n2 a c : Nat} (h0 : 1 ≤ n0) (_h1 : 1 ≤ n1) (_h2 : 1 ≤ n2) (ha : a < n0) (hc : c < n2) :
    Lists [n0, n1, n2] (fun t => InSize [n0, n1, n2] t ∧ t.getD 0 0 = a ∧ t.getD 2 0 = c)
      (arange (a + n0 * n1 * c) (a + n0 * n1 * c + n0 * n1) n0) := by
  have e : n1 * n0 = n0 * n1 := by ring
  rw [arange_mul h0 (k := n1) (by omega) (by omega) (by omega)]
  refine lists3 (sorted_map_range _ _ fun i j hij _ => ?_) fun x => ?_
  · have := Nat.mul_lt_mul_of_pos_right hij h0; omega
  · simp only [List.mem_map, List.mem_range]
    constructor
    · rintro ⟨b, hb, rfl⟩; exact ⟨a, b, c, ha, hb, hc, ⟨rfl, rfl⟩, by ring⟩
    · rintro ⟨a', b, c', -, hb, -, ⟨h, h'⟩, rfl⟩
      obtain rfl : a' = a := h
      obtain rfl : c' = c := h'
      exact ⟨b, hb, by ring⟩

theorem edge_x {n0 n1 n2 b c : Nat} (_h0 : 1 ≤ n0) (_h1 : 1 ≤ n1) (_h2 : 1 ≤ n2) (hb : b < n1) (hc : c < n2) :
    Lists [n0, n1, n2] (fun t => InSize [n0, n1, n2] t ∧ t.getD 1 0 = b ∧ t.getD 2 0 = c)
      (arange (n0 * b + n0 * n1 * c) (n0 * b + n0 * n1 * c + n0) 1) := by
  rw [arange_mul (by omega) (k := n0) (by omega) (by omega) (by omega)]
  refine lists3 (sorted_map_range _ _ fun i j hij _ => by omega) fun x => ?_
  simp only [List.mem_map, List.mem_range]
  constructor
  · rintro ⟨a, ha, rfl⟩; exact ⟨a, b, c, ha, hb, hc, ⟨rfl, rfl⟩, by ring⟩
  · rintro ⟨a, b', c', ha, -, -, ⟨h, h'⟩, rfl⟩
    obtain rfl : b' = b := h
    obtain rfl : c' = c := h'
    exact ⟨a, ha, by ring⟩

theorem lists_congr {n : List Nat} {p q : List Nat → Prop} {l : List Nat} (h : ∀ t, InSize n t → (q t ↔ p t))
    (hl : Lists n (fun t => InSize n t ∧ p t) l) : Lists n (fun t => InSize n t ∧ q t) l := by
  refine ⟨hl.1, fun x => (hl.2 x).trans (exists_congr fun t => and_congr_left fun _ => and_congr_right fun ht => ?_)⟩
  exact (h t ht).symm

theorem lists_eq {n : List Nat} {p : List Nat → Prop} {l l' : List Nat} (h : l' = l) (hl : Lists n p l) : Lists n p l' :=
  h ▸ hl

theorem fin2 {n0 n1 : Nat} (q : Nat → Prop) : (∀ k, k < [n0, n1].length → q k) ↔ q 0 ∧ q 1 := by
  constructor
  · intro h; exact ⟨h 0 (by simp), h 1 (by simp)⟩
  · rintro ⟨h, h'⟩ k hk
    have : k = 0 ∨ k = 1 := by simp at hk; omega
    rcases this with rfl | rfl <;> assumption

theorem fin3 {n0 n1 n2 : Nat} (q : Nat → Prop) : (∀ k, k < [n0, n1, n2].length → q k) ↔ q 0 ∧ q 1 ∧ q 2 := by
  constructor
  · intro h; exact ⟨h 0 (by simp), h 1 (by simp), h 2 (by simp)⟩
  · rintro ⟨h, h', h''⟩ k hk
    have : k = 0 ∨ k = 1 ∨ k = 2 := by simp at hk; omega
    rcases this with rfl | rfl | rfl <;> assumption

/-- **C62** (edges, lexicographical ids): edge `e` is made of the points spanned by its two corners, in increasing order. -/
theorem C62_edge (n : List Nat) (hn : Sizes 1 n) (e : Nat) (he : e < (lexEdges n.length).length) :
    ∃ l p, edge n e true = some l ∧ (lexEdges n.length)[e]? = some p ∧
      Lists n (OnEntity n ((basix n.length).corner p.1) ((basix n.length).corner p.2)) l := by
  rcases sizes_cases hn with ⟨n0, rfl, h0⟩ | ⟨n0, n1, rfl, h0, h1⟩ | ⟨n0, n1, n2, rfl, h0, h1, h2⟩
  · have he' : e = 0 ∨ e = 1 := by simp [lexEdges] at he; omega
    rcases he' with rfl | rfl
    · obtain ⟨l, hl, hL⟩ := C62_face [n0] hn 0 (by simp)
      refine ⟨l, (0, 0), hl, rfl, lists_congr (fun t ht => ?_) hL⟩
      obtain ⟨a, rfl, ha⟩ := inSize1.1 ht
      simp [basix, Numbering.corner]
    · obtain ⟨l, hl, hL⟩ := C62_face [n0] hn 1 (by simp)
      refine ⟨l, (1, 1), hl, rfl, lists_congr (fun t ht => ?_) hL⟩
      obtain ⟨a, rfl, ha⟩ := inSize1.1 ht
      simp [basix, Numbering.corner]
  · have he' : e = 0 ∨ e = 1 ∨ e = 2 ∨ e = 3 := by simp [lexEdges] at he; omega
    rcases he' with rfl | rfl | rfl | rfl
    · obtain ⟨l, hl, hL⟩ := C62_face [n0, n1] hn 0 (by simp)
      refine ⟨l, (0, 2), hl, rfl, lists_congr (fun t ht => ?_) hL⟩
      obtain ⟨a, b, rfl, ha, hb⟩ := inSize2.1 ht
      rw [fin2]; simp [basix, Numbering.corner]
    · obtain ⟨l, hl, hL⟩ := C62_face [n0, n1] hn 1 (by simp)
      refine ⟨l, (1, 3), hl, rfl, lists_congr (fun t ht => ?_) hL⟩
      obtain ⟨a, b, rfl, ha, hb⟩ := inSize2.1 ht
      rw [fin2]; simp [basix, Numbering.corner]
    · obtain ⟨l, hl, hL⟩ := C62_face [n0, n1] hn 2 (by simp)
      refine ⟨l, (0, 1), hl, rfl, lists_congr (fun t ht => ?_) hL⟩
      obtain ⟨a, b, rfl, ha, hb⟩ := inSize2.1 ht
      rw [fin2]; simp [basix, Numbering.corner]
    · obtain ⟨l, hl, hL⟩ := C62_face [n0, n1] hn 3 (by simp)
      refine ⟨l, (2, 3), hl, rfl, lists_congr (fun t ht => ?_) hL⟩
      obtain ⟨a, b, rfl, ha, hb⟩ := inSize2.1 ht
      rw [fin2]; simp [basix, Numbering.corner]
  · have he' : e = 0 ∨ e = 1 ∨ e = 2 ∨ e = 3 ∨ e = 4 ∨ e = 5 ∨ e = 6 ∨ e = 7 ∨ e = 8 ∨ e = 9 ∨ e = 10 ∨ e = 11 := by
      simp [lexEdges] at he; omega
    rcases he' with rfl | rfl | rfl | rfl | rfl | rfl | rfl | rfl | rfl | rfl | rfl | rfl
    · refine ⟨_, (0, 4), rfl, rfl, lists_congr ?_ (lists_eq ?_ (edge_z h0 h1 h2 (a := 0) (b := 0) (by omega) (by omega)))⟩
      · intro t ht
        obtain ⟨a, b, c, rfl, ha, hb, hc⟩ := inSize3.1 ht
        rw [fin3]; simp [basix, Numbering.corner]
      · simp [Nat.mul_add, Nat.add_assoc, Nat.mul_assoc]
    · refine ⟨_, (1, 5), rfl, rfl, lists_congr ?_ (lists_eq ?_ (edge_z h0 h1 h2 (a := (n0 - 1)) (b := 0) (by omega) (by omega)))⟩
      · intro t ht
        obtain ⟨a, b, c, rfl, ha, hb, hc⟩ := inSize3.1 ht
        rw [fin3]; simp [basix, Numbering.corner]
      · simp [Nat.mul_add, Nat.add_assoc, Nat.mul_assoc]
    · refine ⟨_, (2, 6), rfl, rfl, lists_congr ?_ (lists_eq ?_ (edge_z h0 h1 h2 (a := 0) (b := (n1 - 1)) (by omega) (by omega)))⟩
      · intro t ht
        obtain ⟨a, b, c, rfl, ha, hb, hc⟩ := inSize3.1 ht
        rw [fin3]; simp [basix, Numbering.corner]
      · simp [Nat.mul_add, Nat.add_assoc, Nat.mul_assoc]
    · refine ⟨_, (3, 7), rfl, rfl, lists_congr ?_ (lists_eq ?_ (edge_z h0 h1 h2 (a := (n0 - 1)) (b := (n1 - 1)) (by omega) (by omega)))⟩
      · intro t ht
        obtain ⟨a, b, c, rfl, ha, hb, hc⟩ := inSize3.1 ht
        rw [fin3]; simp [basix, Numbering.corner]
      · simp [Nat.mul_add, Nat.add_assoc, Nat.mul_assoc]
    · refine ⟨_, (0, 2), rfl, rfl, lists_congr ?_ (lists_eq ?_ (edge_y h0 h1 h2 (a := 0) (c := 0) (by omega) (by omega)))⟩
      · intro t ht
        obtain ⟨a, b, c, rfl, ha, hb, hc⟩ := inSize3.1 ht
        rw [fin3]; simp [basix, Numbering.corner]
      · simp [Nat.mul_add, Nat.add_assoc, Nat.mul_assoc]
    · refine ⟨_, (1, 3), rfl, rfl, lists_congr ?_ (lists_eq ?_ (edge_y h0 h1 h2 (a := (n0 - 1)) (c := 0) (by omega) (by omega)))⟩
      · intro t ht
        obtain ⟨a, b, c, rfl, ha, hb, hc⟩ := inSize3.1 ht
        rw [fin3]; simp [basix, Numbering.corner]
      · simp [Nat.mul_add, Nat.add_assoc, Nat.mul_assoc]
    · refine ⟨_, (4, 6), rfl, rfl, lists_congr ?_ (lists_eq ?_ (edge_y h0 h1 h2 (a := 0) (c := (n2 - 1)) (by omega) (by omega)))⟩
      · intro t ht
        obtain ⟨a, b, c, rfl, ha, hb, hc⟩ := inSize3.1 ht
        rw [fin3]; simp [basix, Numbering.corner]
      · simp [Nat.mul_add, Nat.add_assoc, Nat.mul_assoc]
    · refine ⟨_, (5, 7), rfl, rfl, lists_congr ?_ (lists_eq ?_ (edge_y h0 h1 h2 (a := (n0 - 1)) (c := (n2 - 1)) (by omega) (by omega)))⟩
      · intro t ht
        obtain ⟨a, b, c, rfl, ha, hb, hc⟩ := inSize3.1 ht
        rw [fin3]; simp [basix, Numbering.corner]
      · simp [Nat.mul_add, Nat.add_assoc, Nat.mul_assoc]
    · refine ⟨_, (0, 1), rfl, rfl, lists_congr ?_ (lists_eq ?_ (edge_x h0 h1 h2 (b := 0) (c := 0) (by omega) (by omega)))⟩
      · intro t ht
        obtain ⟨a, b, c, rfl, ha, hb, hc⟩ := inSize3.1 ht
        rw [fin3]; simp [basix, Numbering.corner]
      · simp [Nat.mul_add, Nat.add_assoc, Nat.mul_assoc]
    · refine ⟨_, (2, 3), rfl, rfl, lists_congr ?_ (lists_eq ?_ (edge_x h0 h1 h2 (b := (n1 - 1)) (c := 0) (by omega) (by omega)))⟩
      · intro t ht
        obtain ⟨a, b, c, rfl, ha, hb, hc⟩ := inSize3.1 ht
        rw [fin3]; simp [basix, Numbering.corner]
      · simp [Nat.mul_add, Nat.add_assoc, Nat.mul_assoc]
    · refine ⟨_, (4, 5), rfl, rfl, lists_congr ?_ (lists_eq ?_ (edge_x h0 h1 h2 (b := 0) (c := (n2 - 1)) (by omega) (by omega)))⟩
      · intro t ht
        obtain ⟨a, b, c, rfl, ha, hb, hc⟩ := inSize3.1 ht
        rw [fin3]; simp [basix, Numbering.corner]
      · simp [Nat.mul_add, Nat.add_assoc, Nat.mul_assoc]
    · refine ⟨_, (6, 7), rfl, rfl, lists_congr ?_ (lists_eq ?_ (edge_x h0 h1 h2 (b := (n1 - 1)) (c := (n2 - 1)) (by omega) (by omega)))⟩
      · intro t ht
        obtain ⟨a, b, c, rfl, ha, hb, hc⟩ := inSize3.1 ht
        rw [fin3]; simp [basix, Numbering.corner]
      · simp [Nat.mul_add, Nat.add_assoc, Nat.mul_assoc]

/-- **C62** (edges, DOLFINx ids): edge `e` is made of the points spanned by the corners of basix's edge `e`, in
dimensions 1 and 2 (edges are facets there) and for ten of the twelve edges in dimension 3.
Missing: edges 4 and 6 of the hexahedron, see `C62_edge_dolfinx_fails`. -/
theorem C62_edge_dolfinx_partial (n : List Nat) (hn : Sizes 1 n) (e : Nat)
    (he : e < (if n.length = 3 then 12 else 2 * n.length)) (h46 : n.length = 3 → e ≠ 4 ∧ e ≠ 6) :
    ∃ l p, edge n e false = some l ∧
      (if n.length = 3 then (basix 3).edges else (basix n.length).facets n.length)[e]? = some p ∧
      Lists n (OnEntity n ((basix n.length).corner p.1) ((basix n.length).corner p.2)) l := by
  by_cases h3 : n.length = 3
  · rw [if_pos h3] at he
    obtain ⟨h4, h6⟩ := h46 h3
    have key : ∀ g p, g < 12 → (lexicgToDlfEdges 3).bind (fun t => t[e]?) = some g →
        (lexEdges 3)[g]? = some p → (basix 3).edges[e]? = some p →
        ∃ l p, edge n e false = some l ∧
          (if n.length = 3 then (basix 3).edges else (basix n.length).facets n.length)[e]? = some p ∧
          Lists n (OnEntity n ((basix n.length).corner p.1) ((basix n.length).corner p.2)) l := by
      intro g p hg ht hp hp'
      obtain ⟨l, p', hl, hp'', hL⟩ := C62_edge n hn g (by rw [h3]; exact hg)
      rw [h3] at hp''
      obtain rfl : p' = p := by rw [hp] at hp''; exact (Option.some.inj hp'').symm
      refine ⟨l, p', ?_, by rw [if_pos h3]; exact hp', hL⟩
      unfold edge
      rw [if_neg (by decide), h3]
      rcases ht' : lexicgToDlfEdges 3 with _ | t
      · rw [ht'] at ht; simp at ht
      · rw [ht', Option.bind_some] at ht
        rw [Option.bind_some, ht, Option.bind_some]
        exact hl
    have he' : e = 0 ∨ e = 1 ∨ e = 2 ∨ e = 3 ∨ e = 5 ∨ e = 7 ∨ e = 8 ∨ e = 9 ∨ e = 10 ∨ e = 11 := by omega
    rcases he' with rfl | rfl | rfl | rfl | rfl | rfl | rfl | rfl | rfl | rfl
    · exact key 8 _ (by omega) rfl rfl rfl
    · exact key 4 _ (by omega) rfl rfl rfl
    · exact key 0 _ (by omega) rfl rfl rfl
    · exact key 5 _ (by omega) rfl rfl rfl
    · exact key 9 _ (by omega) rfl rfl rfl
    · exact key 3 _ (by omega) rfl rfl rfl
    · exact key 10 _ (by omega) rfl rfl rfl
    · exact key 6 _ (by omega) rfl rfl rfl
    · exact key 7 _ (by omega) rfl rfl rfl
    · exact key 11 _ (by omega) rfl rfl rfl
  · rw [if_neg h3] at he
    obtain ⟨l, p, hl, hp, hL⟩ := C62_face_dolfinx n hn e he
    refine ⟨l, p, ?_, by rw [if_neg h3]; exact hp, hL⟩
    have hlen : n.length < 3 := by have := hn.2.1; omega
    have : ∀ g, edgeLex n g = faceLex n g := by
      intro g
      rcases sizes_cases hn with ⟨n0, rfl, -⟩ | ⟨n0, n1, rfl, -, -⟩ | ⟨n0, n1, n2, rfl, -, -, -⟩
      · rfl
      · rfl
      · simp at hlen
    unfold edge lexicgToDlfEdges
    rw [if_pos hlen, if_neg (by decide)]
    unfold face at hl
    rw [if_neg (by decide)] at hl
    simpa only [this] using hl

/-- **C62** fails for edges 4 and 6 of hexahedra in DOLFINx's numbering: whenever there are at least two indices per
direction, the points returned for edge 4, from corner 1 to corner 5, are those of the edge from corner 2 to corner 6, and
the other way around. -/
theorem C62_edge_dolfinx_fails (n : List Nat) (hn : Sizes 2 n) (h3 : n.length = 3) :
    (¬ ∃ l p, edge n 4 false = some l ∧ (basix 3).edges[4]? = some p ∧
      Lists n (OnEntity n ((basix 3).corner p.1) ((basix 3).corner p.2)) l) ∧
    (¬ ∃ l p, edge n 6 false = some l ∧ (basix 3).edges[6]? = some p ∧
      Lists n (OnEntity n ((basix 3).corner p.1) ((basix 3).corner p.2)) l) := by
  have hn1 : Sizes 1 n := ⟨hn.1, hn.2.1, fun k hk => by have := hn.2.2 k hk; omega⟩
  rcases sizes_cases hn with ⟨n0, rfl, h0⟩ | ⟨n0, n1, rfl, h0, h1⟩ | ⟨n0, n1, n2, rfl, h0, h1, h2⟩
  · simp at h3
  · simp at h3
  have key : ∀ a b : Nat, a < n0 → b < n1 → a + n0 * b < n0 * n1 := fun a b ha hb => flat_bound2 ha hb
  constructor
  · rintro ⟨l, p, hl, hp, hL⟩
    obtain rfl := Option.some.inj hp
    obtain ⟨l', p', hl', hp', hL'⟩ := C62_edge _ hn1 2 (by simp [lexEdges])
    obtain rfl := Option.some.inj hp'
    have : l = l' := Option.some.inj (hl.symm.trans hl')
    subst this
    have hm : flatIndex [0, n1 - 1, 0] [n0, n1, n2] ∈ l := by
      rw [hL'.2]
      refine ⟨[0, n1 - 1, 0], ⟨inSize3.2 ⟨_, _, _, rfl, by omega, by omega, by omega⟩, (fin3 _).2 ?_⟩, rfl⟩
      simp [basix, Numbering.corner]
    obtain ⟨t, ⟨ht, hp⟩, hx⟩ := (hL.2 _).1 hm
    obtain ⟨a, b, c, rfl, ha, hb, hc⟩ := inSize3.1 ht
    rw [fin3] at hp
    simp [basix, Numbering.corner] at hp
    obtain ⟨rfl, rfl⟩ := hp
    have h4 := congrArg (· % n0) hx
    simp only [flatIndex, Nat.mul_zero, Nat.add_zero, Nat.zero_add, Nat.add_mul_mod_self_left, Nat.mul_mod_right] at h4
    rw [Nat.mod_eq_of_lt (by omega)] at h4
    omega
  · rintro ⟨l, p, hl, hp, hL⟩
    obtain rfl := Option.some.inj hp
    obtain ⟨l', p', hl', hp', hL'⟩ := C62_edge _ hn1 1 (by simp [lexEdges])
    obtain rfl := Option.some.inj hp'
    have : l = l' := Option.some.inj (hl.symm.trans hl')
    subst this
    have hm : flatIndex [n0 - 1, 0, 0] [n0, n1, n2] ∈ l := by
      rw [hL'.2]
      refine ⟨[n0 - 1, 0, 0], ⟨inSize3.2 ⟨_, _, _, rfl, by omega, by omega, by omega⟩, (fin3 _).2 ?_⟩, rfl⟩
      simp [basix, Numbering.corner]
    obtain ⟨t, ⟨ht, hp⟩, hx⟩ := (hL.2 _).1 hm
    obtain ⟨a, b, c, rfl, ha, hb, hc⟩ := inSize3.1 ht
    rw [fin3] at hp
    simp [basix, Numbering.corner] at hp
    obtain ⟨rfl, rfl⟩ := hp
    have h4 := congrArg (· % n0) hx
    simp only [flatIndex, Nat.mul_zero, Nat.add_zero, Nat.zero_add, Nat.add_mul_mod_self_left, Nat.mul_mod_right] at h4
    rw [Nat.mod_eq_of_lt (by omega)] at h4
    omega

theorem dot_accumFrom (acc : Nat) (n tid : List Nat) (h : tid.length = n.length) :
    dot (accumFrom acc n) tid = acc * flatIndex tid n := by
  induction n generalizing acc tid with
  | nil => match tid, h with | [], _ => rfl
  | cons m ns ih =>
    match tid, h with
    | a :: as, h =>
      have := ih (acc * m) as (by simpa using h)
      simp only [dot, accumFrom, List.zipWith_cons_cons, List.sum_cons, flatIndex] at this ⊢
      rw [this]; ring

theorem dot_comm (a b : List Nat) : dot a b = dot b a := by
  unfold dot
  rw [List.zipWith_comm]
  exact congrArg (fun f => (List.zipWith f b a).sum) (by funext x y; exact Nat.mul_comm y x)

theorem accumFrom_append (acc : Nat) (a b : List Nat) :
    accumFrom acc (a ++ b) = accumFrom acc a ++ accumFrom (acc * listProd a) b := by
  induction a generalizing acc with
  | nil => simp [accumFrom, listProd]
  | cons m ns ih =>
    simp only [List.cons_append, accumFrom, ih, listProd]
    rw [Nat.mul_assoc]

theorem accumFrom_length (acc : Nat) (a : List Nat) : (accumFrom acc a).length = a.length := by
  induction a generalizing acc with
  | nil => rfl
  | cons m ns ih => simp [accumFrom, ih]

theorem flatIndex_zeros (a b t : List Nat) :
    flatIndex (List.replicate a.length 0 ++ t) (a ++ b) = listProd a * flatIndex t b := by
  induction a with
  | nil => simp [listProd]
  | cons m ns ih =>
    rw [List.length_cons, List.replicate_succ, List.cons_append, List.cons_append, flatIndex, ih, listProd]
    ring

theorem unflatRec_length (s : List Nat) (x : Nat) : (unflatRec s x).length = s.length := by
  induction s generalizing x with
  | nil => rfl
  | cons m ns ih => simp [unflatRec, ih]

theorem tensorIndexLoop_eq (pre : List Nat) : ∀ (post : List Nat) (id : Nat), id < listProd (pre ++ post) →
    tensorIndexLoop (accum (pre ++ post)) id pre.length
      (List.replicate pre.length 0 ++ unflatRec post (id / listProd pre)) = unflatRec (pre ++ post) id := by
  induction pre using List.reverseRecOn with
  | nil => intro post id _; simp [tensorIndexLoop, listProd]
  | append_singleton ps m ih =>
    intro post id hid
    have hP : listProd (ps ++ [m]) = listProd ps * m := by rw [listProd_append]; simp [listProd]
    have hq : id / listProd (ps ++ [m]) < listProd post := by
      rw [listProd_append] at hid
      exact Nat.div_lt_of_lt_mul hid
    have hdot : dot (List.replicate (ps ++ [m]).length 0 ++ unflatRec post (id / listProd (ps ++ [m])))
        (accum (ps ++ [m] ++ post)) = listProd (ps ++ [m]) * (id / listProd (ps ++ [m])) := by
      rw [dot_comm, accum, dot_accumFrom _ _ _ (by simp [unflatRec_length]; omega), flatIndex_zeros, flatIndex_unflatRec hq,
        Nat.one_mul]
    have hacc : (accum (ps ++ [m] ++ post)).getD ps.length 0 = listProd ps := by
      rw [accum, List.append_assoc, accumFrom_append, List.getD_append_right _ _ _ _ (by rw [accumFrom_length]),
        accumFrom_length]
      simp [accumFrom]
    have hlen : (ps ++ [m]).length = ps.length + 1 := by simp
    rw [hlen] at hdot ⊢
    rw [tensorIndexLoop, hdot, hacc]
    have hv : (id - listProd (ps ++ [m]) * (id / listProd (ps ++ [m]))) / listProd ps = id / listProd ps % m := by
      rw [← Nat.mod_eq_sub_mul_div, hP, Nat.mod_mul_right_div_self]
    have hset : (List.replicate (ps.length + 1) 0 ++ unflatRec post (id / listProd (ps ++ [m]))).set ps.length
        (id / listProd ps % m) = List.replicate ps.length 0 ++ unflatRec (m :: post) (id / listProd ps) := by
      rw [List.replicate_succ', List.append_assoc, List.set_append_right _ _ (by simp), List.length_replicate, Nat.sub_self]
      simp only [List.cons_append, List.nil_append, List.set_cons_zero, unflatRec]
      rw [hP, Nat.div_div_eq_div_mul]
    rw [hv, hset]
    have := ih (m :: post) id (by simpa using hid)
    simpa using this

/-- **C62** (indices): the flat index of a tensor index is the usual one with direction 0 fastest, in any dimension, and
`get_tensor_index` inverts it. -/
theorem C62_flat_tensor (n : List Nat) :
    (∀ t, InSize n t → getFlatIndex n t = flatIndex t n ∧ getTensorIndex n (getFlatIndex n t) = t) ∧
    ∀ id, id < listProd n → InSize n (getTensorIndex n id) ∧ getFlatIndex n (getTensorIndex n id) = id := by
  have hflat : ∀ t : List Nat, t.length = n.length → getFlatIndex n t = flatIndex t n := by
    intro t ht
    rw [getFlatIndex, accum, dot_accumFrom _ _ _ ht, Nat.one_mul]
  have htens : ∀ id, id < listProd n → getTensorIndex n id = unflatRec n id := by
    intro id hid
    have := tensorIndexLoop_eq n [] id (by simpa using hid)
    simpa [unflatRec, getTensorIndex] using this
  constructor
  · intro t ht
    have h1 := hflat t ht.1
    have h2 := forall2_lt_iff_inSize.2 ht
    refine ⟨h1, ?_⟩
    rw [h1, htens _ (flatIndex_lt h2), unflatRec_flatIndex h2]
  · intro id hid
    rw [htens id hid]
    have h := forall2_lt_iff_inSize.1 (unflatRec_lt (fl := id) (by omega : 0 < listProd n))
    exact ⟨h, by rw [hflat _ h.1, flatIndex_unflatRec hid]⟩

/-- Concrete cases (non-vacuity). -/
example : Sizes 2 [3, 4, 2] ∧ face [3, 4, 2] 2 true = some [0, 1, 2, 12, 13, 14] ∧
    allFaces [3, 4] = some [0, 1, 2, 3, 5, 6, 8, 9, 10, 11] ∧ allInternal [3, 4] = some [4, 7] ∧
    edge [3, 4, 2] 4 false = some [9, 21] ∧ getTensorIndex [3, 4, 2] 17 = [2, 1, 1] := by
  refine ⟨⟨by decide, by decide, ?_⟩, by decide, by decide, by decide, by decide, by decide⟩
  exact (fin3 (n0 := 3) (n1 := 4) (n2 := 2) _).2 (by simp)

end Qugar.Py
