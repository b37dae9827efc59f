import Verif.Lemmas.Grid
import Mathlib.Tactic.NormNum
/-
Property theorems C25 (bounding boxes).
-/
namespace Qugar.Box
open Spec
variable {K : Type} [Field K] [LinearOrder K] [IsStrictOrderedRing K]

/-- All the sides of the box have positive length. -/
def Proper (b : Box K) : Prop := ∀ iv ∈ b, iv.1 < iv.2

/-- The unit box of the given dimension. -/
def unit (n : Nat) : Box K := List.replicate n (0, 1)

/-- **C25** `scale_to_0_1` and `scale_from_0_1` are inverse to each other on boxes with positive sides. -/
theorem C25_scale_roundtrip (b : Box K) (hb : Proper b) (p : List K) (hp : p.length = b.length) :
    scaleFrom01 b (scaleTo01 b p) = p ∧ scaleTo01 b (scaleFrom01 b p) = p := by
  unfold scaleFrom01 scaleTo01
  induction b generalizing p with
  | nil =>
    have : p = [] := by simpa using hp
    subst this; simp
  | cons iv b ih =>
    cases p with
    | nil => simp at hp
    | cons x xs =>
      have h0 : iv.1 < iv.2 := hb iv (by simp)
      have h1 : iv.2 - iv.1 ≠ 0 := by intro h; linarith
      obtain ⟨e1, e2⟩ := ih (fun i hi => hb i (by simp [hi])) xs (by simpa using hp)
      simp only [List.zipWith_cons_cons, e1, e2]
      refine ⟨?_, ?_⟩
      · congr 1; field_simp; ring
      · congr 1; field_simp; ring

/-- **C25** Points of the box go to points of the unit cube and vice versa; both maps keep the number of
coordinates. -/
theorem C25_scale_membership (b : Box K) (hb : Proper b) (p : List K) :
    (InClosedBox 0 b p ↔ (p.length = b.length ∧ InClosedBox 0 (unit b.length) (scaleTo01 b p))) ∧
    (InClosedBox 0 (unit b.length) p ↔ (p.length = b.length ∧ InClosedBox 0 b (scaleFrom01 b p))) := by
  unfold InClosedBox unit scaleTo01 scaleFrom01
  simp only [sub_zero, add_zero]
  induction b generalizing p with
  | nil => cases p <;> simp
  | cons iv b ih =>
    cases p with
    | nil => simp [List.replicate_succ]
    | cons x xs =>
      have h0 : iv.1 < iv.2 := hb iv (by simp)
      have h1 : 0 < iv.2 - iv.1 := by linarith
      obtain ⟨e1, e2⟩ := ih (fun i hi => hb i (by simp [hi])) xs
      simp only [List.length_cons, List.replicate_succ, List.zipWith_cons_cons, List.forall₂_cons, e1, e2,
        Nat.add_right_cancel_iff]
      constructor
      · have a1 : 0 ≤ (x - iv.1) / (iv.2 - iv.1) ↔ iv.1 ≤ x := by
          rw [div_nonneg_iff]
          constructor
          · rintro (⟨h, _⟩ | ⟨_, h⟩) <;> linarith
          · intro h; exact Or.inl ⟨by linarith, le_of_lt h1⟩
        have a2 : (x - iv.1) / (iv.2 - iv.1) ≤ 1 ↔ x ≤ iv.2 := by
          rw [div_le_one h1]; constructor <;> intro h <;> linarith
        rw [a1, a2]; exact and_left_comm
      · have a1 : iv.1 ≤ x * (iv.2 - iv.1) + iv.1 ↔ 0 ≤ x := by
          rw [le_add_iff_nonneg_left]; exact mul_nonneg_iff_of_pos_right h1
        have a2 : x * (iv.2 - iv.1) + iv.1 ≤ iv.2 ↔ x ≤ 1 := by
          constructor
          · intro h
            by_contra hc
            have := mul_lt_mul_of_pos_right (not_le.1 hc) h1
            linarith
          · intro h
            have := mul_le_mul_of_nonneg_right h (le_of_lt h1)
            linarith
        rw [a1, a2]; exact and_left_comm

/-- **C25** `scale_to_new_domain` is `scale_from_0_1` of the new box after `scale_to_0_1` of the old box; it maps
the lower/upper corner to the lower/upper corner, and scaling back is the identity. -/
theorem C25_scale_to_new_domain (b c : Box K) (hb : Proper b) (hc : Proper c) (hl : b.length = c.length) (p : List K)
    (hp : p.length = b.length) :
    scaleToNewDomain b c p = scaleFrom01 c (scaleTo01 b p) ∧
    scaleToNewDomain c b (scaleToNewDomain b c p) = p ∧
    scaleToNewDomain b c (b.map Prod.fst) = c.map Prod.fst ∧
    scaleToNewDomain b c (b.map Prod.snd) = c.map Prod.snd := by
  unfold scaleToNewDomain scaleFrom01 scaleTo01
  induction b generalizing c p with
  | nil =>
    have h1 : p = [] := by simpa using hp
    have h2 : c = [] := by simpa using hl.symm
    subst h1 h2; simp
  | cons iv b ih =>
    cases p with
    | nil => simp at hp
    | cons x xs =>
      cases c with
      | nil => simp at hl
      | cons jv c =>
        have h0 : iv.1 < iv.2 := hb iv (by simp)
        have h1 : iv.2 - iv.1 ≠ 0 := by intro h; linarith
        have g0 : jv.1 < jv.2 := hc jv (by simp)
        have g1 : jv.2 - jv.1 ≠ 0 := by intro h; linarith
        obtain ⟨e1, e2, e3, e4⟩ := ih c (fun i hi => hb i (by simp [hi])) (fun i hi => hc i (by simp [hi]))
          (by simpa using hl) xs (by simpa using hp)
        simp only [List.zip_cons_cons, List.zipWith_cons_cons, List.map_cons, e1, e3, e4]
        rw [← e1, e2]
        refine ⟨?_, ?_, ?_, ?_⟩ <;> congr 1 <;> field_simp <;> ring

/-- **C25** `extend(point)` gives the smallest box containing the old box and the point. -/
theorem C25_extend_point_is_hull (b : Box K) (hb : b.Valid) (p : List K) (hp : p.length = b.length) :
    (extendPoint b p).Valid ∧ InClosedBox 0 (extendPoint b p) p ∧
    (∀ q, InClosedBox 0 b q → InClosedBox 0 (extendPoint b p) q) ∧
    (∀ c : Box K, InClosedBox 0 c p → (∀ q, InClosedBox 0 b q → InClosedBox 0 c q) →
      ∀ q, InClosedBox 0 (extendPoint b p) q → InClosedBox 0 c q) := by
  unfold InClosedBox extendPoint
  simp only [sub_zero, add_zero]
  refine ⟨?_, ?_, ?_, ?_⟩
  · intro iv hiv
    induction b generalizing p with
    | nil => simp at hiv
    | cons jv b ih =>
      cases p with
      | nil => simp at hp
      | cons x xs =>
        simp only [List.zipWith_cons_cons, List.mem_cons] at hiv
        rcases hiv with rfl | hiv
        · exact (min_le_right _ _).trans (le_max_right _ _)
        · exact ih (fun i hi => hb i (by simp [hi])) xs (by simpa using hp) hiv
  · induction b generalizing p with
    | nil => have : p = [] := by simpa using hp
             subst this; simp
    | cons jv b ih =>
      cases p with
      | nil => simp at hp
      | cons x xs =>
        simp only [List.zipWith_cons_cons]
        exact .cons ⟨min_le_right _ _, le_max_right _ _⟩
          (ih (fun i hi => hb i (by simp [hi])) xs (by simpa using hp))
  · intro q hq
    induction hq generalizing p with
    | nil => simp
    | cons h _ ih =>
      cases p with
      | nil => simp at hp
      | cons x xs =>
        simp only [List.zipWith_cons_cons]
        exact .cons ⟨(min_le_left _ _).trans h.1, h.2.trans (le_max_left _ _)⟩
          (ih (fun i hi => hb i (by simp [hi])) xs (by simpa using hp))
  · intro c hcp hbc
    -- the corners of `b` are in `c`
    have corner1 : List.Forall₂ (fun iv x => iv.1 ≤ x ∧ x ≤ iv.2) b (b.map Prod.fst) := by
      clear hbc hcp hp
      induction b with
      | nil => exact .nil
      | cons iv b ih => exact .cons ⟨le_rfl, hb iv (by simp)⟩ (ih fun i hi => hb i (by simp [hi]))
    have corner2 : List.Forall₂ (fun iv x => iv.1 ≤ x ∧ x ≤ iv.2) b (b.map Prod.snd) := by
      clear hbc hcp hp corner1
      induction b with
      | nil => exact .nil
      | cons iv b ih => exact .cons ⟨hb iv (by simp), le_rfl⟩ (ih fun i hi => hb i (by simp [hi]))
    have c1 := hbc _ corner1
    have c2 := hbc _ corner2
    clear hbc corner1 corner2
    intro q hq
    induction b generalizing c p q with
    | nil =>
      have h1 : p = [] := by simpa using hp
      subst h1
      simp only [List.zipWith_nil_left, List.forall₂_nil_left_iff] at hq
      subst hq; exact hcp
    | cons iv b ih =>
      cases p with
      | nil => simp at hp
      | cons x xs =>
        cases hcp with
        | @cons jv _ c' _ g0 g1 =>
          cases c1 with
          | cons k0 k1 =>
            cases c2 with
            | cons m0 m1 =>
              simp only [List.zipWith_cons_cons] at hq
              cases hq with
              | cons q0 q1 =>
                exact .cons ⟨(le_min k0.1 g0.1).trans q0.1, q0.2.trans (max_le m0.2 g0.2)⟩
                  (ih (fun i hi => hb i (by simp [hi])) xs (by simpa using hp) c' g1 k1 m1 _ q1)

/-- **C25** The volume is the product of the lengths; it is positive for proper boxes; the mid point is in the box and
is the image of the centre of the unit cube; `extend(delta)` contains the box for non-negative `delta`. -/
theorem C25_volume_midpoint_extend (b : Box K) (hb : b.Valid) :
    volume b = (lengths b).foldl (· * ·) 1 ∧ volume b = boxVolume b ∧ (Proper b → 0 < volume b) ∧
    InClosedBox 0 b (midPoint b) ∧ midPoint b = scaleFrom01 b (List.replicate b.length (1/2)) ∧
    (∀ delta q, 0 ≤ delta → (InClosedBox 0 (extendDelta b delta) q ↔ InClosedBox delta b q)) := by
  have hvol : volume b = boxVolume b := by
    have : ∀ (b : Box K) (a : K), b.foldl (fun v iv => v * (iv.2 - iv.1)) a = a * boxVolume b := by
      intro b
      induction b with
      | nil => intro a; simp [boxVolume]
      | cons iv b ih => intro a; simp only [List.foldl_cons, boxVolume, ih]; ring
    rw [volume, this, one_mul]
  refine ⟨?_, hvol, ?_, ?_, ?_, ?_⟩
  · simp [volume, lengths, List.foldl_map]
  · intro hp
    rw [hvol]
    clear hvol hb
    induction b with
    | nil => simp [boxVolume]
    | cons iv b ih =>
      have := hp iv (by simp)
      exact mul_pos (by linarith) (ih fun i hi => hp i (by simp [hi]))
  · unfold InClosedBox midPoint
    clear hvol
    induction b with
    | nil => simp
    | cons iv b ih =>
      have := hb iv (by simp)
      exact .cons ⟨by linarith, by linarith⟩ (ih fun i hi => hb i (by simp [hi]))
  · unfold midPoint scaleFrom01
    clear hvol
    induction b with
    | nil => simp
    | cons iv b ih =>
      simp only [List.map_cons, List.length_cons, List.replicate_succ, List.zipWith_cons_cons]
      rw [ih fun i hi => hb i (by simp [hi])]
      congr 1; ring
  · intro delta q _
    unfold InClosedBox extendDelta
    rw [List.forall₂_map_left_iff]
    simp

example : Proper ([(1, 3), (-2, 2)] : Box ℚ) ∧ scaleTo01 ([(1, 3), (-2, 2)] : Box ℚ) [2, 1] = [1/2, 3/4] := by
  constructor
  · intro iv hiv; simp at hiv; rcases hiv with rfl | rfl <;> norm_num
  · norm_num [scaleTo01]

end Qugar.Box
