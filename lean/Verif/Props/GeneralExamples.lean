import Verif.Props.ReparamGeneral
import Verif.Spec.General
import Verif.Props.ReparamBezier
/-
A concrete run of the reparameterization of general functions, and a finding: in 3D part of the negative region can be lost.
-/
namespace Qugar.General
open Roots Mesh Poly Reparam Spec
variable {K : Type} [Field K] [LinearOrder K]

/-- A trilinear function. -/
def exVal (p : List ℚ) : ℚ :=
  (1 - vat p 2) * (-1/4 + 7/8 * vat p 0 + 2 * vat p 1) + vat p 2 * (vat p 0 - 1/2 - 1/4 * vat p 1)

def exFn : Fn ℚ where
  val := exVal
  ivl := fun b => ⟨exVal [midAt b 0, midAt b 1, midAt b 2],
    |7/8 + 1/8 * midAt b 2| * (extent b 0 / 2) + |2 - 9/4 * midAt b 2| * (extent b 1 / 2) +
      |-1/4 + 1/8 * midAt b 0 - 9/4 * midAt b 1| * (extent b 2 / 2) + 1/8 * (extent b 0 / 2) * (extent b 2 / 2) +
      9/4 * (extent b 1 / 2) * (extent b 2 / 2)⟩
  grad := fun b => [⟨7/8 + 1/8 * midAt b 2, 1/8 * (extent b 2 / 2)⟩, ⟨2 - 9/4 * midAt b 2, 9/4 * (extent b 2 / 2)⟩,
    ⟨-1/4 + 1/8 * midAt b 0 - 9/4 * midAt b 1, 1/8 * (extent b 0 / 2) + 9/4 * (extent b 1 / 2)⟩]
  rootFind := fun p d lo hi _ =>
    let a := exVal (p.set d 0)
    let b := exVal (p.set d 1) - a
    if b = 0 then [] else if lo ≤ -a / b ∧ -a / b ≤ hi then [-a / b] else []
  signs := fun S up s => if S then (if up then (-1, 1) else (1, -1))
    else if s = 1 then (if up then (0, 1) else (1, 0)) else if s = -1 then (if up then (-1, 0) else (0, -1)) else (0, 0)

def exGEnv : Env ℚ := ⟨1 / 2 ^ 40, 2, exCheb, exSort, 77, ⟨[0, 0, 0], 0⟩, false⟩
def exGMesh : Mesh ℚ := ⟨3, 3, 2, [[9, 9, 9]], List.replicate 8 0, []⟩

theorem exFn_rootsOk : RootsOk exFn := by
  intro x d a b g
  simp only [exFn]
  constructor
  · intro r hr
    split at hr
    · simp at hr
    · split at hr
      · next h => rw [List.mem_singleton] at hr; rw [hr]; exact h
      · simp at hr
  · intro _
    split
    · simp
    · split <;> simp

theorem exGSetup : Setup exGEnv exFn exGMesh [(0, 1), (0, 1), (0, 1)] 3 where
  roots := exFn_rootsOk
  tol0 := by norm_num [exGEnv]
  tol1 := by norm_num [exGEnv]
  sort := exSort_spec
  order := by norm_num [exGMesh]
  nodes := by intro i hi; have : i < 2 := hi; interval_cases i <;> decide +kernel
  range := Or.inr rfl
  dim := rfl
  whole := rfl
  box := rfl
  wide := by
    intro iv hiv
    have : iv = (0, 1) := by simpa using hiv
    rw [this]
    norm_num [exGEnv, exGMesh, maxSubdivs]

theorem len3 {α : Type} {l : List α} (h : l.length = 3) : ∃ a b c, l = [a, b, c] := by
  match l, h with
  | [a, b, c], _ => exact ⟨a, b, c, rfl⟩

theorem abs_mid {lo hi x : ℚ} (h1 : lo ≤ x) (h2 : x ≤ hi) : |x - 1 / 2 * (lo + hi)| ≤ (hi - lo) / 2 := by
  rw [abs_le]; constructor <;> linarith

theorem exFn_sound : Sound 3 exFn where
  value := by
    intro box x hb hx h
    obtain ⟨b0, b1, b2, rfl⟩ := len3 hb
    obtain ⟨x0, x1, x2, rfl⟩ := len3 hx
    have h0 := h 0 (by norm_num)
    have h1 := h 1 (by norm_num)
    have h2 := h 2 (by norm_num)
    simp only [InAt, vat, List.getD_cons_zero, List.getD_cons_succ] at h0 h1 h2
    have e0 := abs_mid h0.1 h0.2
    have e1 := abs_mid h1.1 h1.2
    have e2 := abs_mid h2.1 h2.2
    simp only [exFn, exVal, vat, midAt, extent, List.getD_cons_zero, List.getD_cons_succ]
    obtain ⟨c0, hc0⟩ : ∃ c, c = 1 / 2 * (b0.1 + b0.2) := ⟨_, rfl⟩
    obtain ⟨c1, hc1⟩ : ∃ c, c = 1 / 2 * (b1.1 + b1.2) := ⟨_, rfl⟩
    obtain ⟨c2, hc2⟩ : ∃ c, c = 1 / 2 * (b2.1 + b2.2) := ⟨_, rfl⟩
    rw [← hc0] at e0 ⊢
    rw [← hc1] at e1 ⊢
    rw [← hc2] at e2 ⊢
    obtain ⟨r0, hr0⟩ : ∃ r, r = (b0.2 - b0.1) / 2 := ⟨_, rfl⟩
    obtain ⟨r1, hr1⟩ : ∃ r, r = (b1.2 - b1.1) / 2 := ⟨_, rfl⟩
    obtain ⟨r2, hr2⟩ : ∃ r, r = (b2.2 - b2.1) / 2 := ⟨_, rfl⟩
    rw [← hr0] at e0 ⊢
    rw [← hr1] at e1 ⊢
    rw [← hr2] at e2 ⊢
    have p0 := le_trans (abs_nonneg _) e0
    have p1 := le_trans (abs_nonneg _) e1
    have p2 := le_trans (abs_nonneg _) e2
    have key : (1 - x2) * (-1 / 4 + 7 / 8 * x0 + 2 * x1) + x2 * (x0 - 1 / 2 - 1 / 4 * x1) -
        ((1 - c2) * (-1 / 4 + 7 / 8 * c0 + 2 * c1) + c2 * (c0 - 1 / 2 - 1 / 4 * c1)) =
        (7/8 + 1/8 * c2) * (x0 - c0) + (2 - 9/4 * c2) * (x1 - c1) + (-1/4 + 1/8 * c0 - 9/4 * c1) * (x2 - c2) +
          1/8 * ((x0 - c0) * (x2 - c2)) + (-(9/4)) * ((x1 - c1) * (x2 - c2)) := by ring
    rw [key]
    refine le_trans (abs_add_le _ _) (add_le_add (le_trans (abs_add_le _ _) (add_le_add (le_trans (abs_add_le _ _)
      (add_le_add (le_trans (abs_add_le _ _) (add_le_add ?_ ?_)) ?_)) ?_)) ?_)
    · rw [abs_mul]; exact mul_le_mul_of_nonneg_left e0 (abs_nonneg _)
    · rw [abs_mul]; exact mul_le_mul_of_nonneg_left e1 (abs_nonneg _)
    · rw [abs_mul]; exact mul_le_mul_of_nonneg_left e2 (abs_nonneg _)
    · rw [abs_mul, abs_mul, abs_of_pos (by norm_num : (0:ℚ) < 1/8), mul_assoc]
      exact mul_le_mul_of_nonneg_left (mul_le_mul e0 e2 (abs_nonneg _) p0) (by norm_num)
    · rw [abs_mul, abs_mul, abs_neg, abs_of_pos (by norm_num : (0:ℚ) < 9/4), mul_assoc]
      exact mul_le_mul_of_nonneg_left (mul_le_mul e1 e2 (abs_nonneg _) p1) (by norm_num)
  gradient := by
    intro box x d t hb hx hd h _
    obtain ⟨b0, b1, b2, rfl⟩ := len3 hb
    obtain ⟨x0, x1, x2, rfl⟩ := len3 hx
    have h0 := h 0 (by norm_num)
    have h1 := h 1 (by norm_num)
    have h2 := h 2 (by norm_num)
    simp only [InAt, vat, List.getD_cons_zero, List.getD_cons_succ] at h0 h1 h2
    have e0 := abs_mid h0.1 h0.2
    have e1 := abs_mid h1.1 h1.2
    have e2 := abs_mid h2.1 h2.2
    interval_cases d <;>
      simp only [exFn, exVal, vat, midAt, extent, List.getD_cons_zero, List.getD_cons_succ, List.set_cons_zero, List.set_cons_succ]
    · rw [show (1 - x2) * (-1 / 4 + 7 / 8 * t + 2 * x1) + x2 * (t - 1 / 2 - 1 / 4 * x1) -
        ((1 - x2) * (-1 / 4 + 7 / 8 * x0 + 2 * x1) + x2 * (x0 - 1 / 2 - 1 / 4 * x1)) -
        (7 / 8 + 1 / 8 * (1 / 2 * (b2.1 + b2.2))) * (t - x0) = 1/8 * (x2 - 1 / 2 * (b2.1 + b2.2)) * (t - x0) from by ring,
        abs_mul, abs_mul, abs_of_pos (by norm_num : (0:ℚ) < 1/8)]
      exact mul_le_mul_of_nonneg_right (mul_le_mul_of_nonneg_left e2 (by norm_num)) (abs_nonneg _)
    · rw [show (1 - x2) * (-1 / 4 + 7 / 8 * x0 + 2 * t) + x2 * (x0 - 1 / 2 - 1 / 4 * t) -
        ((1 - x2) * (-1 / 4 + 7 / 8 * x0 + 2 * x1) + x2 * (x0 - 1 / 2 - 1 / 4 * x1)) -
        (2 - 9 / 4 * (1 / 2 * (b2.1 + b2.2))) * (t - x1) = -(9/4) * (x2 - 1 / 2 * (b2.1 + b2.2)) * (t - x1) from by ring,
        abs_mul, abs_mul, abs_neg, abs_of_pos (by norm_num : (0:ℚ) < 9/4)]
      exact mul_le_mul_of_nonneg_right (mul_le_mul_of_nonneg_left e2 (by norm_num)) (abs_nonneg _)
    · rw [show (1 - t) * (-1 / 4 + 7 / 8 * x0 + 2 * x1) + t * (x0 - 1 / 2 - 1 / 4 * x1) -
        ((1 - x2) * (-1 / 4 + 7 / 8 * x0 + 2 * x1) + x2 * (x0 - 1 / 2 - 1 / 4 * x1)) -
        (-1 / 4 + 1 / 8 * (1 / 2 * (b0.1 + b0.2)) - 9 / 4 * (1 / 2 * (b1.1 + b1.2))) * (t - x2) =
        (1/8 * (x0 - 1 / 2 * (b0.1 + b0.2)) + -(9/4) * (x1 - 1 / 2 * (b1.1 + b1.2))) * (t - x2) from by ring, abs_mul]
      refine mul_le_mul_of_nonneg_right (le_trans (abs_add_le _ _) (add_le_add ?_ ?_)) (abs_nonneg _)
      · rw [abs_mul, abs_of_pos (by norm_num : (0:ℚ) < 1/8)]
        exact mul_le_mul_of_nonneg_left e0 (by norm_num)
      · rw [abs_mul, abs_neg, abs_of_pos (by norm_num : (0:ℚ) < 9/4)]
        exact mul_le_mul_of_nonneg_left e1 (by norm_num)
  roots := by
    intro x d a b flag r hx hd hne
    obtain ⟨x0, x1, x2, rfl⟩ := len3 hx
    have lin : ∀ t, exVal ([x0, x1, x2].set d t) =
        exVal ([x0, x1, x2].set d 0) + (exVal ([x0, x1, x2].set d 1) - exVal ([x0, x1, x2].set d 0)) * t := by
      intro t
      interval_cases d <;>
        (simp only [exVal, vat, List.getD_cons_zero, List.getD_cons_succ, List.set_cons_zero, List.set_cons_succ]; ring)
    obtain ⟨t, ht⟩ := hne
    have ht : exVal ([x0, x1, x2].set d t) ≠ 0 := ht
    show r ∈ (if _ = (0 : ℚ) then _ else _) ↔ _ ∧ _ ∧ exVal _ = 0
    obtain ⟨A, hA⟩ : ∃ A, A = exVal ([x0, x1, x2].set d 0) := ⟨_, rfl⟩
    obtain ⟨B, hB⟩ : ∃ B, B = exVal ([x0, x1, x2].set d 1) - A := ⟨_, rfl⟩
    rw [lin t, ← hA, ← hB] at ht
    rw [lin r, ← hA, ← hB]
    by_cases hz : B = 0
    · rw [if_pos hz]
      constructor
      · intro h; simp at h
      · rintro ⟨_, _, h3⟩
        rw [hz, zero_mul, add_zero] at h3 ht
        exact absurd h3 ht
    · rw [if_neg hz]
      have : A + B * r = 0 ↔ r = -A / B := by
        rw [eq_div_iff hz]; constructor <;> intro h <;> linarith
      rw [this]
      split
      · next h => rw [List.mem_singleton]; constructor
                  · rintro rfl; exact ⟨h.1, h.2, rfl⟩
                  · exact fun h => h.2.2
      · next h =>
        constructor
        · intro h; simp at h
        · rintro ⟨h1, h2, rfl⟩; exact absurd ⟨h1, h2⟩ h
  signs := fun _ _ _ => rfl

set_option maxRecDepth 100000 in
theorem exRun : ∃ m, reparameterize (fun _ => 1) exGEnv exFn (fun _ => [1, 0, 0]) (1/1000) exGMesh [(0, 1), (0, 1), (0, 1)] = some m ∧
    (∀ p ∈ m.points.drop 1, vat p 0 ≤ 1/2) ∧ m.points.length = 25 := by
  have : ((reparameterize (fun _ => 1) exGEnv exFn (fun _ => [1, 0, 0]) (1/1000) exGMesh [(0, 1), (0, 1), (0, 1)]).map
    fun m => decide ((∀ p ∈ m.points.drop 1, vat p 0 ≤ 1/2) ∧ m.points.length = 25)) = some true := by decide +kernel
  obtain ⟨m, h1, h2⟩ := Option.map_eq_some_iff.1 this
  exact ⟨m, h1, by simpa using h2⟩

/-- **C60** (negation): the cells made for the negative region do not always cover it, even if the interval evaluations are sound
and the root finder is exact. In the unit cube every cell of the result for `exVal` is made of vertices with x ≤ 1/2, but `exVal` is
negative at (5/8, 1, 1). The signs of the functions restricted to the faces are determined with the gradient of the first
function instead of the gradient of each of them (impl_reparam_general.cpp:807). -/
theorem C60_region_covered_fails : Setup exGEnv exFn exGMesh [(0, 1), (0, 1), (0, 1)] 3 ∧ Sound 3 exFn ∧
    ∃ (P : List (List ℚ)) (C : List Nat) (W : List Nat),
      reparameterize (fun _ => 1) exGEnv exFn (fun _ => [1, 0, 0]) (1/1000) exGMesh [(0, 1), (0, 1), (0, 1)] =
        some ⟨3, 3, 2, exGMesh.points ++ P, exGMesh.conn ++ C, W⟩ ∧ P.length = 3 * 2 ^ 3 ∧
      (∀ p ∈ P, vat p 0 ≤ 1/2) ∧ exFn.val [5/8, 1, 1] < 0 := by
  refine ⟨exGSetup, exFn_sound, ?_⟩
  obtain ⟨m, h1, h2, h3⟩ := exRun
  obtain ⟨P, C, W, k, p1, p2, p3, p4, p5⟩ := C59_general_appends (fun _ => 1) exGEnv exFn (fun _ => [1, 0, 0]) (1/1000) exGMesh
    [(0, 1), (0, 1), (0, 1)] exGSetup
  rw [p1] at h1
  have h1 := Option.some.inj h1
  rw [← h1] at h2 h3
  refine ⟨P, C, _, p1, ?_, h2, by norm_num [exFn, exVal, vat]⟩
  have : P.length + 1 = 25 := by simpa [exGMesh, Nat.add_comm] using h3
  omega

end Qugar.General
