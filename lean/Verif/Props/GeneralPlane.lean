import Verif.Lemmas.GeneralPlaneCtor
import Verif.Props.GeneralExamples
/-
Property theorems on the reparameterization of general implicit functions in the plane: the vertices are in the region.
-/
namespace Qugar.General
open Roots Mesh Poly Reparam Spec TS
variable {K : Type} [Field K] [LinearOrder K] [IsStrictOrderedRing K]

/-- The lattice points of a box are in the box. -/
theorem fullCellPoint_in {cheb : Nat → Nat → K} {o : Nat} (hn : ∀ i, i < o → 0 ≤ pointIn01 cheb o i ∧ pointIn01 cheb o i ≤ 1) {box : Box K}
    (hb : box.length = 2) (hle : ∀ k, k < 2 → sideAt box 0 k ≤ sideAt box 1 k) {t : List Nat} (ht : t ∈ indices [o, o]) :
    (fullCellPoint cheb o box t).length = 2 ∧ ∀ k, k < 2 → InAt box (fullCellPoint cheb o box t) k := by
  match box, hb with
  | [a, b], _ =>
    have e : ∃ i j, t = [i, j] ∧ i < o ∧ j < o := by
      have := mem_indices.1 ht
      cases this with
      | cons h1 h2 => cases h2 with
        | cons h3 h4 => cases h4; exact ⟨_, _, rfl, h1, h3⟩
    obtain ⟨i, j, rfl, hi, hj⟩ := e
    have key : ∀ (iv : K × K) (i : Nat), iv.1 ≤ iv.2 → i < o → iv.1 ≤ iv.1 + (iv.2 - iv.1) * pointIn01 cheb o i ∧
        iv.1 + (iv.2 - iv.1) * pointIn01 cheb o i ≤ iv.2 := by
      intro iv i h hi
      obtain ⟨h1, h2⟩ := hn i hi
      have := mul_nonneg (sub_nonneg.2 h) h1
      have := mul_le_of_le_one_right (sub_nonneg.2 h) h2
      constructor <;> linarith
    refine ⟨rfl, ?_⟩
    intro k hk
    have h0 := hle 0 (by norm_num)
    have h1 := hle 1 (by norm_num)
    simp only [sideAt, if_true, one_ne_zero, if_false, List.getD_cons_zero, List.getD_cons_succ] at h0 h1
    interval_cases k
    · exact key a i h0 hi
    · exact key b j h1 hj

/-- **C60** (partial: in the plane, without tolerances): let the interval evaluations be sound, the root finder exact, and
let the function have the intermediate value property. Then the vertices of the cells appended for the zero level set are zeros of
the function, and the vertices of the cells appended for the negative region are points where it is not positive, if every box
made by the allowed number of halvings is resolved. Missing: three dimensions, where the claim on coverage fails; boxes that are not
resolved, and tolerances. -/
theorem C60_plane_vertices_partial (norm : List K → K) (E : Env K) (F : Fn K) (outer : List K → List K) (wtol : K) (m : Mesh K)
    (domain : Box K) (h : Setup E F m domain (m.range - if E.S then 1 else 0)) (h2 : m.range = 2) (h0 : E.tol = 0) (hs : Sound 2 F)
    (hi' : Intermediate 2 F) (hR : E.S = false → Resolves F 16 domain) :
    ∃ (P : List (List K)) (C W : List Nat),
      reparameterize norm E F outer wtol m domain = some ⟨m.dim, m.range, m.order, m.points ++ P, m.conn ++ C, m.wires ++ W⟩ ∧
      (E.S = true → ∀ p ∈ P, F.val p = 0) ∧ (E.S = false → ∀ p ∈ P, F.val p ≤ 0) := by
  obtain ⟨P, C, W, k, p1, p2, p3, p4, p5, m1, r1, r2, _⟩ := general_core norm E F outer wtol m domain h
  refine ⟨P, C, W.flatten, p1, ?_⟩
  obtain ⟨E', hE'⟩ : ∃ E' : Env K, E' = { E with order := m.order } := ⟨_, rfl⟩
  have hS' : E'.S = E.S := by rw [hE']
  have hd := h.dim
  have hd0 : 0 < m.dim := by rw [hd, h2]; split <;> omega
  have hp : Par E' F m.range m.dim none := by
    rw [hE']
    exact ⟨h.roots, h.tol0, h.tol1, h.sort, h.order, h.nodes, h.range, by simpa using hd, fun _ => rfl⟩
  unfold runCtor at r1
  rw [← hE', h2] at r1
  obtain ⟨acts, a1, a2⟩ := Option.bind_eq_some_iff.1 r1
  obtain ⟨st, s1, s2⟩ := Option.bind_eq_some_iff.1 a2
  have s2 := Option.some.inj s2
  have hb : domain.length = 2 := by rw [h.box, h2]
  have hext : ∀ k, k < 2 → 0 < extent domain k := by
    intro k hk
    have := h.lt _ (getD_mem_box (by rw [hb]; exact hk))
    unfold extent
    linarith
  have good : ∀ a ∈ acts, ActGood E' F a := by
    refine plane_ctorBox hp (by rw [hE']; exact h0) hs hi' maxSubdivs _ domain acts ?_ ?_ hb hext (by rw [hS']; exact hR) a1
    · rfl
    · simp
  have hpts := acts_points acts (m, []) st s1 hd0 h.order
  rw [s2, r2] at hpts
  have hP := List.append_cancel_left hpts
  have all : ∀ p ∈ P, Good E' F p := by
    intro p hpP
    rw [hP] at hpP
    obtain ⟨a, ha, hpa⟩ := List.mem_flatMap.1 hpP
    have hg := good a ha
    cases a with
    | ins e =>
      have : p = e.point := by simpa [ptsOf] using hpa
      rw [this]; exact hg
    | clear => simp [ptsOf] at hpa
    | full box =>
      obtain ⟨g1, g2, g3, g4⟩ := hg
      have hdim : m.dim = 2 := by rw [hd, h2, ← hS', g1]; rfl
      obtain ⟨t, ht, rfl⟩ := List.mem_map.1 hpa
      dsimp only at ht ⊢
      rw [hdim] at ht
      obtain ⟨q1, q2⟩ := fullCellPoint_in h.nodes g2 g3 ht
      unfold Good
      rw [g1]
      exact g4 _ q1 q2
  constructor
  · intro hS p hpP
    have := all p hpP
    unfold Good at this
    rw [hS', hS] at this
    exact this
  · intro hS p hpP
    have := all p hpP
    unfold Good at this
    rw [hS', hS] at this
    exact this

/-! A case that meets the hypotheses: the function `4 x y - 1` in the unit square, that is subdivided. -/

def hyVal (p : List ℚ) : ℚ := 4 * vat p 0 * vat p 1 - 1

def hyFn : Fn ℚ where
  val := hyVal
  ivl := fun b => ⟨4 * midAt b 0 * midAt b 1 - 1,
    4 * (|midAt b 1| * (extent b 0 / 2) + |midAt b 0| * (extent b 1 / 2) + extent b 0 / 2 * (extent b 1 / 2))⟩
  grad := fun b => [⟨4 * midAt b 1, 4 * (extent b 1 / 2)⟩, ⟨4 * midAt b 0, 4 * (extent b 0 / 2)⟩]
  rootFind := fun p d lo hi _ =>
    let a := hyVal (p.set d 0)
    let b := hyVal (p.set d 1) - a
    if b = 0 then [] else if lo ≤ -a / b ∧ -a / b ≤ hi then [-a / b] else []
  signs := fun S up s => if S then (if up then (-1, 1) else (1, -1))
    else if s = 1 then (if up then (0, 1) else (1, 0)) else if s = -1 then (if up then (-1, 0) else (0, -1)) else (0, 0)

def hyEnv (S : Bool) : Env ℚ := ⟨0, 2, exCheb, exSort, 77, ⟨[0, 0], 0⟩, S⟩
def hyMesh (S : Bool) : Mesh ℚ := ⟨if S then 1 else 2, 2, 2, [[9, 9]], List.replicate 4 0, []⟩

theorem len2 {α : Type} {l : List α} (h : l.length = 2) : ∃ a b, l = [a, b] := by
  match l, h with
  | [a, b], _ => exact ⟨a, b, rfl⟩

theorem hy_lin {x : List ℚ} (hx : x.length = 2) {d : Nat} (hd : d < 2) (t : ℚ) :
    hyVal (x.set d t) = hyVal (x.set d 0) + (hyVal (x.set d 1) - hyVal (x.set d 0)) * t := by
  obtain ⟨x0, x1, rfl⟩ := len2 hx
  interval_cases d <;> (simp only [hyVal, vat, List.getD_cons_zero, List.getD_cons_succ, List.set_cons_zero, List.set_cons_succ]; ring)

theorem hySetup (S : Bool) : Setup (hyEnv S) hyFn (hyMesh S) [(0, 1), (0, 1)] ((hyMesh S).range - if (hyEnv S).S then 1 else 0) where
  roots := by
    intro x d a b g
    simp only [hyFn]
    constructor
    · intro r hr
      split at hr
      · simp at hr
      · split at hr
        · next h => rw [List.mem_singleton] at hr; rw [hr]; exact h
        · simp at hr
    · intro _
      split
      · simp
      · split <;> simp
  tol0 := le_refl _
  tol1 := by norm_num [hyEnv]
  sort := exSort_spec
  order := by norm_num [hyMesh]
  nodes := by intro i hi; have : i < 2 := hi; interval_cases i <;> cases S <;> decide +kernel
  range := Or.inl rfl
  dim := by cases S <;> rfl
  whole := by cases S <;> rfl
  box := rfl
  wide := by
    intro iv hiv
    have : iv = (0, 1) := by simpa using hiv
    rw [this]
    norm_num [hyEnv]

theorem hySound : Sound 2 hyFn where
  value := by
    intro box x hb hx h
    obtain ⟨b0, b1, rfl⟩ := len2 hb
    obtain ⟨x0, x1, rfl⟩ := len2 hx
    have h0 := h 0 (by norm_num)
    have h1 := h 1 (by norm_num)
    simp only [vat, List.getD_cons_zero, List.getD_cons_succ] at h0 h1
    have e0 := abs_mid h0.1 h0.2
    have e1 := abs_mid h1.1 h1.2
    simp only [hyFn, hyVal, vat, midAt, extent, List.getD_cons_zero, List.getD_cons_succ]
    obtain ⟨c0, hc0⟩ : ∃ c, c = 1 / 2 * (b0.1 + b0.2) := ⟨_, rfl⟩
    obtain ⟨c1, hc1⟩ : ∃ c, c = 1 / 2 * (b1.1 + b1.2) := ⟨_, rfl⟩
    rw [← hc0] at e0 ⊢
    rw [← hc1] at e1 ⊢
    obtain ⟨r0, hr0⟩ : ∃ r, r = (b0.2 - b0.1) / 2 := ⟨_, rfl⟩
    obtain ⟨r1, hr1⟩ : ∃ r, r = (b1.2 - b1.1) / 2 := ⟨_, rfl⟩
    rw [← hr0] at e0 ⊢
    rw [← hr1] at e1 ⊢
    have p0 := le_trans (abs_nonneg _) e0
    rw [show 4 * x0 * x1 - 1 - (4 * c0 * c1 - 1) = 4 * (c1 * (x0 - c0) + c0 * (x1 - c1) + (x0 - c0) * (x1 - c1)) from by ring, abs_mul,
      abs_of_pos (by norm_num : (0:ℚ) < 4)]
    refine mul_le_mul_of_nonneg_left ?_ (by norm_num)
    refine le_trans (abs_add_le _ _) (add_le_add (le_trans (abs_add_le _ _) (add_le_add ?_ ?_)) ?_)
    · rw [abs_mul]; exact mul_le_mul_of_nonneg_left e0 (abs_nonneg _)
    · rw [abs_mul]; exact mul_le_mul_of_nonneg_left e1 (abs_nonneg _)
    · rw [abs_mul]; exact mul_le_mul e0 e1 (abs_nonneg _) p0
  gradient := by
    intro box x d t hb hx hd h _
    obtain ⟨b0, b1, rfl⟩ := len2 hb
    obtain ⟨x0, x1, rfl⟩ := len2 hx
    have h0 := h 0 (by norm_num)
    have h1 := h 1 (by norm_num)
    simp only [vat, List.getD_cons_zero, List.getD_cons_succ] at h0 h1
    have e0 := abs_mid h0.1 h0.2
    have e1 := abs_mid h1.1 h1.2
    interval_cases d <;>
      simp only [hyFn, hyVal, vat, midAt, extent, List.getD_cons_zero, List.getD_cons_succ, List.set_cons_zero, List.set_cons_succ]
    · rw [show 4 * t * x1 - 1 - (4 * x0 * x1 - 1) - 4 * (1 / 2 * (b1.1 + b1.2)) * (t - x0) = 4 * (x1 - 1 / 2 * (b1.1 + b1.2)) * (t - x0) from by ring,
        abs_mul, abs_mul, abs_of_pos (by norm_num : (0:ℚ) < 4)]
      exact mul_le_mul_of_nonneg_right (mul_le_mul_of_nonneg_left e1 (by norm_num)) (abs_nonneg _)
    · rw [show 4 * x0 * t - 1 - (4 * x0 * x1 - 1) - 4 * (1 / 2 * (b0.1 + b0.2)) * (t - x1) = 4 * (x0 - 1 / 2 * (b0.1 + b0.2)) * (t - x1) from by ring,
        abs_mul, abs_mul, abs_of_pos (by norm_num : (0:ℚ) < 4)]
      exact mul_le_mul_of_nonneg_right (mul_le_mul_of_nonneg_left e0 (by norm_num)) (abs_nonneg _)
  roots := by
    intro x d a b flag r hx hd hne
    obtain ⟨t, ht⟩ := hne
    have ht : hyVal (x.set d t) ≠ 0 := ht
    show r ∈ (if _ = (0 : ℚ) then _ else _) ↔ _ ∧ _ ∧ hyVal _ = 0
    have lin := hy_lin hx hd
    obtain ⟨A, hA⟩ : ∃ A, A = hyVal (x.set d 0) := ⟨_, rfl⟩
    obtain ⟨B, hB⟩ : ∃ B, B = hyVal (x.set d 1) - A := ⟨_, rfl⟩
    rw [lin t, ← hA, ← hB] at ht
    rw [lin r, ← hA, ← hB]
    by_cases hz : B = 0
    · rw [if_pos hz]
      constructor
      · intro h; simp at h
      · rintro ⟨_, _, h3⟩
        rw [hz, zero_mul, add_zero] at h3 ht
        exact absurd h3 ht
    · rw [if_neg hz]
      have : A + B * r = 0 ↔ r = -A / B := by
        rw [eq_div_iff hz]; constructor <;> intro h <;> linarith
      rw [this]
      split
      · next h => rw [List.mem_singleton]; constructor
                  · rintro rfl; exact ⟨h.1, h.2, rfl⟩
                  · exact fun h => h.2.2
      · next h =>
        constructor
        · intro h; simp at h
        · rintro ⟨h1, h2, rfl⟩; exact absurd ⟨h1, h2⟩ h
  signs := fun _ _ _ => rfl

theorem hyIntermediate : Intermediate 2 hyFn := by
  intro x d a b hx hd hab hle
  have hle : hyVal (x.set d a) * hyVal (x.set d b) ≤ 0 := hle
  have lin := hy_lin hx hd
  show ∃ t, a ≤ t ∧ t ≤ b ∧ hyVal (x.set d t) = 0
  obtain ⟨A, hA⟩ : ∃ A, A = hyVal (x.set d 0) := ⟨_, rfl⟩
  obtain ⟨B, hB⟩ : ∃ B, B = hyVal (x.set d 1) - A := ⟨_, rfl⟩
  rw [← hA, ← hB] at lin
  rw [lin a, lin b] at hle
  by_cases hz : B = 0
  · rw [hz, zero_mul, zero_mul, add_zero] at hle
    have : A = 0 := mul_self_eq_zero.1 (le_antisymm hle (mul_self_nonneg A))
    exact ⟨a, le_refl _, hab, by rw [lin a, this, hz]; ring⟩
  · refine ⟨-A / B, ?_, ?_, by rw [lin]; field_simp; ring⟩
    · rcases lt_or_gt_of_ne hz with h | h
      · rw [le_div_iff_of_neg h]; nlinarith [mul_le_mul_of_nonpos_left hab h.le]
      · rw [le_div_iff₀ h]; nlinarith [mul_le_mul_of_nonneg_left hab h.le]
    · rcases lt_or_gt_of_ne hz with h | h
      · rw [div_le_iff_of_neg h]; nlinarith [mul_le_mul_of_nonpos_left hab h.le]
      · rw [div_le_iff₀ h]; nlinarith [mul_le_mul_of_nonneg_left hab h.le]

def resolvedB (F : Fn ℚ) (box : Box ℚ) : Bool :=
  decide ((F.ivl box).dev < |(F.ivl box).alpha|) ||
    (List.range box.length).any fun k => decide (1001 / 1000 * ((F.grad box).getD k ⟨0, 0⟩).dev < |((F.grad box).getD k ⟨0, 0⟩).alpha|)

def resolvesB (F : Fn ℚ) : Nat → Box ℚ → Bool
  | 0, box => resolvedB F box
  | n + 1, box => resolvedB F box || (List.range box.length).all fun d => resolvesB F n (lowerHalf box d) && resolvesB F n (upperHalf box d)

theorem resolvedB_spec {F : Fn ℚ} {box : Box ℚ} (h : resolvedB F box = true) : Resolved F box := by
  unfold resolvedB at h
  simp only [Bool.or_eq_true, decide_eq_true_eq, List.any_eq_true, List.mem_range] at h
  exact h

theorem resolvesB_spec {F : Fn ℚ} : ∀ {n : Nat} {box : Box ℚ}, resolvesB F n box = true → Resolves F n box
  | 0, _, h => resolvedB_spec h
  | n + 1, box, h => by
    unfold resolvesB at h
    simp only [Bool.or_eq_true, List.all_eq_true, List.mem_range, Bool.and_eq_true] at h
    rcases h with h | h
    · exact Or.inl (resolvedB_spec h)
    · exact Or.inr fun d hd => ⟨resolvesB_spec (h d hd).1, resolvesB_spec (h d hd).2⟩

example (S : Bool) : ∃ (P : List (List ℚ)) (C W : List Nat),
    reparameterize (fun _ => 1) (hyEnv S) hyFn (fun _ => [1, 0]) (1/1000) (hyMesh S) [(0, 1), (0, 1)] =
      some ⟨(hyMesh S).dim, 2, 2, (hyMesh S).points ++ P, (hyMesh S).conn ++ C, (hyMesh S).wires ++ W⟩ ∧
    (S = true → ∀ p ∈ P, hyVal p = 0) ∧ (S = false → ∀ p ∈ P, hyVal p ≤ 0) :=
  C60_plane_vertices_partial _ _ _ _ _ _ _ (hySetup S) rfl rfl hySound hyIntermediate fun _ => resolvesB_spec (by decide +kernel)

end Qugar.General
