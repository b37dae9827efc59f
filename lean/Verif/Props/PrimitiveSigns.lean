import Verif.Props.Primitives
import Verif.Spec.Bodies
import Mathlib.Tactic.Positivity
import Mathlib.Data.Matrix.Mul
import Mathlib.LinearAlgebra.Matrix.NonsingularInverse
/-
Property theorems C44 (primitive functions), signs: each function is negative exactly inside the body it describes.
-/
namespace Qugar.Prim
open Spec

theorem dist2_2 (a b c d : ℝ) : dist2 [a, b] [c, d] = (a - c) * (a - c) + (b - d) * (b - d) := by
  simp [dist2, dot]
theorem dist2_3 (a b c d e f : ℝ) :
    dist2 [a, b, c] [d, e, f] = (a - d) * (a - d) + (b - e) * (b - e) + (c - f) * (c - f) := by
  simp [dist2, dot]; ring

/-- The stored axis of a cylinder or of a torus has length one unless the given axis is (numerically) zero, and points
in its direction. -/
theorem C44_stored_axis (norm : List ℝ → ℝ) (hn : EuclideanNorm norm) (eps : ℝ) (he : 0 ≤ eps) (axis : List ℝ)
    (h : eps < norm axis) : IsUnitAlong (storedAxis norm eps axis) axis := by
  have hz : Tol.isZero eps (norm axis) = false := by
    unfold Tol.isZero
    rw [decide_eq_false_iff_not, not_le, abs_of_nonneg (hn axis).1]
    exact h
  unfold storedAxis
  rw [hz]
  exact unit_div hn (lt_of_le_of_lt he h)

/-- **C44**, spheres and circles: negative at the points at distance less than the radius from the centre, positive at
the points at larger distance, zero on the sphere. -/
theorem C44_sphere_sign (dim : Nat) (r : ℝ) (c p : List ℝ) :
    ((sphere dim r c).eval p < 0 ↔ dist2 p c < r * r) ∧ (0 < (sphere dim r c).eval p ↔ r * r < dist2 p c) := by
  have : (sphere dim r c).eval p = dist2 p c - r * r := by
    simp only [sphere, dotp_eq, dist2, vsub]
  rw [this]
  exact ⟨sub_neg, sub_pos⟩

/-- **C44**, cylinders: negative at the points at distance less than the radius from some point of the axis, positive
at the points at distance greater than the radius from all the points of the axis. -/
theorem C44_cylinder_sign (r : ℝ) (o ax p : List ℝ) (ho : o.length = 3) (ha : ax.length = 3) (hp : p.length = 3)
    (hu : dot ax ax = 1) :
    ((cylinder r o ax).eval p < 0 ↔ ∃ t, dist2 p (linePoint o ax t) < r * r) ∧
    (0 < (cylinder r o ax).eval p ↔ ∀ t, r * r < dist2 p (linePoint o ax t)) := by
  obtain ⟨a, b, c, rfl⟩ := len3 ho
  obtain ⟨u, v, w, rfl⟩ := len3 ha
  obtain ⟨x, y, z, rfl⟩ := len3 hp
  rw [dot3] at hu
  have hd : ∀ t, dist2 [x, y, z] (linePoint [a, b, c] [u, v, w] t) = (cylinder r [a, b, c] [u, v, w]).eval [x, y, z]
      + r * r + (t - ((x - a) * u + (y - b) * v + (z - c) * w)) ^ 2 := by
    intro t
    simp only [linePoint, List.zipWith_cons_cons, List.zipWith_nil_left, dist2_3, cylinder, dotp_eq, dot3, vsub]
    linear_combination (t ^ 2) * hu
  simp only [hd]
  constructor
  · constructor
    · intro h
      exact ⟨(x - a) * u + (y - b) * v + (z - c) * w, by simpa using h⟩
    · rintro ⟨t, ht⟩
      nlinarith [sq_nonneg (t - ((x - a) * u + (y - b) * v + (z - c) * w))]
  · constructor
    · intro h t
      nlinarith [sq_nonneg (t - ((x - a) * u + (y - b) * v + (z - c) * w))]
    · intro h
      have := h ((x - a) * u + (y - b) * v + (z - c) * w)
      simpa using this

/-- **C44**, annuli: negative between the two circles, positive inside the inner one and outside the outer one. -/
theorem C44_annulus_sign (ri ro : ℝ) (h0 : 0 < ri) (h1 : ri < ro) (c p : List ℝ) :
    ((annulus ri ro c).eval p < 0 ↔ ri * ri < dist2 p c ∧ dist2 p c < ro * ro) ∧
    (0 < (annulus ri ro c).eval p ↔ dist2 p c < ri * ri ∨ ro * ro < dist2 p c) := by
  have h : (annulus ri ro c).eval p = (dist2 p c - ri * ri) * (dist2 p c - ro * ro) := by
    simp only [annulus, dotp_eq, dist2, vsub]; ring
  rw [h, mul_neg_iff, mul_pos_iff]
  have : ri * ri < ro * ro := by nlinarith
  constructor
  · constructor
    · rintro (⟨h2, h3⟩ | ⟨h2, h3⟩)
      · exact ⟨by linarith, by linarith⟩
      · linarith
    · rintro ⟨h2, h3⟩
      exact .inl ⟨by linarith, by linarith⟩
  · constructor
    · rintro (⟨h2, h3⟩ | ⟨h2, h3⟩)
      · exact .inr (by linarith)
      · exact .inl (by linarith)
    · rintro (h2 | h2)
      · exact .inr ⟨by linarith, by linarith⟩
      · exact .inl ⟨by linarith, by linarith⟩

/-- **C44**, planes: zero on the plane through the origin point orthogonal to the normal, positive on the side the
normal points to, growing with the distance. -/
theorem C44_plane_sign (dim : Nat) (o n p : List ℝ) :
    (plane dim o n).eval p = dot (List.zipWith (· - ·) p o) n := by
  simp only [plane, dotp_eq, vsub]

theorem cauchy3 (a b c x y z : ℝ) :
    (a * x + b * y + c * z) ^ 2 ≤ (a * a + b * b + c * c) * (x * x + y * y + z * z) := by
  have h : (a * a + b * b + c * c) * (x * x + y * y + z * z) = (a * x + b * y + c * z) ^ 2 +
      ((a * y - b * x) ^ 2 + (a * z - c * x) ^ 2 + (b * z - c * y) ^ 2) := by ring
  rw [h]
  have := sq_nonneg (a * y - b * x)
  have := sq_nonneg (a * z - c * x)
  have := sq_nonneg (b * z - c * y)
  linarith

theorem sq3_zero {a b c : ℝ} (h : a * a + b * b + c * c = 0) : a = 0 ∧ b = 0 ∧ c = 0 := by
  have ha := mul_self_nonneg a
  have hb := mul_self_nonneg b
  have hc := mul_self_nonneg c
  exact ⟨mul_self_eq_zero.1 (by linarith), mul_self_eq_zero.1 (by linarith), mul_self_eq_zero.1 (by linarith)⟩

set_option maxHeartbeats 2000000 in
/-- **C44**, tori: negative at the points at distance less than the minor radius from some point of the central
circle, positive at the points at distance greater than the minor radius from all of them. -/
theorem C44_torus_sign (R r : ℝ) (h0 : 0 < r) (h1 : r < R) (c ax p : List ℝ) (hc : c.length = 3) (ha : ax.length = 3)
    (hp : p.length = 3) (hu : dot ax ax = 1) :
    ((torus R r c ax).eval p < 0 ↔ ∃ q, OnCircle R c ax q ∧ dist2 p q < r * r) ∧
    (0 < (torus R r c ax).eval p ↔ ∀ q, OnCircle R c ax q → r * r < dist2 p q) := by
  obtain ⟨a, b, c, rfl⟩ := len3 hc
  obtain ⟨u, v, w, rfl⟩ := len3 ha
  obtain ⟨x, y, z, rfl⟩ := len3 hp
  rw [dot3] at hu
  -- height over the plane of the circle and distance from its axis
  obtain ⟨h, hh⟩ : ∃ h, h = (x - a) * u + (y - b) * v + (z - c) * w := ⟨_, rfl⟩
  obtain ⟨e0, he0⟩ : ∃ e, e = x - a - h * u := ⟨_, rfl⟩
  obtain ⟨e1, he1⟩ : ∃ e, e = y - b - h * v := ⟨_, rfl⟩
  obtain ⟨e2, he2⟩ : ∃ e, e = z - c - h * w := ⟨_, rfl⟩
  have horth : e0 * u + e1 * v + e2 * w = 0 := by
    rw [he0, he1, he2]; linear_combination (-h) * hu - hh
  obtain ⟨ρ, hρ⟩ : ∃ ρ, ρ = Real.sqrt (e0 * e0 + e1 * e1 + e2 * e2) := ⟨_, rfl⟩
  have hρ0 : 0 ≤ ρ := hρ ▸ Real.sqrt_nonneg _
  have hρ2 : ρ * ρ = e0 * e0 + e1 * e1 + e2 * e2 := by
    rw [hρ]
    exact Real.mul_self_sqrt (add_nonneg (add_nonneg (mul_self_nonneg e0) (mul_self_nonneg e1)) (mul_self_nonneg e2))
  have hx : x - a = e0 + h * u := by rw [he0]; ring
  have hy : y - b = e1 + h * v := by rw [he1]; ring
  have hz : z - c = e2 + h * w := by rw [he2]; ring
  have hd2 : (x - a) * (x - a) + (y - b) * (y - b) + (z - c) * (z - c) = ρ * ρ + h * h := by
    rw [hx, hy, hz, hρ2]; linear_combination (h * h) * hu + 2 * h * horth
  have hev : (torus R r [a, b, c] [u, v, w]).eval [x, y, z] =
      ((ρ - R) ^ 2 + h ^ 2 - r * r) * ((ρ + R) ^ 2 + h ^ 2 - r * r) := by
    simp only [torus, dotp_eq, dot3, vsub, List.zipWith_cons_cons, List.zipWith_nil_left]
    rw [hd2, ← hh]; ring
  have hpos : 0 < (ρ + R) ^ 2 + h ^ 2 - r * r := by
    have k1 : 0 < (R - r) * (R + r) := mul_pos (by linarith) (by linarith)
    have k2 : 0 ≤ ρ * R := mul_nonneg hρ0 (by linarith)
    have k3 := mul_self_nonneg ρ
    have k4 := sq_nonneg h
    have : (ρ + R) ^ 2 + h ^ 2 - r * r = ρ * ρ + 2 * (ρ * R) + h ^ 2 + (R - r) * (R + r) := by ring
    rw [this]; linarith
  -- the distance to any point of the circle
  have hlow : ∀ q, OnCircle R [a, b, c] [u, v, w] q → (ρ - R) ^ 2 + h ^ 2 ≤ dist2 [x, y, z] q := by
    rintro q ⟨hq, hq1, hq2⟩
    obtain ⟨q0, q1, q2, rfl⟩ := len3 hq
    simp only [List.zipWith_cons_cons, List.zipWith_nil_left, dot3] at hq2
    rw [dist2_3] at hq1 ⊢
    have hdot : (x - a) * (q0 - a) + (y - b) * (q1 - b) + (z - c) * (q2 - c) ≤ ρ * R := by
      have hs : ((x - a) * (q0 - a) + (y - b) * (q1 - b) + (z - c) * (q2 - c)) =
          e0 * (q0 - a) + e1 * (q1 - b) + e2 * (q2 - c) := by
        rw [hx, hy, hz]; linear_combination h * hq2
      rw [hs]
      have hsq : (e0 * (q0 - a) + e1 * (q1 - b) + e2 * (q2 - c)) ^ 2 ≤ (ρ * R) ^ 2 := by
        have : (ρ * R) ^ 2 = (e0 * e0 + e1 * e1 + e2 * e2) *
            ((q0 - a) * (q0 - a) + (q1 - b) * (q1 - b) + (q2 - c) * (q2 - c)) := by
          rw [hq1, ← hρ2]; ring
        rw [this]
        exact cauchy3 _ _ _ _ _ _
      exact abs_le_of_sq_le_sq' hsq (mul_nonneg hρ0 (by linarith)) |>.2
    have hexp : (x - q0) * (x - q0) + (y - q1) * (y - q1) + (z - q2) * (z - q2) = ρ * ρ + h * h + R * R -
        2 * ((x - a) * (q0 - a) + (y - b) * (q1 - b) + (z - c) * (q2 - c)) := by
      rw [← hd2, ← hq1]; ring
    have hexp2 : (ρ - R) ^ 2 + h ^ 2 = ρ * ρ + h * h + R * R - 2 * (ρ * R) := by ring
    rw [hexp, hexp2]; linarith
  -- some point of the circle attains the bound
  have hatt : ∃ q, OnCircle R [a, b, c] [u, v, w] q ∧ dist2 [x, y, z] q = (ρ - R) ^ 2 + h ^ 2 := by
    -- a unit vector orthogonal to the axis, along `e` if `e` is not zero
    obtain ⟨f0, f1, f2, hf1, hf2, hf3⟩ : ∃ f0 f1 f2 : ℝ, f0 * f0 + f1 * f1 + f2 * f2 = 1 ∧
        f0 * u + f1 * v + f2 * w = 0 ∧ e0 * f0 + e1 * f1 + e2 * f2 = ρ := by
      rcases hρ0.lt_or_eq with hr | hr
      · refine ⟨e0 / ρ, e1 / ρ, e2 / ρ, ?_, ?_, ?_⟩
        · field_simp; rw [sq]; linarith
        · field_simp; linarith
        · field_simp; rw [sq]; linarith
      · rw [← hr] at hρ2
        obtain ⟨z0, z1, z2⟩ := sq3_zero (by rw [← hρ2]; ring)
        rw [z0, z1, z2, ← hr]
        by_cases hw : u * u + v * v = 0
        · refine ⟨1, 0, 0, by norm_num, ?_, by ring⟩
          have : u = 0 := by nlinarith [mul_self_nonneg u, mul_self_nonneg v]
          rw [this]; ring
        · have hs : 0 < u * u + v * v := lt_of_le_of_ne (by nlinarith [mul_self_nonneg u, mul_self_nonneg v]) (Ne.symm hw)
          obtain ⟨s, hs'⟩ : ∃ s, s = Real.sqrt (u * u + v * v) := ⟨_, rfl⟩
          have hsp : 0 < s := hs' ▸ Real.sqrt_pos.2 hs
          have hss : s * s = u * u + v * v := by rw [hs']; exact Real.mul_self_sqrt hs.le
          refine ⟨-v / s, u / s, 0, ?_, ?_, by ring⟩
          · field_simp; rw [sq s, hss]; ring
          · field_simp; ring
    refine ⟨[a + R * f0, b + R * f1, c + R * f2], ⟨rfl, ?_, ?_⟩, ?_⟩
    · rw [dist2_3]; linear_combination (R * R) * hf1
    · simp only [List.zipWith_cons_cons, List.zipWith_nil_left, dot3]; linear_combination R * hf2
    · rw [dist2_3]
      have e0' : x - (a + R * f0) = e0 + h * u - R * f0 := by rw [← hx]; ring
      have e1' : y - (b + R * f1) = e1 + h * v - R * f1 := by rw [← hy]; ring
      have e2' : z - (c + R * f2) = e2 + h * w - R * f2 := by rw [← hz]; ring
      rw [e0', e1', e2']
      linear_combination -hρ2 + (h * h) * hu + (R * R) * hf1 + 2 * h * horth - 2 * R * hf3 - 2 * h * R * hf2
  obtain ⟨q, hq, hq'⟩ := hatt
  rw [hev, mul_neg_iff, mul_pos_iff]
  constructor
  · constructor
    · rintro (⟨_, h3⟩ | ⟨h2, _⟩)
      · linarith
      · exact ⟨q, hq, by linarith⟩
    · rintro ⟨q', h2, h3⟩
      exact .inr ⟨by linarith [hlow q' h2], hpos⟩
  · constructor
    · rintro (⟨h2, _⟩ | ⟨_, h3⟩)
      · intro q' h4; linarith [hlow q' h4]
      · linarith
    · intro h2
      exact .inl ⟨by linarith [h2 q hq], hpos⟩

/-- Completeness of an orthonormal basis (2D). -/
theorem complete2 {a b c d : ℝ} (h : Orthonormal [[a, b], [c, d]]) :
    a * a + c * c = 1 ∧ b * b + d * d = 1 ∧ a * b + c * d = 0 := by
  have h00 := h 0 (by simp) 0 (by simp)
  have h01 := h 0 (by simp) 1 (by simp)
  have h11 := h 1 (by simp) 1 (by simp)
  simp only [List.getElem_cons_zero, List.getElem_cons_succ, dot2, if_true, show ¬ (0 = 1) by decide, if_false] at *
  have hm : (!![a, b; c, d] : Matrix (Fin 2) (Fin 2) ℝ) * !![a, c; b, d] = 1 := by
    rw [Matrix.mul_fin_two, Matrix.one_fin_two]
    rw [h00, h01, h11, show c * a + d * b = a * c + b * d by ring, h01]
  have hm' := mul_eq_one_comm.1 hm
  rw [Matrix.mul_fin_two, Matrix.one_fin_two] at hm'
  have := congrFun (congrFun hm' 0) 0
  have h2 := congrFun (congrFun hm' 0) 1
  have h3 := congrFun (congrFun hm' 1) 1
  simp at this h2 h3
  exact ⟨this, h3, h2⟩

/-- Completeness of an orthonormal basis (3D). -/
theorem complete3 {a b c d e f g i j : ℝ} (h : Orthonormal [[a, b, c], [d, e, f], [g, i, j]]) :
    a * a + d * d + g * g = 1 ∧ b * b + e * e + i * i = 1 ∧ c * c + f * f + j * j = 1 ∧
    a * b + d * e + g * i = 0 ∧ a * c + d * f + g * j = 0 ∧ b * c + e * f + i * j = 0 := by
  have h00 := h 0 (by simp) 0 (by simp)
  have h01 := h 0 (by simp) 1 (by simp)
  have h02 := h 0 (by simp) 2 (by simp)
  have h11 := h 1 (by simp) 1 (by simp)
  have h12 := h 1 (by simp) 2 (by simp)
  have h22 := h 2 (by simp) 2 (by simp)
  simp only [List.getElem_cons_zero, List.getElem_cons_succ, dot3, if_true, show ¬ (0 = 1) by decide,
    show ¬ (0 = 2) by decide, show ¬ (1 = 2) by decide, if_false] at *
  have hm : (!![a, b, c; d, e, f; g, i, j] : Matrix (Fin 3) (Fin 3) ℝ) * !![a, d, g; b, e, i; c, f, j] = 1 := by
    rw [Matrix.mul_fin_three, Matrix.one_fin_three]
    rw [h00, h01, h11, h02, h12, h22, show d * a + e * b + f * c = a * d + b * e + c * f by ring, h01,
      show g * a + i * b + j * c = a * g + b * i + c * j by ring, h02,
      show g * d + i * e + j * f = d * g + e * i + f * j by ring, h12]
  have hm' := mul_eq_one_comm.1 hm
  rw [Matrix.mul_fin_three, Matrix.one_fin_three] at hm'
  have e00 := congrFun (congrFun hm' 0) 0
  have e01 := congrFun (congrFun hm' 0) 1
  have e02 := congrFun (congrFun hm' 0) 2
  have e11 := congrFun (congrFun hm' 1) 1
  have e12 := congrFun (congrFun hm' 1) 2
  have e22 := congrFun (congrFun hm' 2) 2
  simp at e00 e01 e02 e11 e12 e22
  exact ⟨e00, e11, e22, e01, e02, e12⟩

/-- **C44**, ellipses and ellipsoids: for an orthonormal frame and semi-axes other than zero, every point has
coordinates `u` in the frame scaled by the semi-axes, and the function is `|u|^2 - 1`: negative exactly inside the
ellipsoid (the image of the unit ball), positive outside. -/
theorem C44_ellipsoid_sign (dim : Nat) (hd : dim = 2 ∨ dim = 3) (semi o : List ℝ) (basis : List (List ℝ))
    (hs : semi.length = dim) (ho : o.length = dim) (hb : basis.length = dim) (hv : ∀ v ∈ basis, v.length = dim)
    (hon : Orthonormal basis) (hs0 : ∀ s ∈ semi, s ≠ 0) :
    (∀ p : List ℝ, p.length = dim → ∃ u, u.length = dim ∧ p = framePoint o semi basis u) ∧
    ∀ u, u.length = dim → (ellipsoid dim semi o basis).eval (framePoint o semi basis u) = dot u u - 1 := by
  rcases hd with rfl | rfl
  · obtain ⟨a, b, rfl⟩ := len2 ho
    obtain ⟨s0, s1, rfl⟩ := len2 hs
    obtain ⟨v0, v1, rfl⟩ := len2 hb
    obtain ⟨e00, e01, rfl⟩ := len2 (hv v0 (by simp))
    obtain ⟨e10, e11, rfl⟩ := len2 (hv v1 (by simp))
    have n0 : s0 ≠ 0 := hs0 _ (by simp)
    have n1 : s1 ≠ 0 := hs0 _ (by simp)
    have hc := complete2 hon
    have h00 := hon 0 (by simp) 0 (by simp)
    have h01 := hon 0 (by simp) 1 (by simp)
    have h11 := hon 1 (by simp) 1 (by simp)
    simp only [List.getElem_cons_zero, List.getElem_cons_succ, dot2, if_true, show ¬ (0 = 1) by decide, if_false] at h00 h01 h11
    constructor
    · intro p hp
      obtain ⟨x, y, rfl⟩ := len2 hp
      refine ⟨[(e00 * (x - a) + e01 * (y - b)) / s0, (e10 * (x - a) + e11 * (y - b)) / s1], rfl, ?_⟩
      simp [framePoint, List.range_succ]
      field_simp
      constructor
      · linear_combination (-(x - a)) * hc.1 - (y - b) * hc.2.2
      · linear_combination (-(y - b)) * hc.2.1 - (x - a) * hc.2.2
    · intro u hu
      obtain ⟨u0, u1, rfl⟩ := len2 hu
      simp [framePoint, ellipsoid, List.range_succ, dotp, vsub, dot, vat]
      rw [show e00 * (s0 * u0 * e00 + s1 * u1 * e10) + e01 * (s0 * u0 * e01 + s1 * u1 * e11) = s0 * u0 by
          linear_combination (s0 * u0) * h00 + (s1 * u1) * h01,
        show e10 * (s0 * u0 * e00 + s1 * u1 * e10) + e11 * (s0 * u0 * e01 + s1 * u1 * e11) = s1 * u1 by
          linear_combination (s1 * u1) * h11 + (s0 * u0) * h01]
      field_simp
      ring
  · obtain ⟨a, b, c, rfl⟩ := len3 ho
    obtain ⟨s0, s1, s2, rfl⟩ := len3 hs
    obtain ⟨v0, v1, v2, rfl⟩ := len3 hb
    obtain ⟨e00, e01, e02, rfl⟩ := len3 (hv v0 (by simp))
    obtain ⟨e10, e11, e12, rfl⟩ := len3 (hv v1 (by simp))
    obtain ⟨e20, e21, e22, rfl⟩ := len3 (hv v2 (by simp))
    have n0 : s0 ≠ 0 := hs0 _ (by simp)
    have n1 : s1 ≠ 0 := hs0 _ (by simp)
    have n2 : s2 ≠ 0 := hs0 _ (by simp)
    obtain ⟨c00, c11, c22, c01, c02, c12⟩ := complete3 hon
    have h00 := hon 0 (by simp) 0 (by simp)
    have h01 := hon 0 (by simp) 1 (by simp)
    have h02 := hon 0 (by simp) 2 (by simp)
    have h11 := hon 1 (by simp) 1 (by simp)
    have h12 := hon 1 (by simp) 2 (by simp)
    have h22 := hon 2 (by simp) 2 (by simp)
    simp only [List.getElem_cons_zero, List.getElem_cons_succ, dot3, if_true, show ¬ (0 = 1) by decide,
      show ¬ (0 = 2) by decide, show ¬ (1 = 2) by decide, if_false] at h00 h01 h02 h11 h12 h22
    constructor
    · intro p hp
      obtain ⟨x, y, z, rfl⟩ := len3 hp
      refine ⟨[(e00 * (x - a) + e01 * (y - b) + e02 * (z - c)) / s0, (e10 * (x - a) + e11 * (y - b) + e12 * (z - c)) / s1,
        (e20 * (x - a) + e21 * (y - b) + e22 * (z - c)) / s2], rfl, ?_⟩
      simp [framePoint, List.range_succ]
      field_simp
      refine ⟨?_, ?_, ?_⟩
      · linear_combination (-(x - a)) * c00 - (y - b) * c01 - (z - c) * c02
      · linear_combination (-(y - b)) * c11 - (x - a) * c01 - (z - c) * c12
      · linear_combination (-(z - c)) * c22 - (x - a) * c02 - (y - b) * c12
    · intro u hu
      obtain ⟨u0, u1, u2, rfl⟩ := len3 hu
      simp only [framePoint, ellipsoid, List.range_succ, dotp, vsub, dot, vat, List.length_cons, List.length_nil,
        List.range_zero, List.nil_append, List.cons_append, List.map_cons, List.map_nil, List.getD_cons_zero,
        List.getD_cons_succ, List.sum_cons, List.sum_nil, List.zipWith_cons_cons, List.zipWith_nil_left,
        List.foldl_cons, List.foldl_nil]
      have k0 : ∀ s, s = s0 * u0 → s / s0 = u0 := fun s h => by rw [h]; field_simp
      have k1 : ∀ s, s = s1 * u1 → s / s1 = u1 := fun s h => by rw [h]; field_simp
      have k2 : ∀ s, s = s2 * u2 → s / s2 = u2 := fun s h => by rw [h]; field_simp
      rw [k0, k1, k2]
      · ring
      · linear_combination (s0 * u0) * h02 + (s1 * u1) * h12 + (s2 * u2) * h22
      · linear_combination (s0 * u0) * h01 + (s1 * u1) * h11 + (s2 * u2) * h12
      · linear_combination (s0 * u0) * h00 + (s1 * u1) * h01 + (s2 * u2) * h02

/-- The hypotheses are met: a rotated orthonormal frame, a unit axis. -/
example : Orthonormal [[3 / 5, 4 / 5], [-4 / 5, (3 : ℝ) / 5]] ∧ dot [2 / 3, 2 / 3, (1 : ℝ) / 3] [2 / 3, 2 / 3, 1 / 3] = 1 := by
  constructor
  · apply orthonormal2 <;> norm_num [dot2]
  · norm_num [dot3]

end Qugar.Prim
