import Verif.Props.Affine
import Mathlib.Algebra.BigOperators.Group.Finset.Basic
import Mathlib.Algebra.Order.BigOperators.Group.Finset
import Mathlib.Data.Real.Sqrt
/-
Property theorems C28 (reference systems).
-/
namespace Qugar
open Spec
variable {K : Type} [Field K] [LinearOrder K] [IsStrictOrderedRing K]

omit [LinearOrder K] [IsStrictOrderedRing K] in
theorem dot3 (a b c d e f : K) : dot [a, b, c] [d, e, f] = a * d + b * e + c * f := by
  simp [dot]; ring
omit [LinearOrder K] [IsStrictOrderedRing K] in
theorem dot2 (a b d e : K) : dot [a, b] [d, e] = a * d + b * e := by
  simp [dot]

omit [LinearOrder K] [IsStrictOrderedRing K] in
theorem orthonormal3 {x y z : List K} (hxx : dot x x = 1) (hyy : dot y y = 1) (hzz : dot z z = 1)
    (hxy : dot x y = 0) (hyx : dot y x = 0) (hxz : dot x z = 0) (hzx : dot z x = 0) (hyz : dot y z = 0)
    (hzy : dot z y = 0) : Orthonormal [x, y, z] := by
  intro i hi j hj
  match i, hi, j, hj with
  | 0, _, 0, _ => simpa using hxx
  | 0, _, 1, _ => simpa using hxy
  | 0, _, 2, _ => simpa using hxz
  | 1, _, 0, _ => simpa using hyx
  | 1, _, 1, _ => simpa using hyy
  | 1, _, 2, _ => simpa using hyz
  | 2, _, 0, _ => simpa using hzx
  | 2, _, 1, _ => simpa using hzy
  | 2, _, 2, _ => simpa using hzz
  | n + 3, h, _, _ => exact absurd h (by simp)
  | _, _, n + 3, h => exact absurd h (by simp)

omit [LinearOrder K] [IsStrictOrderedRing K] in
theorem orthonormal2 {x y : List K} (hxx : dot x x = 1) (hyy : dot y y = 1)
    (hxy : dot x y = 0) (hyx : dot y x = 0) : Orthonormal [x, y] := by
  intro i hi j hj
  match i, hi, j, hj with
  | 0, _, 0, _ => simpa using hxx
  | 0, _, 1, _ => simpa using hxy
  | 1, _, 0, _ => simpa using hyx
  | 1, _, 1, _ => simpa using hyy
  | n + 2, h, _, _ => exact absurd h (by simp)
  | _, _, n + 2, h => exact absurd h (by simp)

omit [LinearOrder K] [IsStrictOrderedRing K] in
/-- Two orthogonal unit vectors `z`, `x` are completed by `z × x` to a right-handed frame. -/
theorem frame_zx {x z : List K} (hx : x.length = 3) (hz : z.length = 3) (hxx : dot x x = 1) (hzz : dot z z = 1)
    (hxz : dot x z = 0) : Orthonormal [x, crossProduct z x, z] ∧ triple x (crossProduct z x) z = 1 := by
  obtain ⟨a, b, c, rfl⟩ := len3 hx
  obtain ⟨d, e, f, rfl⟩ := len3 hz
  simp only [dot3] at *
  simp only [crossProduct, vat, List.getD_cons_zero, List.getD_cons_succ, triple]
  constructor
  · apply orthonormal3 <;> simp only [dot3]
    · exact hxx
    · linear_combination (a * a + b * b + c * c) * hzz + hxx - (a * d + b * e + c * f) * hxz
    · exact hzz
    · ring
    · ring
    · exact hxz
    · linear_combination hxz
    · ring
    · ring
  · linear_combination (a * a + b * b + c * c) * hzz + hxx - (a * d + b * e + c * f) * hxz

omit [LinearOrder K] [IsStrictOrderedRing K] in
/-- Two orthogonal unit vectors `y`, `z` are completed by `y × z` to a right-handed frame. -/
theorem frame_yz {y z : List K} (hy : y.length = 3) (hz : z.length = 3) (hyy : dot y y = 1) (hzz : dot z z = 1)
    (hyz : dot y z = 0) : Orthonormal [crossProduct y z, y, z] ∧ triple (crossProduct y z) y z = 1 := by
  obtain ⟨a, b, c, rfl⟩ := len3 hy
  obtain ⟨d, e, f, rfl⟩ := len3 hz
  simp only [dot3] at *
  simp only [crossProduct, vat, List.getD_cons_zero, List.getD_cons_succ, triple]
  constructor
  · apply orthonormal3 <;> simp only [dot3]
    · linear_combination (a * a + b * b + c * c) * hzz + hyy - (a * d + b * e + c * f) * hyz
    · exact hyy
    · exact hzz
    · ring
    · ring
    · ring
    · ring
    · exact hyz
    · linear_combination hyz
  · linear_combination (a * a + b * b + c * c) * hzz + hyy - (a * d + b * e + c * f) * hyz

/-- The vector along `v` of length one. -/
def Spec.IsUnitAlong (u v : List K) : Prop := dot u u = 1 ∧ ∃ s, 0 < s ∧ u = v.map (s * ·)

theorem dot_map (s : K) (v : List K) : dot (v.map (s * ·)) (v.map (s * ·)) = s * s * dot v v := by
  induction v with
  | nil => simp [dot]
  | cons a l ih => simp only [dot, List.map_cons, List.zipWith_cons_cons, List.sum_cons] at ih ⊢; rw [ih]; ring

theorem unit_mul {norm : List K → K} (hn : EuclideanNorm norm) {v : List K} (h : 0 < norm v) :
    IsUnitAlong (v.map fun a => (1 / norm v) * a) v := by
  refine ⟨?_, 1 / norm v, by positivity, rfl⟩
  rw [dot_map, ← (hn v).2]
  field_simp

theorem unit_div {norm : List K → K} (hn : EuclideanNorm norm) {v : List K} (h : 0 < norm v) :
    IsUnitAlong (v.map (· / norm v)) v := by
  have : v.map (· / norm v) = v.map fun a => (1 / norm v) * a :=
    List.map_congr_left fun a _ => by rw [one_div, div_eq_mul_inv, mul_comm]
  rw [this]
  exact unit_mul hn h

theorem norm_pos {norm : List K → K} (hn : EuclideanNorm norm) {v : List K} (h : dot v v ≠ 0) : 0 < norm v := by
  rcases (hn v).1.lt_or_eq with h' | h'
  · exact h'
  · exact absurd (by rw [← (hn v).2, ← h', zero_mul]) h

/-- The sum of squares, for any lists: the norm is positive for a vector that is not zero. -/
theorem dot_self_pos {v : List K} (h : ∃ a ∈ v, a ≠ 0) : 0 < dot v v := by
  have nonneg : ∀ v : List K, 0 ≤ dot v v := by
    intro v
    induction v with
    | nil => simp [dot]
    | cons a l ih =>
      simp only [dot, List.zipWith_cons_cons, List.sum_cons] at ih ⊢
      nlinarith [mul_self_nonneg a]
  induction v with
  | nil => simp at h
  | cons a l ih =>
    simp only [dot, List.zipWith_cons_cons, List.sum_cons]
    obtain ⟨b, hb, hb0⟩ := h
    rcases List.mem_cons.1 hb with rfl | hb
    · have := nonneg l
      have h2 := mul_self_pos.2 hb0
      simp only [dot] at this
      linarith
    · have := ih ⟨b, hb, hb0⟩
      have h2 := mul_self_nonneg a
      simp only [dot] at this
      linarith

/-- **C28**, two axes: for axes that are not parallel the reference system exists, is orthonormal and right-handed, its
first vector is along the first axis, and its second vector is in the plane of the axes, on the side of the second
axis. Otherwise the assertion stops the program. -/
theorem C28_two_axes (norm : List K → K) (hn : EuclideanNorm norm) (ax ay : List K) (hx : ax.length = 3)
    (hy : ay.length = 3) (hind : ∃ a ∈ crossProduct ax ay, a ≠ 0) :
    ∃ x y z, RefSystem.ofXY norm ax ay = some [x, y, z] ∧ Orthonormal [x, y, z] ∧ triple x y z = 1 ∧
      IsUnitAlong x ax ∧ IsUnitAlong z (crossProduct ax ay) ∧ dot z ay = 0 ∧ 0 < dot y ay := by
  have hax : ∃ a ∈ ax, a ≠ 0 := by
    by_contra hc
    push Not at hc
    obtain ⟨a, b, c, rfl⟩ := len3 hx
    simp only [List.mem_cons, List.not_mem_nil, or_false, forall_eq_or_imp, forall_eq] at hc
    obtain ⟨u, hu, hu0⟩ := hind
    simp only [crossProduct, vat, List.getD_cons_zero, List.getD_cons_succ, hc.1, hc.2.1, hc.2.2, zero_mul, sub_self,
      List.mem_cons, List.not_mem_nil, or_false] at hu
    rcases hu with h | h | h <;> exact hu0 h
  have hN := norm_pos hn (dot_self_pos hax).ne'
  have hux := unit_mul hn hN
  unfold RefSystem.ofXY
  dsimp only
  generalize hN' : norm ax = N at *
  have hN0 := hN.ne'
  have hcr : crossProduct (ax.map fun a => (1 / N) * a) ay = (crossProduct ax ay).map fun a => (1 / N) * a := by
    obtain ⟨a, b, c, rfl⟩ := len3 hx
    obtain ⟨d, e, f, rfl⟩ := len3 hy
    simp only [crossProduct, vat, List.map_cons, List.map_nil, List.getD_cons_zero, List.getD_cons_succ]
    refine congr3 ?_ ?_ ?_ <;> ring
  have hz0 : ∃ a ∈ crossProduct (ax.map fun a => (1 / N) * a) ay, a ≠ 0 := by
    rw [hcr]
    obtain ⟨u, hu, hu0⟩ := hind
    exact ⟨_, List.mem_map_of_mem hu, mul_ne_zero (by positivity) hu0⟩
  have hM := norm_pos hn (dot_self_pos hz0).ne'
  have huz := unit_mul hn hM
  generalize hM' : norm (crossProduct (ax.map fun a => (1 / N) * a) ay) = M at *
  rw [if_pos hM]
  have hzz : dot (crossProduct (ax.map fun a => (1 / N) * a) ay) (crossProduct (ax.map fun a => (1 / N) * a) ay)
      = M * M := by rw [← hM', (hn _).2]
  generalize hX : (ax.map fun a => (1 / N) * a) = X at *
  have hXl : X.length = 3 := by rw [← hX]; simpa using hx
  obtain ⟨a, b, c, rfl⟩ := len3 hXl
  obtain ⟨d, e, f, rfl⟩ := len3 hy
  have hMi : 0 < 1 / M := by positivity
  have hMM : M * (1 / M) = 1 := by field_simp
  have horth : dot [a, b, c] ((crossProduct [a, b, c] [d, e, f]).map fun t => (1 / M) * t) = 0 := by
    simp only [crossProduct, vat, List.map_cons, List.map_nil, List.getD_cons_zero, List.getD_cons_succ, dot3]
    ring
  have hfr := frame_zx (x := [a, b, c]) rfl (by simp [crossProduct]) hux.1 huz.1 horth
  refine ⟨_, _, _, rfl, hfr.1, hfr.2, hux, ⟨huz.1, ?_⟩, ?_, ?_⟩
  · refine ⟨1 / M * (1 / N), mul_pos hMi (by positivity), ?_⟩
    rw [hcr, List.map_map]
    refine List.map_congr_left fun t _ => ?_
    simp only [Function.comp]
    ring
  · simp only [crossProduct, vat, List.map_cons, List.map_nil, List.getD_cons_zero, List.getD_cons_succ, dot3]
    ring
  · have : dot (crossProduct ((crossProduct [a, b, c] [d, e, f]).map fun t => (1 / M) * t) [a, b, c]) [d, e, f] = M := by
      simp only [crossProduct, vat, List.map_cons, List.map_nil, List.getD_cons_zero, List.getD_cons_succ, dot3] at hzz ⊢
      linear_combination (1 / M) * hzz + M * hMM
    rw [this]
    exact hM

/-- **C28**, two axes: parallel axes are rejected. -/
theorem C28_parallel_axes_rejected (norm : List K → K) (hn : EuclideanNorm norm) (ax ay : List K) (hx : ax.length = 3)
    (hy : ay.length = 3) (hpar : crossProduct ax ay = [0, 0, 0]) : RefSystem.ofXY norm ax ay = none := by
  unfold RefSystem.ofXY
  dsimp only
  have hcr : crossProduct (ax.map fun a => (1 / norm ax) * a) ay = [0, 0, 0] := by
    have : crossProduct (ax.map fun a => (1 / norm ax) * a) ay
        = (crossProduct ax ay).map fun a => (1 / norm ax) * a := by
      obtain ⟨a, b, c, rfl⟩ := len3 hx
      obtain ⟨d, e, f, rfl⟩ := len3 hy
      simp only [crossProduct, vat, List.map_cons, List.map_nil, List.getD_cons_zero, List.getD_cons_succ]
      refine congr3 ?_ ?_ ?_ <;> ring
    rw [this, hpar]
    simp
  rw [hcr, if_neg]
  have := (hn [0, 0, 0]).2
  rw [dot3] at this
  have h0 : norm [0, 0, 0] = 0 := by
    apply mul_self_eq_zero.1
    rw [this]
    ring
  rw [h0]
  exact lt_irrefl _

/-- **C28**, one axis in 1D and 2D: the basis is orthonormal, its first vector is along the axis, and the second one is
the first rotated by a right angle counter-clockwise. -/
theorem C28_one_axis (norm : List K → K) (hn : EuclideanNorm norm) (ax : List K) (h0 : ∃ a ∈ ax, a ≠ 0) :
    (ax.length = 1 → ∃ x, RefSystem.ofAxis1 norm ax = [x] ∧ Orthonormal [x] ∧ IsUnitAlong x ax) ∧
    (ax.length = 2 → ∃ a b, RefSystem.ofAxis2 norm ax = [[a, b], [-b, a]] ∧ Orthonormal [[a, b], [-b, a]] ∧
      IsUnitAlong [a, b] ax) := by
  have hu := unit_mul hn (norm_pos hn (dot_self_pos h0).ne')
  constructor
  · intro _
    refine ⟨_, rfl, ?_, hu⟩
    intro i hi j hj
    match i, hi, j, hj with
    | 0, _, 0, _ => simpa using hu.1
    | n + 1, h, _, _ => exact absurd h (by simp)
    | _, _, n + 1, h => exact absurd h (by simp)
  · intro hl
    unfold RefSystem.ofAxis2
    dsimp only
    generalize hX : (ax.map fun a => (1 / norm ax) * a) = X at *
    have hXl : X.length = 2 := by rw [← hX]; simpa using hl
    obtain ⟨a, b, rfl⟩ := len2 hXl
    refine ⟨a, b, rfl, ?_, hu⟩
    have h1 := hu.1
    rw [dot2] at h1
    apply orthonormal2 <;> rw [dot2]
    · exact h1
    · linear_combination h1
    · ring
    · ring

/-- **C28**, one axis in 3D: for every axis longer than the tolerance the basis is orthonormal and right-handed and its
third vector is along the axis; shorter axes are rejected. -/
theorem C28_one_axis_3D (norm : List K → K) (hn : EuclideanNorm norm) (eps tol : K) (ht0 : 0 ≤ tol) (ht1 : tol < 1)
    (ax : List K) (hl : ax.length = 3) :
    (norm ax ≤ eps → RefSystem.ofAxis3 norm eps tol ax = none) ∧
    (0 ≤ eps → eps < norm ax → ∃ x y z, RefSystem.ofAxis3 norm eps tol ax = some [x, y, z] ∧ Orthonormal [x, y, z] ∧
      triple x y z = 1 ∧ IsUnitAlong z ax) := by
  constructor
  · intro h
    have : Tol.isZero eps (norm ax) = true := by
      simp only [Tol.isZero, Tol.equal, sub_zero, decide_eq_true_eq]
      rw [abs_of_nonneg (hn ax).1]
      exact h
    simp [RefSystem.ofAxis3, this]
  · intro he h
    have hN : 0 < norm ax := lt_of_le_of_lt he h
    have hz : Tol.isZero eps (norm ax) = false := by
      simp only [Tol.isZero, Tol.equal, sub_zero, decide_eq_false_iff_not, not_le]
      rw [abs_of_nonneg (hn ax).1]
      exact h
    have hu := unit_mul hn hN
    unfold RefSystem.ofAxis3
    rw [hz, if_neg (by simp)]
    dsimp only
    generalize hZ : (ax.map fun a => (1 / norm ax) * a) = Z at *
    have hZl : Z.length = 3 := by rw [← hZ]; simpa using hl
    obtain ⟨a, b, c, rfl⟩ := len3 hZl
    have hy : crossProduct [a, b, c] [1, 0, 0] = [0, c, -b] := by
      simp [crossProduct, vat]
    have hx : crossProduct [0, 1, 0] [a, b, c] = [c, 0, -a] := by
      simp [crossProduct, vat]
    have hzz := hu.1
    rw [dot3] at hzz
    rw [hy, hx]
    by_cases hcase : tol < norm [0, c, -b]
    · rw [if_pos hcase]
      have huy := unit_mul hn (lt_of_le_of_lt ht0 hcase)
      have hor : dot ([0, c, -b].map fun t => (1 / norm [0, c, -b]) * t) [a, b, c] = 0 := by
        simp only [List.map_cons, List.map_nil, dot3]
        ring
      have hfr := frame_yz (z := [a, b, c]) (by simp) rfl huy.1 hu.1 hor
      exact ⟨_, _, _, rfl, hfr.1, hfr.2, hu⟩
    · rw [if_neg hcase]
      have hle := not_lt.1 hcase
      have hsq := (hn [0, c, -b]).2
      rw [dot3] at hsq
      have hle2 : norm [0, c, -b] * norm [0, c, -b] < 1 := by
        have h0 := (hn [0, c, -b]).1
        nlinarith
      have ha : 0 < a * a := by nlinarith
      have ha0 : a ≠ 0 := by
        intro h
        rw [h] at ha
        simp at ha
      have hux := unit_mul hn (v := [c, 0, -a])
        (norm_pos hn (dot_self_pos ⟨-a, by simp, neg_ne_zero.2 ha0⟩).ne')
      have hor : dot ([c, 0, -a].map fun t => (1 / norm [c, 0, -a]) * t) [a, b, c] = 0 := by
        simp only [List.map_cons, List.map_nil, dot3]
        ring
      have hfr := frame_zx (z := [a, b, c]) (by simp) rfl hux.1 hu.1 hor
      exact ⟨_, _, _, rfl, hfr.1, hfr.2, hu⟩


/-- **C28**, `create_reference_system_around_axis`: for axes that are not too close to the first coordinate axis (the
sine of the angle is over the constant), the two vectors returned complete the axis to a right-handed orthonormal
basis. -/
theorem C28_around_axis_partial (norm : List K → K) (hn : EuclideanNorm norm) (eps tol : K) (he : 0 ≤ eps)
    (ht0 : 0 ≤ tol) (a b c : K) (h : eps < norm [a, b, c])
    (hfar : tol * tol * dot [a, b, c] [a, b, c] < b * b + c * c) :
    ∃ x y z, refSystemAroundAxis norm eps tol [a, b, c] = some (x, y) ∧ IsUnitAlong z [a, b, c] ∧
      Orthonormal [x, y, z] ∧ triple x y z = 1 := by
  have hN : 0 < norm [a, b, c] := lt_of_le_of_lt he h
  have hz : Tol.isZero eps (norm [a, b, c]) = false := by
    simp only [Tol.isZero, Tol.equal, sub_zero, decide_eq_false_iff_not, not_le]
    rw [abs_of_nonneg (hn _).1]
    exact h
  have hu := unit_div hn hN
  unfold refSystemAroundAxis
  rw [hz, if_neg (by simp)]
  dsimp only
  have hsq := (hn [a, b, c]).2
  rw [← hsq] at hfar
  generalize norm [a, b, c] = N at *
  have hy : crossProduct ([a, b, c].map (· / N)) [1, 0, 0] = [0, c / N, -(b / N)] := by
    simp [crossProduct, vat]
  rw [hy]
  have hcase : tol < norm [0, c / N, -(b / N)] := by
    have h2 := (hn [0, c / N, -(b / N)]).2
    rw [dot3] at h2
    have h3 : norm [0, c / N, -(b / N)] * norm [0, c / N, -(b / N)] * (N * N) = b * b + c * c := by
      rw [h2]
      field_simp
      ring
    by_contra hc
    have hc := not_lt.1 hc
    have h0 := (hn [0, c / N, -(b / N)]).1
    have : norm [0, c / N, -(b / N)] * norm [0, c / N, -(b / N)] ≤ tol * tol := mul_le_mul hc hc h0 ht0
    have hNN : 0 < N * N := mul_pos hN hN
    nlinarith
  rw [if_pos hcase]
  have huy := unit_div hn (lt_of_le_of_lt ht0 hcase)
  have hor : dot ([0, c / N, -(b / N)].map (· / norm [0, c / N, -(b / N)])) ([a, b, c].map (· / N)) = 0 := by
    simp only [List.map_cons, List.map_nil, dot3]
    ring
  have hfr := frame_yz (by simp) (by simp) huy.1 hu.1 hor
  exact ⟨_, _, _, rfl, hu, hfr.1, hfr.2⟩

/-- **C28**, negated: for the axes close to the first coordinate axis `create_reference_system_around_axis` returns a
second vector that is no unit vector (it is not longer than the constant): there the basis is never orthonormal. -/
theorem C28_around_axis_fails (norm : List K → K) (hn : EuclideanNorm norm) (eps tol : K) (he : 0 ≤ eps)
    (ht0 : 0 ≤ tol) (ht1 : tol < 1) (a b c : K) (h : eps < norm [a, b, c])
    (hnear : b * b + c * c ≤ tol * tol * dot [a, b, c] [a, b, c]) :
    ∃ x y, refSystemAroundAxis norm eps tol [a, b, c] = some (x, y) ∧ dot y y ≤ tol * tol ∧
      ¬ ∃ z, Orthonormal [x, y, z] := by
  have hN : 0 < norm [a, b, c] := lt_of_le_of_lt he h
  have hz : Tol.isZero eps (norm [a, b, c]) = false := by
    simp only [Tol.isZero, Tol.equal, sub_zero, decide_eq_false_iff_not, not_le]
    rw [abs_of_nonneg (hn _).1]
    exact h
  have hu := unit_div hn hN
  unfold refSystemAroundAxis
  rw [hz, if_neg (by simp)]
  dsimp only
  have hsq := (hn [a, b, c]).2
  rw [← hsq] at hnear
  have huu := hu.1
  simp only [List.map_cons, List.map_nil, dot3] at huu
  generalize norm [a, b, c] = N at *
  have hy : crossProduct ([a, b, c].map (· / N)) [1, 0, 0] = [0, c / N, -(b / N)] := by
    simp [crossProduct, vat]
  rw [hy]
  have h2 := (hn [0, c / N, -(b / N)]).2
  rw [dot3] at h2
  have hNN : 0 < N * N := mul_pos hN hN
  have h3 : norm [0, c / N, -(b / N)] * norm [0, c / N, -(b / N)] * (N * N) = b * b + c * c := by
    rw [h2]
    field_simp
    ring
  have hle : norm [0, c / N, -(b / N)] * norm [0, c / N, -(b / N)] ≤ tol * tol := by
    by_contra hc
    have hc := not_le.1 hc
    nlinarith
  have hcase : ¬ tol < norm [0, c / N, -(b / N)] := by
    intro hc
    nlinarith
  rw [if_neg hcase]
  have hyy : dot (crossProduct ([a, b, c].map (· / N)) [0, c / N, -(b / N)])
      (crossProduct ([a, b, c].map (· / N)) [0, c / N, -(b / N)]) ≤ tol * tol := by
    simp only [crossProduct, vat, List.map_cons, List.map_nil, List.getD_cons_zero, List.getD_cons_succ, dot3]
    rw [h2] at hle
    generalize a / N = p at *
    generalize b / N = q at *
    generalize c / N = r at *
    calc _ = (p * p + q * q + r * r) * (q * q + r * r) := by ring
      _ = 0 * 0 + r * r + -q * -q := by rw [huu]; ring
      _ ≤ _ := hle
  refine ⟨_, _, rfl, hyy, ?_⟩
  rintro ⟨z, hz⟩
  have := hz 1 (by simp) 1 (by simp)
  simp only [List.getElem_cons_succ, List.getElem_cons_zero, if_true] at this
  rw [this] at hyy
  nlinarith

/-- The Euclidean norm over the reals: the hypothesis of these theorems has a witness. -/
noncomputable def euclid (v : List ℝ) : ℝ := Real.sqrt (dot v v)

theorem euclid_is_norm : EuclideanNorm euclid := by
  intro v
  refine ⟨Real.sqrt_nonneg _, Real.mul_self_sqrt ?_⟩
  by_cases h : ∃ a ∈ v, a ≠ 0
  · exact (dot_self_pos h).le
  · push Not at h
    have : ∀ v : List ℝ, (∀ a ∈ v, a = 0) → dot v v = 0 := by
      intro v
      induction v with
      | nil => simp [dot]
      | cons a l ih =>
        intro h
        have h1 := ih fun b hb => h b (List.mem_cons_of_mem _ hb)
        have h2 := h a (List.mem_cons_self)
        simp only [dot, List.zipWith_cons_cons, List.sum_cons] at h1 ⊢
        rw [h1, h2]
        ring
    rw [this v h]

/-- Two axes that are neither orthogonal nor unit. -/
example : ∃ x y z, RefSystem.ofXY euclid [1, 2, 0] [0, 3, 5] = some [x, y, z] ∧ Orthonormal [x, y, z] ∧
    triple x y z = 1 ∧ 0 < dot y [0, 3, 5] := by
  obtain ⟨x, y, z, h, ho, ht, -, -, -, hy⟩ := C28_two_axes euclid euclid_is_norm [1, 2, 0] [0, 3, 5] rfl rfl
    ⟨10, by simp [crossProduct, vat]; norm_num, by norm_num⟩
  exact ⟨x, y, z, h, ho, ht, hy⟩

/-- The failure at the first coordinate axis itself: both branches' hypotheses are met by real axes. -/
example : (∃ x y, refSystemAroundAxis euclid 0 (1 / 10000) [1, 0, 0] = some (x, y) ∧ ¬ ∃ z, Orthonormal [x, y, z]) ∧
    ∃ x y z, refSystemAroundAxis euclid 0 (1 / 10000) [1, 1, 0] = some (x, y) ∧ Orthonormal [x, y, z] := by
  constructor
  · obtain ⟨x, y, h, -, hn⟩ := C28_around_axis_fails euclid euclid_is_norm 0 (1 / 10000) le_rfl (by norm_num)
      (by norm_num) 1 0 0 (norm_pos euclid_is_norm (by rw [dot3]; norm_num)) (by rw [dot3]; norm_num)
    exact ⟨x, y, h, hn⟩
  · obtain ⟨x, y, z, h, -, ho, -⟩ := C28_around_axis_partial euclid euclid_is_norm 0 (1 / 10000) le_rfl (by norm_num)
      1 1 0 (norm_pos euclid_is_norm (by rw [dot3]; norm_num)) (by rw [dot3]; norm_num)
    exact ⟨x, y, z, h, ho⟩

/-- **C28**, affine transformations from axes, 3D: a point is mapped to the origin plus its coordinates times the
scaled vectors of the right-handed orthonormal system of the axes; the determinant is the product of the scales. -/
theorem C28_affine_axes_3D (norm : List K → K) (hn : EuclideanNorm norm) (o ax ay : List K) (sx sy sz : K)
    (ho : o.length = 3) (hx : ax.length = 3) (hy : ay.length = 3) (h0 : 0 < sx ∧ 0 < sy ∧ 0 < sz)
    (hind : ∃ a ∈ crossProduct ax ay, a ≠ 0) :
    ∃ c x y z, Affine.ofAxes3 norm o ax ay sx sy sz = some c ∧ c.length = 12 ∧ Orthonormal [x, y, z] ∧
      triple x y z = 1 ∧ IsUnitAlong x ax ∧ dot z ay = 0 ∧ 0 < dot y ay ∧ Affine.det 3 c = sx * sy * sz ∧
      ∀ p : List K, p.length = 3 → ∀ i, i < 3 → (Affine.transformPoint 3 c p).getD i 0 =
        o.getD i 0 + sx * p.getD 0 0 * x.getD i 0 + sy * p.getD 1 0 * y.getD i 0 + sz * p.getD 2 0 * z.getD i 0 := by
  obtain ⟨x, y, z, h, hon, ht, hux, -, hzy, hyy⟩ := C28_two_axes norm hn ax ay hx hy hind
  have hsame : orthonormalXY norm ax ay = some (x, y, z) := by
    have hdiv : ∀ (v : List K) (n : K), v.map (· / n) = v.map fun a => (1 / n) * a := fun v n =>
      List.map_congr_left fun a _ => by rw [one_div, div_eq_mul_inv, mul_comm]
    have hax : 0 < norm ax := by
      apply norm_pos hn
      intro h0
      obtain ⟨s, hs, hx'⟩ := hux.2
      have h1 := hux.1
      rw [hx', dot_map, h0, mul_zero] at h1
      exact zero_ne_one h1
    unfold RefSystem.ofXY at h
    unfold orthonormalXY
    simp only [hdiv] at h ⊢
    rw [if_pos hax]
    split_ifs at h ⊢ with hc
    simp only [Option.some.injEq, List.cons.injEq, and_true] at h
    obtain ⟨h1, h2, h3⟩ := h
    rw [h1] at h2 h3
    rw [h1, h2, h3]
  have hx3 : x.length = 3 := by
    obtain ⟨s, -, hx'⟩ := hux.2
    rw [hx']
    simpa using hx
  have hlens : y.length = 3 ∧ z.length = 3 := by
    by_contra hc
    have : triple x y z = 0 := by
      obtain ⟨a, b, c, rfl⟩ := len3 hx3
      unfold triple
      split
      · rename_i h1 h2 h3
        simp at hc
      · rfl
    rw [this] at ht
    exact zero_ne_one ht
  obtain ⟨x0, x1, x2, rfl⟩ := len3 hx3
  obtain ⟨y0, y1, y2, rfl⟩ := len3 hlens.1
  obtain ⟨z0, z1, z2, rfl⟩ := len3 hlens.2
  obtain ⟨o0, o1, o2, rfl⟩ := len3 ho
  unfold Affine.ofAxes3
  rw [if_pos h0, hsame]
  refine ⟨_, _, _, _, rfl, by simp, hon, ht, hux, hzy, hyy, ?_, ?_⟩
  · simp only [triple] at ht
    simp only [Affine.det3_eq, vat, List.getD_cons_zero, List.getD_cons_succ]
    linear_combination sx * sy * sz * ht
  · intro p hp i hi
    obtain ⟨p0, p1, p2, rfl⟩ := len3 hp
    simp only [Affine.transformPoint, vat, show ¬ (3 = 2) by decide, if_false, List.getD_cons_zero,
      List.getD_cons_succ]
    match i, hi with
    | 0, _ => simp only [List.getD_cons_zero]; ring
    | 1, _ => simp only [List.getD_cons_zero, List.getD_cons_succ]; ring
    | 2, _ => simp only [List.getD_cons_zero, List.getD_cons_succ]; ring

/-- **C28**, affine transformations from an axis, 2D. -/
theorem C28_affine_axes_2D (norm : List K → K) (hn : EuclideanNorm norm) (o ax : List K) (sx sy : K)
    (ho : o.length = 2) (hx : ax.length = 2) (hs : 0 < sx ∧ 0 < sy) (hax : ∃ a ∈ ax, a ≠ 0) :
    ∃ c a b, Affine.ofAxes2 norm o ax sx sy = some c ∧ c.length = 6 ∧ Orthonormal [[a, b], [-b, a]] ∧
      IsUnitAlong [a, b] ax ∧ Affine.det 2 c = sx * sy ∧
      ∀ p : List K, p.length = 2 → Affine.transformPoint 2 c p =
        [o.getD 0 0 + sx * p.getD 0 0 * a + sy * p.getD 1 0 * (-b), o.getD 1 0 + sx * p.getD 0 0 * b + sy * p.getD 1 0 * a] := by
  have hN := norm_pos hn (dot_self_pos hax).ne'
  have hu := unit_div hn hN
  unfold Affine.ofAxes2
  rw [if_pos ⟨hs.1, hs.2, hN⟩]
  dsimp only
  generalize hX : ax.map (· / norm ax) = X at *
  have hXl : X.length = 2 := by rw [← hX]; simpa using hx
  obtain ⟨a, b, rfl⟩ := len2 hXl
  obtain ⟨o0, o1, rfl⟩ := len2 ho
  have h1 := hu.1
  rw [dot2] at h1
  refine ⟨_, a, b, rfl, by simp, ?_, hu, ?_, ?_⟩
  · apply orthonormal2 <;> rw [dot2]
    · exact h1
    · linear_combination h1
    · ring
    · ring
  · simp only [Affine.det, det2, vat, if_true, List.getD_cons_zero, List.getD_cons_succ]
    linear_combination sx * sy * h1
  · intro p hp
    obtain ⟨p0, p1, rfl⟩ := len2 hp
    simp only [Affine.transformPoint, vat, if_true, List.getD_cons_zero, List.getD_cons_succ]
    congr 1
    · ring
    · congr 1
      ring

omit [LinearOrder K] [IsStrictOrderedRing K] in
theorem dot_eq_sum (u v : List K) (h : u.length = v.length) :
    dot u v = ∑ i ∈ Finset.range u.length, u.getD i 0 * v.getD i 0 := by
  induction u generalizing v with
  | nil => simp [dot]
  | cons a l ih =>
    cases v with
    | nil => simp at h
    | cons b m =>
      have := ih m (by simpa using h)
      simp only [dot, List.zipWith_cons_cons, List.sum_cons, List.length_cons] at this ⊢
      rw [this, Finset.sum_range_succ', add_comm]
      simp

/-- **C28**, `is_Cartesian_oriented` on an orthonormal basis: if it holds, every entry of the basis differs from the one
of the Cartesian basis by at most `sqrt (2 eps)`; it holds whenever all entries agree up to `eps`, in particular for the
default reference systems. -/
theorem C28_cartesian_oriented (eps : K) (he : 0 ≤ eps) (dim : Nat) (basis : List (List K))
    (hl : basis.length = dim) (hv : ∀ v ∈ basis, v.length = dim) (ho : Orthonormal basis) :
    (RefSystem.isCartesianOriented eps basis = true → ∀ i, i < dim → ∀ j, j < dim →
      ((basis.getD i []).getD j 0 - if i = j then 1 else 0) ^ 2 ≤ 2 * eps) ∧
    ((∀ i, i < dim → ∀ j, j < dim → |(basis.getD i []).getD j 0 - if i = j then 1 else 0| ≤ eps) →
      RefSystem.isCartesianOriented eps basis = true) := by
  constructor
  · intro h i hi j hj
    simp only [RefSystem.isCartesianOriented, List.all_eq_true, List.mem_range, hl, Tol.equal, decide_eq_true_eq,
      vat] at h
    have h1 := ho i (hl ▸ hi) i (hl ▸ hi)
    rw [if_pos rfl, dot_eq_sum _ _ rfl, hv _ (List.getElem_mem _)] at h1
    have hget : basis.getD i [] = basis[i]'(hl ▸ hi) := by
      rw [List.getD_eq_getElem?_getD, List.getElem?_eq_getElem (hl ▸ hi)]; rfl
    have hii := of_decide_eq_true (h i hi)
    rw [hget] at hii ⊢
    have hle : ∀ s : Finset Nat, s ⊆ Finset.range dim →
        ∑ k ∈ s, (basis[i]'(hl ▸ hi)).getD k 0 * (basis[i]'(hl ▸ hi)).getD k 0 ≤ 1 := by
      intro s hs
      rw [← h1]
      exact Finset.sum_le_sum_of_subset_of_nonneg hs fun k _ _ => mul_self_nonneg _
    have hab := abs_le.1 hii
    by_cases hij : i = j
    · subst hij
      have h2 := hle {i} (by simpa using hi)
      rw [Finset.sum_singleton] at h2
      rw [if_pos rfl]
      nlinarith
    · rw [if_neg hij, sub_zero]
      have h2 := hle {i, j} (by intro k hk; simp at hk; rcases hk with rfl | rfl <;> simpa)
      rw [Finset.sum_pair hij] at h2
      nlinarith
  · intro h
    simp only [RefSystem.isCartesianOriented, List.all_eq_true, List.mem_range, hl, Tol.equal, decide_eq_true_eq, vat]
    intro i hi
    have := h i hi i hi
    rw [if_pos rfl] at this
    exact decide_eq_true this

/-- **C28**: the default reference systems are orthonormal and Cartesian oriented. -/
theorem C28_default_system (eps : K) (he : 0 ≤ eps) (dim : Nat) (hd : dim = 1 ∨ dim = 2 ∨ dim = 3) :
    Orthonormal (RefSystem.cartesian dim : List (List K)) ∧
    RefSystem.isCartesianOriented eps (RefSystem.cartesian dim : List (List K)) = true := by
  rcases hd with rfl | rfl | rfl
  · refine ⟨?_, by simp [RefSystem.isCartesianOriented, RefSystem.cartesian, vat, Tol.equal, he, List.range_succ]⟩
    intro i hi j hj
    match i, hi, j, hj with
    | 0, _, 0, _ => simp [RefSystem.cartesian, dot]
    | n + 1, h, _, _ => exact absurd h (by simp [RefSystem.cartesian])
    | _, _, n + 1, h => exact absurd h (by simp [RefSystem.cartesian])
  · refine ⟨?_, by simp [RefSystem.isCartesianOriented, RefSystem.cartesian, vat, Tol.equal, he, List.range_succ]⟩
    have : (RefSystem.cartesian 2 : List (List K)) = [[1, 0], [0, 1]] := by
      simp [RefSystem.cartesian, List.range_succ]
    rw [this]
    apply orthonormal2 <;> simp [dot]
  · refine ⟨?_, by simp [RefSystem.isCartesianOriented, RefSystem.cartesian, vat, Tol.equal, he, List.range_succ]⟩
    have : (RefSystem.cartesian 3 : List (List K)) = [[1, 0, 0], [0, 1, 0], [0, 0, 1]] := by
      simp [RefSystem.cartesian, List.range_succ]
    rw [this]
    apply orthonormal3 <;> simp [dot]

end Qugar
