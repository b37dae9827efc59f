import Verif.Props.PyImpl
/-
Property theorems C78: the factories of implicit functions of the Python layer, one by one.
-/
namespace Qugar.Py.Impl
open Spec Poly Prim

theorem zeros_length (n : Nat) : (zeros n).length = n := by simp [zeros]

/-! ### Ellipses and ellipsoids -/

/-- A reference system of dimension `n`: origin and basis of `n` coordinates. -/
def Sys.Ok (n : Nat) (s : Sys) : Prop :=
  s.dim = n ∧ s.origin.length = n ∧ s.basis.length = n ∧ ∀ v ∈ s.basis, v.length = n

/-- The function of the ellipse or ellipsoid: the sum of the squares of the coordinates in the reference system divided by the
semi-axes, minus one. -/
noncomputable def ellipsoidValue (n : Nat) (semi o : List ℝ) (basis : List (List ℝ)) (p : List ℝ) : ℝ :=
  ((List.range n).map fun i => (dot (basis.getD i []) (List.zipWith (· - ·) p o) / semi.getD i 0) ^ 2).sum - 1

theorem ellipsoid_value (n : Nat) (hn : n = 2 ∨ n = 3) (semi o : List ℝ) (basis : List (List ℝ)) (p : List ℝ) :
    (ellipsoid n semi o basis).eval p = ellipsoidValue n semi o basis p := by
  rcases hn with rfl | rfl
  · simp only [ellipsoid, ellipsoidValue, dotp_eq, vsub, vat]
    simp [List.range_succ]
    ring
  · simp only [ellipsoid, ellipsoidValue, dotp_eq, vsub, vat]
    simp [List.range_succ]
    ring

theorem ellipsoidOf_spec (E : Env) {dim : Nat} (hd : dim = 2 ∨ dim = 3) {semi o : List ℝ} {basis : List (List ℝ)}
    (hs : semi.length = dim) (hpos : ∀ s ∈ semi, 0 < s) (ho : o.length = dim) (hb : basis.length = dim)
    (hv : ∀ v ∈ basis, v.length = dim) (b : Bool) :
    ∃ f, ellipsoidOf E dim semi o basis b = .ok f ∧ Computes f dim (ellipsoidValue dim semi o basis) := by
  unfold ellipsoidOf
  rw [cppAssert_pos hpos]
  exact computes_either hd (by simp) (rep_pos _ _ (by omega)) (shape_ellipsoid dim semi o basis) b _
    (fun p hp => C45_ellipsoid dim hd semi o p basis hs ho hp hb hv) (fun p _ => ellipsoid_value dim hd semi o basis p)
    (fun p hp => (C44_ellipsoid dim hd semi o basis hs ho hb hv p hp).1)

theorem cartesian_ok (n : Nat) (hn : n = 2 ∨ n = 3) : (RefSystem.cartesian (K := ℝ) n).length = n ∧
    ∀ v ∈ RefSystem.cartesian (K := ℝ) n, v.length = n := by
  rcases hn with rfl | rfl <;> simp [RefSystem.cartesian, List.range_succ]

/-- The reference system used: the given one, or the Cartesian axes at the origin. -/
noncomputable def sysOr (n : Nat) (sys : Option Sys) : Sys := sys.getD
  ⟨n, List.replicate n 0, (List.range n).map fun i => (List.range n).map fun j => if i = j then 1 else 0⟩

/-- **C78**, `create_ellipse` and `create_ellipsoid`: with as many positive semi-axes as dimensions and a reference system of that
dimension (or none) they give the function `sum_i ((b_i . (p - o)) / s_i)^2 - 1`, in both representations; without reference system it
is `sum_i (p_i / s_i)^2 - 1`. Wrong numbers of semi-axes raise an AssertionError, reference systems of other dimensions a TypeError. -/
theorem C78_ellipses (E : Env) (semi : NdArr) (sys : Option Sys) (bzr : Bool)
    (mk : Env → NdArr → Option Sys → Bool → Except Err CppFunc) (n : Nat)
    (hmk : (mk = createEllipse ∧ n = 2) ∨ (mk = createEllipsoid ∧ n = 3)) :
    (IsVec n semi → (∀ s ∈ semi.data, 0 < s) → (∀ s, sys = some s → s.Ok n) →
      (∃ f, mk E semi sys bzr = .ok f ∧
        Computes f n (ellipsoidValue n semi.data (sysOr n sys).origin (sysOr n sys).basis)) ∧
      (sys = none → ∃ f, mk E semi sys bzr = .ok f ∧
        Computes f n fun p => ((List.range n).map fun i => (p.getD i 0 / semi.data.getD i 0) ^ 2).sum - 1)) ∧
    (semi.size ≠ n → mk E semi sys bzr = .error .assertion) ∧
    (IsVec n semi → (∀ s ∈ semi.data, 0 < s) → (∀ s, sys = some s → s.dim ≠ n → mk E semi sys bzr = .error .type)) := by
  have hn : n = 2 ∨ n = 3 := by rcases hmk with ⟨-, h⟩ | ⟨-, h⟩ <;> omega
  have key : IsVec n semi → (∀ s ∈ semi.data, 0 < s) →
      mk E semi sys bzr = match sys with
        | none => ellipsoidOf E n semi.data (zeros n) (RefSystem.cartesian n) bzr
        | some s => if s.dim = n then ellipsoidOf E n semi.data s.origin s.basis bzr else .error .type := by
    intro hv hpos
    rcases hmk with ⟨rfl, rfl⟩ | ⟨rfl, rfl⟩
    · unfold createEllipse
      rw [check_pos hv.size, check_pos hpos]
      cases sys with
      | none => simp only [call_ellipse, if_pos hv.1]
      | some s => simp only [call_ellipse_in, hv.1, true_and]
    · unfold createEllipsoid
      rw [check_pos hv.size]
      cases sys with
      | none => simp only [call_ellipsoid, if_pos hv.1]
      | some s => simp only [call_ellipsoid_in, hv.1, true_and]
  refine ⟨fun hv hpos hs => ?_, fun h => ?_, fun hv hpos s hs hd => ?_⟩
  · have main : ∃ f, mk E semi sys bzr = .ok f ∧
        Computes f n (ellipsoidValue n semi.data (sysOr n sys).origin (sysOr n sys).basis) := by
      rw [key hv hpos]
      cases sys with
      | none =>
        obtain ⟨c1, c2⟩ := cartesian_ok n hn
        exact ellipsoidOf_spec E hn hv.2 hpos (zeros_length n) c1 c2 bzr
      | some s =>
        obtain ⟨s1, s2, s3, s4⟩ := hs s rfl
        simp only [if_pos s1]
        exact ellipsoidOf_spec E hn hv.2 hpos s2 s3 s4 bzr
    refine ⟨main, fun h0 => ?_⟩
    obtain ⟨f, h1, h2, h3⟩ := main
    have hval : ∀ q : List ℝ, q.length = n → ellipsoidValue n semi.data (sysOr n sys).origin (sysOr n sys).basis q =
        ((List.range n).map fun i => (q.getD i 0 / semi.data.getD i 0) ^ 2).sum - 1 := by
      intro q hq
      subst h0
      rcases hn with rfl | rfl
      · obtain ⟨x, y, rfl⟩ := len2 hq
        simp [ellipsoidValue, sysOr, zeros, RefSystem.cartesian, List.range_succ, dot]
      · obtain ⟨x, y, z, rfl⟩ := len3 hq
        simp [ellipsoidValue, sysOr, zeros, RefSystem.cartesian, List.range_succ, dot]
    refine ⟨f, h1, h2, fun p hp => ⟨(h3 p hp).1.trans (hval p hp), ?_⟩⟩
    exact isGradient_congr (h3 p hp).2 fun y hy => hval y (hy.trans hp)
  · rcases hmk with ⟨rfl, rfl⟩ | ⟨rfl, rfl⟩ <;> exact check_neg h
  · rw [key hv hpos]
    subst hs
    exact if_neg hd

/-- **C78**, semi-axes: `create_ellipse` refuses semi-axes that are not positive. -/
theorem C78_ellipse_axes (E : Env) (semi : NdArr) (sys : Option Sys) (bzr : Bool) (h : ∃ s ∈ semi.data, s ≤ 0) :
    createEllipse E semi sys bzr = .error .assertion := by
  obtain ⟨s, h1, h2⟩ := h
  unfold createEllipse
  by_cases hs : semi.size = 2
  · rw [check_pos hs, check_neg]
    intro hp
    exact absurd (hp s h1) (not_lt.2 h2)
  · exact check_neg hs

/-- **C78** fails: `create_ellipsoid`, whose documentation promises an AssertionError for semi-axes that are not positive, returns a
function for them in release builds, and terminates the process in debug builds. -/
theorem C78_ellipsoid_axes_fail (E : Env) (semi : NdArr) (hv : IsVec 3 semi) (bzr : Bool) (h : ∃ s ∈ semi.data, s ≤ 0) :
    (E.debug = false → ∃ f, createEllipsoid E semi none bzr = .ok f) ∧
    (E.debug = true → createEllipsoid E semi none bzr = .error .abort) := by
  obtain ⟨s, h1, h2⟩ := h
  unfold createEllipsoid
  rw [check_pos hv.size]
  simp only [call_ellipsoid, if_pos hv.1]
  unfold ellipsoidOf cppAssert
  constructor
  · intro hd
    rw [check_pos (by simp [hd])]
    exact ⟨_, rfl⟩
  · intro hd
    rw [check_neg]
    intro hp
    exact absurd (hp hd s h1) (not_lt.2 h2)

/-! ### Cylinders and tori -/

/-- The axis used: the given one, or the third coordinate axis. -/
noncomputable def axisOr (axis : Option NdArr) : List ℝ := axis.elim [0, 0, 1] NdArr.data

theorem norm_axisZ {E : Env} (hE : E.Ok) : E.eps < E.norm axisZ := by
  have h := hE.norm axisZ
  have h2 : dot axisZ axisZ = 1 := by simp [axisZ, dot]
  have h1 := hE.eps1
  nlinarith [h.1, h.2, hE.eps0]

theorem axisOr_ok {E : Env} (hE : E.Ok) {axis : Option NdArr} (ha : ∀ a, axis = some a → IsVec 3 a ∧ E.eps < E.norm a.data) :
    (axisOr axis).length = 3 ∧ E.eps < E.norm (axisOr axis) := by
  cases axis with
  | none => exact ⟨rfl, norm_axisZ hE⟩
  | some a => exact ⟨(ha a rfl).1.2, (ha a rfl).2⟩

/-- The function of the cylinder of radius `r` around the line through `o` with direction the unit vector `u`. -/
noncomputable def cylinderValue (r : ℝ) (o u p : List ℝ) : ℝ :=
  dist2 p o - dot (List.zipWith (· - ·) p o) u ^ 2 - r * r

theorem storedAxis_length {norm : List ℝ → ℝ} {eps : ℝ} {ax : List ℝ} (h : ax.length = 3) : (storedAxis norm eps ax).length = 3 := by
  unfold storedAxis
  split_ifs <;> simp [h]

theorem cylinder_value (r : ℝ) (o u p : List ℝ) : (cylinder r o u).eval p = cylinderValue r o u p := by
  simp only [cylinder, cylinderValue, dotp_eq, dist2, vsub]
  ring

theorem cylinderOf_spec {E : Env} (hE : E.Ok) {r : ℝ} (hr : 0 < r) {o ax : List ℝ} (ho : o.length = 3) (ha : ax.length = 3)
    (hax : E.eps < E.norm ax) (b : Bool) :
    ∃ f, cylinderOf E r o ax b = .ok f ∧ ∃ u, IsUnitAlong u ax ∧ Computes f 3 (cylinderValue r o u) := by
  have hu := C44_stored_axis E.norm hE.norm E.eps hE.eps0 ax hax
  have hl := storedAxis_length (norm := E.norm) (eps := E.eps) ha
  unfold cylinderOf
  rw [cppAssert_pos hr]
  cases b with
  | false =>
    refine ⟨_, rfl, _, hu, computes_gen (fun p _ => cylinder_value _ _ _ p) fun p hp => (C44_cylinder r o _ ho hl p hp).1⟩
  | true =>
    have h3 : ∀ p : List ℝ, p.length = 3 → _ := fun p hp =>
      C45_cylinder E.norm hE.norm E.eps E.tol hE.eps0 hE.tol0 hE.tol1 r o ax p hax ho ha hp
    obtain ⟨m, hm, -⟩ := h3 [0, 0, 0] rfl
    simp only [if_true, hm]
    refine ⟨_, rfl, _, hu, ?_⟩
    have hg : Good ⟨3, .bez (ofMonomials ℝ m)⟩ := by
      have : cylinderOf E r o ax true = .ok ⟨3, .bez (ofMonomials ℝ m)⟩ := by
        unfold cylinderOf
        rw [cppAssert_pos hr]
        simp only [if_true, hm]
      exact good_cylinder this
    refine computes_bez hg fun p hp => ?_
    obtain ⟨m', hm', hv⟩ := h3 p hp
    rw [hm] at hm'
    cases hm'
    exact hv.trans (cylinder_value _ _ _ p)

/-- **C78**, `create_cylinder`: a positive radius, an origin of three coordinates and an axis that is not zero (the third coordinate
axis if none is given) give the function `|p - o|^2 - ((p - o) . u)^2 - r^2`, `u` the unit vector of the axis, in both representations.
Other radii and origins of other sizes raise an AssertionError, axes that are not vectors of three coordinates a TypeError. -/
theorem C78_cylinder (E : Env) (hE : E.Ok) (radius : ℝ) (origin : NdArr) (axis : Option NdArr) (bzr : Bool) :
    (0 < radius → IsVec 3 origin → (∀ a, axis = some a → IsVec 3 a ∧ E.eps < E.norm a.data) →
      ∃ f, createCylinder E radius origin axis bzr = .ok f ∧
        ∃ u, IsUnitAlong u (axisOr axis) ∧ Computes f 3 (cylinderValue radius origin.data u)) ∧
    (radius ≤ 0 ∨ origin.size ≠ 3 → createCylinder E radius origin axis bzr = .error .assertion) ∧
    (0 < radius → IsVec 3 origin → ∀ a, axis = some a → a.shape ≠ [3] → createCylinder E radius origin axis bzr = .error .type) := by
  refine ⟨fun hr ho ha => ?_, fun h => ?_, fun hr ho a ha hs => ?_⟩
  · obtain ⟨a1, a2⟩ := axisOr_ok hE ha
    unfold createCylinder
    rw [check_pos ho.size, check_pos hr]
    cases axis with
    | none =>
      simp only [call_cylinder, if_pos ho.1]
      exact cylinderOf_spec hE hr ho.2 a1 a2 bzr
    | some a =>
      have hc : origin.shape = [3] ∧ a.shape = [3] := ⟨ho.1, (ha a rfl).1.1⟩
      simp only [call_cylinder_axis, if_pos hc]
      exact cylinderOf_spec hE hr ho.2 a1 a2 bzr
  · unfold createCylinder
    by_cases hs : origin.size = 3
    · rw [check_pos hs]
      exact check_neg (not_lt.2 (h.resolve_right (not_not.2 hs)))
    · exact check_neg hs
  · subst ha
    unfold createCylinder
    rw [check_pos ho.size, check_pos hr]
    simp only [call_cylinder_axis]
    exact if_neg fun h => hs h.2

/-- **C78** fails: `create_cylinder` accepts the zero vector as axis. The function returned without Bezier polynomials is the one of the
sphere. -/
theorem C78_zero_axis_fails (E : Env) (hE : E.Ok) (radius : ℝ) (hr : 0 < radius) (origin axis : NdArr) (ho : IsVec 3 origin)
    (ha : axis.shape = [3]) (hz : axis.data = [0, 0, 0]) :
    ∃ f, createCylinder E radius origin (some axis) false = .ok f ∧ Computes f 3 fun p => dist2 p origin.data - radius * radius := by
  have hc : origin.shape = [3] ∧ axis.shape = [3] := ⟨ho.1, ha⟩
  have h0 : dot [0, 0, 0] ([0, 0, 0] : List ℝ) = 0 := by simp [dot]
  have hn : E.norm [0, 0, 0] = 0 := mul_self_eq_zero.1 ((hE.norm [0, 0, 0]).2.trans h0)
  have hs : storedAxis E.norm E.eps [0, 0, 0] = [0, 0, 0] := by
    unfold storedAxis
    rw [hn]
    simp
  unfold createCylinder
  rw [check_pos ho.size, check_pos hr]
  simp only [call_cylinder_axis, if_pos hc, hz]
  unfold cylinderOf
  rw [cppAssert_pos hr]
  simp only [Bool.false_eq_true, if_false, hs]
  refine ⟨_, rfl, computes_gen (fun p hp => ?_) fun p hp => (C44_cylinder radius _ _ ho.2 rfl p hp).1⟩
  rw [cylinder_value]
  obtain ⟨a, b, c, h3⟩ := len3 ho.2
  obtain ⟨x, y, z, rfl⟩ := len3 hp
  simp [cylinderValue, h3, dot]

/-- The function of the torus. -/
noncomputable def torusValue (R r : ℝ) (c u p : List ℝ) : ℝ :=
  (dist2 p c + R * R - r * r) ^ 2 - 4 * (R * R) * (dist2 p c - dot (List.zipWith (· - ·) p c) u ^ 2)

theorem torusOf_spec {E : Env} (hE : E.Ok) {R r : ℝ} (h0 : 0 < r) (h1 : E.debug = true → r < R) {c ax : List ℝ} (hc : c.length = 3)
    (ha : ax.length = 3) (hax : E.eps < E.norm ax) (b : Bool) :
    ∃ f, torusOf E R r c ax b = .ok f ∧ ∃ u, IsUnitAlong u ax ∧ Computes f 3 (torusValue R r c u) := by
  have hu := C44_stored_axis E.norm hE.norm E.eps hE.eps0 ax hax
  have hl := storedAxis_length (norm := E.norm) (eps := E.eps) ha
  unfold torusOf cppAssert
  rw [check_pos fun hd => ⟨h0, h1 hd⟩]
  obtain ⟨f, hf, hc'⟩ := computes_either (Or.inr rfl) rfl (by simp) (shape_torus E.norm R r c ax) b
    (torus R r c (storedAxis E.norm E.eps ax)) (V := torusValue R r c (storedAxis E.norm E.eps ax))
    (fun p hp => C45_torus E.norm hE.norm E.eps R r c ax p hax hc ha hp)
    (fun p _ => by
      simp only [torus, torusValue, dotp_eq, dist2, vsub]
      ring)
    (fun p hp => (C44_torus R r c _ hc hl p hp).1)
  exact ⟨f, hf, _, hu, hc'⟩

/-- The centre used: the given one, or the origin. -/
noncomputable def centerOr (n : Nat) (c : Option NdArr) : List ℝ := c.elim (List.replicate n 0) NdArr.data

/-- **C78**, `create_torus`: radii `0 < r < R`, a centre of three coordinates (the origin if none is given) and an axis that is not
zero (the third coordinate axis if none is given) give the function of the torus, in both representations; radii that are not positive
raise an AssertionError. Centres and axes that are not vectors of three coordinates raise a TypeError (the documentation says
AssertionError). -/
theorem C78_torus (E : Env) (hE : E.Ok) (major minor : ℝ) (center axis : Option NdArr) (bzr : Bool) :
    (0 < minor → minor < major → (∀ c, center = some c → IsVec 3 c) →
      (∀ a, axis = some a → IsVec 3 a ∧ E.eps < E.norm a.data) →
      ∃ f, createTorus E major minor center axis bzr = .ok f ∧
        ∃ u, IsUnitAlong u (axisOr axis) ∧ Computes f 3 (torusValue major minor (centerOr 3 center) u)) ∧
    (major ≤ 0 ∨ minor ≤ 0 → createTorus E major minor center axis bzr = .error .assertion) ∧
    (0 < major → 0 < minor → (∃ c, (center = some c ∨ axis = some c) ∧ c.shape ≠ [3]) →
      createTorus E major minor center axis bzr = .error .type) := by
  have key : 0 < major → 0 < minor → createTorus E major minor center axis bzr =
      if (∀ c, center = some c → c.shape = [3]) ∧ (∀ a, axis = some a → a.shape = [3]) then
        torusOf E major minor (centerOr 3 center) (axisOr axis) bzr else .error .type := by
    intro h0 h1
    unfold createTorus
    rw [check_pos h0, check_pos h1]
    cases center <;> cases axis
    · simp [call_torus, centerOr, axisOr, axisZ, zeros]
    · simp [call_torus_axis, centerOr, axisOr, zeros]
    · simp [call_torus_at, centerOr, axisOr, axisZ]
    · simp [call_torus_axis, centerOr, axisOr]
  refine ⟨fun h0 h1 hc ha => ?_, fun h => ?_, fun h0 h1 h => ?_⟩
  · rw [key (h0.trans h1) h0, if_pos ⟨fun c h => (hc c h).1, fun a h => (ha a h).1.1⟩]
    obtain ⟨a1, a2⟩ := axisOr_ok hE ha
    refine torusOf_spec hE h0 (fun _ => h1) ?_ a1 a2 bzr
    cases center with
    | none => simp [centerOr]
    | some c => exact (hc c rfl).2
  · unfold createTorus
    by_cases h0 : 0 < major
    · rw [check_pos h0]
      exact check_neg (not_lt.2 (h.resolve_left (not_le.2 h0)))
    · exact check_neg h0
  · rw [key h0 h1, if_neg]
    rintro ⟨ha, hb⟩
    obtain ⟨c, h | h, hs⟩ := h
    · exact hs (ha c h)
    · exact hs (hb c h)

/-! ### Annuli -/

/-- The function of the annulus. -/
noncomputable def annulusValue (ri ro : ℝ) (c p : List ℝ) : ℝ := (dist2 p c - ri * ri) * (dist2 p c - ro * ro)

theorem annulus_value (ri ro : ℝ) (c p : List ℝ) : (annulus ri ro c).eval p = annulusValue ri ro c p := by
  simp only [annulus, annulusValue, dotp_eq, dist2, vsub]
  ring

theorem createAnnulus_eq (E : Env) {inner outer : ℝ} (h0 : 0 < inner) (h1 : 0 < outer) {center : Option NdArr}
    (hc : ∀ c, center = some c → IsVec 2 c) (bzr : Bool) :
    createAnnulus E inner outer center bzr = annulusOf E inner outer (centerOr 2 center) bzr := by
  unfold createAnnulus
  rw [check_pos h0, check_pos h1]
  cases center with
  | none => exact call_annulus E inner outer bzr
  | some c =>
    have hv := hc c rfl
    simp only [check_pos hv.size, call_annulus_at, if_pos hv.1]
    rfl

/-- **C78**, `create_annulus`: radii `0 < r < R` and a centre of two coordinates (the origin if none is given) give a function with the
values `(|p - c|^2 - r^2) (|p - c|^2 - R^2)`, in both representations; its gradients are exact for Bezier polynomials, and otherwise at
the centre only. Radii that are not positive and centres of other sizes raise an AssertionError. -/
theorem C78_annulus_partial (E : Env) (inner outer : ℝ) (center : Option NdArr) (bzr : Bool) :
    (0 < inner → inner < outer → (∀ c, center = some c → IsVec 2 c) →
      ∃ f, createAnnulus E inner outer center bzr = .ok f ∧ f.dim = 2 ∧
        (∀ p, p.length = 2 → f.value p = annulusValue inner outer (centerOr 2 center) p) ∧
        (bzr = true → Computes f 2 (annulusValue inner outer (centerOr 2 center))) ∧
        (bzr = false → ∀ p, p.length = 2 → (IsGradient f.value p (f.gradient p) ↔ p = centerOr 2 center))) ∧
    (inner ≤ 0 ∨ outer ≤ 0 ∨ (∃ c, center = some c ∧ c.size ≠ 2) →
      createAnnulus E inner outer center bzr = .error .assertion) := by
  refine ⟨fun h0 h1 hc => ?_, fun h => ?_⟩
  · have hl : (centerOr 2 center).length = 2 := by
      cases center with
      | none => simp [centerOr]
      | some c => exact (hc c rfl).2
    rw [createAnnulus_eq E h0 (h0.trans h1) hc bzr]
    unfold annulusOf
    rw [cppAssert_pos ⟨h0, h1⟩]
    refine ⟨_, rfl, rfl, ?_⟩
    cases bzr with
    | false =>
      refine ⟨fun p _ => annulus_value _ _ _ p, fun h => (by cases h), fun _ p hp => ?_⟩
      exact C44_annulus_gradient_fails inner outer h0 h1 _ p hl hp
    | true =>
      have hcomp : Computes ⟨2, .bez (ofMonomials ℝ (annulusMon inner outer (centerOr 2 center)))⟩ 2
          (annulusValue inner outer (centerOr 2 center)) :=
        computes_bez (good_bez (Or.inl rfl) rfl (by simp) (shape_annulus _ _ _))
          fun p hp => (C45_annulus inner outer _ p hl hp).trans (annulus_value _ _ _ p)
      exact ⟨fun p hp => (hcomp.2 p hp).1, fun _ => hcomp, fun h => (by cases h)⟩
  · unfold createAnnulus
    by_cases h0 : 0 < inner
    · rw [check_pos h0]
      by_cases h1 : 0 < outer
      · rw [check_pos h1]
        rcases h with h | h | ⟨c, rfl, hs⟩
        · exact absurd h0 (not_lt.2 h)
        · exact absurd h1 (not_lt.2 h)
        · exact check_neg hs
      · exact check_neg h1
    · exact check_neg h0

/-- **C78** fails: radii in the wrong order, which the documentation excludes, are accepted by `create_annulus` and `create_torus` in
release builds; in debug builds the process is terminated. -/
theorem C78_radii_order_fails (E : Env) (hE : E.Ok) (a b : ℝ) (ha : 0 < a) (hb : 0 < b) (hab : b ≤ a) (bzr : Bool) :
    (E.debug = false → (∃ f, createAnnulus E a b none bzr = .ok f) ∧ ∃ f, createTorus E b a none none bzr = .ok f) ∧
    (E.debug = true → createAnnulus E a b none bzr = .error .abort ∧ createTorus E b a none none bzr = .error .abort) := by
  have e1 : createTorus E b a none none bzr = torusOf E b a (zeros 3) axisZ bzr := by
    unfold createTorus
    rw [check_pos hb, check_pos ha]
    exact call_torus E b a bzr
  rw [createAnnulus_eq E ha hb (by simp) bzr, e1]
  refine ⟨fun hd => ⟨?_, ?_⟩, fun hd => ⟨?_, ?_⟩⟩
  · unfold annulusOf cppAssert
    rw [check_pos (by simp [hd])]
    exact ⟨_, rfl⟩
  · obtain ⟨f, hf, -⟩ := torusOf_spec hE (R := b) ha (by simp [hd]) (zeros_length 3) (ax := axisZ) rfl (norm_axisZ hE) bzr
    exact ⟨f, hf⟩
  · exact check_neg fun h => absurd (h hd).2 (not_lt.2 hab)
  · exact check_neg fun h => absurd (h hd).2 (not_lt.2 hab)

/-! ### Planes, lines and constants -/

/-- The normal used: the given one, or the first coordinate axis. -/
noncomputable def normalOr (n : Nat) (v : Option NdArr) : List ℝ := v.elim ((List.replicate n 0).set 0 1) NdArr.data

/-- **C78**, `create_plane` and `create_line`: an origin (the origin of coordinates if none is given) and a normal (the first coordinate
axis if none is given) of the right size give the function `(p - o) . n`, divided by the norm of the normal in the Bezier
representation. Arrays of other sizes raise an AssertionError. -/
theorem C78_planes (E : Env) (hE : E.Ok) (origin normal : Option NdArr) (bzr : Bool)
    (mk : Env → Option NdArr → Option NdArr → Bool → Except Err CppFunc) (n : Nat)
    (hmk : (mk = createLine ∧ n = 2) ∨ (mk = createPlane ∧ n = 3)) :
    ((∀ o, origin = some o → IsVec n o) → (∀ v, normal = some v → IsVec n v ∧ ∃ a ∈ v.data, a ≠ 0) →
      ∃ f, mk E origin normal bzr = .ok f ∧ 0 < E.norm (normalOr n normal) ∧
        Computes f n fun p => dot (List.zipWith (· - ·) p (centerOr n origin)) (normalOr n normal) /
          if bzr then E.norm (normalOr n normal) else 1) ∧
    ((∃ a, (origin = some a ∨ normal = some a) ∧ a.size ≠ n) → mk E origin normal bzr = .error .assertion) := by
  have hn : n = 2 ∨ n = 3 := by rcases hmk with ⟨-, h⟩ | ⟨-, h⟩ <;> omega
  refine ⟨fun ho hv => ?_, fun h => ?_⟩
  · have lo : (centerOr n origin).length = n := by
      cases origin with
      | none => simp [centerOr]
      | some o => exact (ho o rfl).2
    have lv : (normalOr n normal).length = n := by
      cases normal with
      | none => simp [normalOr]
      | some v => exact (hv v rfl).1.2
    have hne : ∃ a ∈ normalOr n normal, a ≠ 0 := by
      cases normal with
      | none =>
        refine ⟨1, ?_, one_ne_zero⟩
        rcases hn with rfl | rfl <;> simp [normalOr, List.replicate]
      | some v => exact (hv v rfl).2
    have key : mk E origin normal bzr = planeOf E n (centerOr n origin) (normalOr n normal) bzr := by
      rcases hmk with ⟨rfl, rfl⟩ | ⟨rfl, rfl⟩
      · unfold createLine createPlaneLine
        cases origin with
        | none =>
          cases normal with
          | none => exact call_line E bzr
          | some v =>
            have h := (hv v rfl).1
            simp only [check_pos h.size, call_line_at, h.1, and_self, if_true]
            rfl
        | some o =>
          have h' := ho o rfl
          cases normal with
          | none =>
            simp only [check_pos h'.size, call_line_at, h'.1, and_self, if_true]
            rfl
          | some v =>
            have h := (hv v rfl).1
            simp only [check_pos h.size, check_pos h'.size, call_line_at, h.1, h'.1, and_self, if_true]
            rfl
      · unfold createPlane createPlaneLine
        cases origin with
        | none =>
          cases normal with
          | none => exact call_plane E bzr
          | some v =>
            have h := (hv v rfl).1
            simp only [check_pos h.size, call_plane_at, h.1, and_self, if_true]
            rfl
        | some o =>
          have h' := ho o rfl
          cases normal with
          | none =>
            simp only [check_pos h'.size, call_plane_at, h'.1, and_self, if_true]
            rfl
          | some v =>
            have h := (hv v rfl).1
            simp only [check_pos h.size, check_pos h'.size, call_plane_at, h.1, h'.1, and_self, if_true]
            rfl
    rw [key]
    unfold planeOf either
    refine ⟨_, rfl, norm_pos hE.norm (dot_self_pos hne).ne', ?_⟩
    cases bzr with
    | false =>
      simp only [Bool.false_eq_true, if_false, div_one]
      exact computes_gen (fun p _ => by simp only [plane, dotp_eq, vsub])
        fun p hp => ((C44_constant_plane n hn 0 _ _ lo lv).2 p hp).1
    | true =>
      simp only [if_true]
      refine computes_bez (good_bez hn (by simp) (rep_pos _ _ (by omega)) (shape_plane _ _ _ _)) fun p hp => ?_
      rw [C45_plane E.norm n hn _ _ p lo lv hp]
      simp only [plane, dotp_eq, vsub]
  · obtain ⟨a, ha, hs⟩ := h
    have main : ∀ name, createPlaneLine E name n origin normal bzr = .error .assertion := by
      intro name
      unfold createPlaneLine
      cases origin with
      | none =>
        cases normal with
        | none => simp at ha
        | some v =>
          obtain rfl : v = a := by simpa using ha
          exact check_neg hs
      | some o =>
        cases normal with
        | none =>
          obtain rfl : o = a := by simpa using ha
          exact check_neg hs
        | some v =>
          by_cases h1 : o.size = n
          · simp only [check_pos h1]
            rcases ha with ha | ha
            · cases ha
              exact absurd h1 hs
            · cases ha
              exact check_neg hs
          · exact check_neg h1
    rcases hmk with ⟨rfl, rfl⟩ | ⟨rfl, rfl⟩ <;> exact main _

/-- **C78**, `create_constant`: the constant function in two or three dimensions, in both representations; other dimensions raise an
AssertionError. -/
theorem C78_constant (E : Env) (v : ℝ) (dim : Nat) (bzr : Bool) :
    (dim = 2 ∨ dim = 3 → ∃ f, createConstant E v dim bzr = .ok f ∧ Computes f dim fun _ => v) ∧
    (¬ (dim = 2 ∨ dim = 3) → createConstant E v dim bzr = .error .assertion) := by
  refine ⟨fun hd => ?_, fun hd => check_neg hd⟩
  have key : createConstant E v dim bzr = constantOf dim v bzr := by
    unfold createConstant
    rw [check_pos hd]
    rcases hd with rfl | rfl
    · rw [if_pos rfl]
      exact call_constant2 E v bzr
    · rw [if_neg (by decide)]
      exact call_constant3 E v bzr
  rw [key]
  refine ⟨_, rfl, ?_⟩
  have hg : Good ⟨dim, if bzr then .bez (constantBzr dim v) else .gen (constant dim v)⟩ := good_constant hd (b := bzr) (v := v) rfl
  cases bzr with
  | false =>
    exact computes_gen (fun p _ => rfl)
      fun p hp => ((C44_constant_plane dim hd v (List.replicate dim 0) (List.replicate dim 0) (by simp) (by simp)).1 p hp).1
  | true => exact computes_bez hg fun p hp => C45_constant dim (by omega) v p hp

/-- **C78** (representation by default): without the last argument the Bezier representation is built. -/
theorem C78_default_representation (E : Env) (r R v : ℝ) (c2 c3 : NdArr) (h2 : c2.shape = [2]) (h3 : c3.shape = [3]) :
    call E "create_disk" [.real r] = call E "create_disk" [.real r, .bool true] ∧
    call E "create_disk" [.real r, .arr c2] = call E "create_disk" [.real r, .arr c2, .bool true] ∧
    call E "create_sphere" [.real r] = call E "create_sphere" [.real r, .bool true] ∧
    call E "create_sphere" [.real r, .arr c3] = call E "create_sphere" [.real r, .arr c3, .bool true] ∧
    call E "create_ellipse" [.arr c2] = call E "create_ellipse" [.arr c2, .bool true] ∧
    call E "create_ellipsoid" [.arr c3] = call E "create_ellipsoid" [.arr c3, .bool true] ∧
    call E "create_cylinder" [.real r, .arr c3] = call E "create_cylinder" [.real r, .arr c3, .bool true] ∧
    call E "create_annulus" [.real r, .real R] = call E "create_annulus" [.real r, .real R, .bool true] ∧
    call E "create_torus" [.real R, .real r] = call E "create_torus" [.real R, .real r, .bool true] ∧
    call E "create_plane" [] = call E "create_plane" [.bool true] ∧
    call E "create_line" [] = call E "create_line" [.bool true] ∧
    call E "create_constant_2D" [.real v] = call E "create_constant_2D" [.real v, .bool true] ∧
    call E "create_constant_3D" [.real v] = call E "create_constant_3D" [.real v, .bool true] := by
  unfold call
  rw [reg_disk, reg_sphere, reg_ellipse, reg_ellipsoid, reg_cylinder, reg_annulus, reg_torus, reg_plane, reg_line, reg_constant2, reg_constant3]
  refine ⟨rfl, ?_, rfl, ?_, ?_, ?_, ?_, rfl, rfl, rfl, rfl, rfl, rfl⟩
  · simp [declareDisk, fill, useBzr, Kind.accepts, h2]
  · simp [declareSphere, fill, useBzr, Kind.accepts, h3]
  · simp [declareEllipse, fill, useBzr, Kind.accepts, h2]
  · simp [declareEllipsoid, fill, useBzr, Kind.accepts, h3]
  · simp [declareCylinder, fill, useBzr, Kind.accepts, h3]

end Qugar.Py.Impl
