import Verif.Props.ReparamBezier
import Verif.Lemmas.ReparamSource
import Mathlib.Topology.Order.IntermediateValue
import Mathlib.Topology.Algebra.Polynomial
/-
Property theorems on the geometry of the reparameterization of Bézier domains: domains without interfaces (C55), which intervals
are inside (C56), and where the vertices are (C57).
-/
namespace Qugar.Reparam
open Roots Mesh Poly Spec TS
variable {K : Type} [Field K] [LinearOrder K] [IsStrictOrderedRing K]

/-! ### C57: the vertices -/

/-- The level of the given polynomials; `rest` are the results of the eliminations. -/
def topLevel (n : Nat) (phi : PolySet K) (rest : List (PolySet K)) : Level K :=
  ⟨phi, if n = 1 then 0 else phi.dir, baseDirOf (n - 1) rest⟩

theorem build_last : ∀ (n : Nat) (phis : List (PolySet K)) (parents : List (Level K)), parents ≠ [] →
    (build n phis parents).2.getLast? = parents.getLast? := by
  intro n
  induction n with
  | zero => intro phis parents _; rw [build]
  | succ n ih =>
    intro phis parents hne
    cases phis with
    | nil => rw [build]
    | cons phi rest =>
      rw [build]
      split
      · rfl
      · rw [ih _ _ (by simp)]
        cases parents with
        | nil => exact absurd rfl hne
        | cons a l => rw [List.getLast?_cons_cons]

theorem build_top (n : Nat) (hn : 0 < n) (phi : PolySet K) (rest : List (PolySet K)) (hc : phi.count ≠ 0) :
    (build n (phi :: rest) []).2.getLast? = some (topLevel n phi rest) := by
  obtain ⟨k, rfl⟩ := Nat.exists_eq_succ_of_ne_zero (by omega : n ≠ 0)
  rw [build, if_neg hc, build_last _ _ _ (by simp)]
  unfold topLevel
  by_cases hk : k = 0
  · subst hk; rfl
  · rw [if_neg hk, if_neg (by omega)]
    rfl

theorem create_source (cheb : Nat → Nat → K) (E : Env K) (phis : List (BezierPoly K) → List (PolySet K)) (m : Mesh K)
    (polys : List (BezierPoly K)) (phi : PolySet K) (rest : List (PolySet K)) (hphi : phis (keptPolys polys) = phi :: rest)
    (hc : phi.count ≠ 0) (h : Setup cheb E (phi :: rest) m) (m1 : Mesh K) (hm1 : create cheb E phis m polys = some m1)
    (P0 : List (List K)) (hP : m1.points = m.points ++ P0) : ∀ p ∈ P0, TopPoint E (topLevel m.range phi rest) p.reverse := by
  have hr0 : 0 < m.range := by have := h.range; have := h.dim; omega
  have hlast := build_top m.range hr0 phi rest hc
  obtain ⟨bl, hbl⟩ : ∃ bl, bl = build m.range (phi :: rest) [] := ⟨_, rfl⟩
  obtain ⟨b1, b2, b3⟩ := build_spec m.range (phi :: rest) [] h.elim trivial (by intro L hL; simp at hL)
  rw [← hbl] at b1 b2 b3 hlast
  unfold create at hm1
  rw [hphi, ← hbl] at hm1
  dsimp only at hm1
  have hne : bl.2 ≠ [] := by intro h0; rw [h0] at hlast; simp at hlast
  have hE : bl.2.isEmpty = false := by simpa using hne
  rw [hE, if_neg (by simp)] at hm1
  simp only [Option.bind_eq_bind] at hm1
  obtain ⟨evs, he, hm1⟩ := Option.bind_eq_some_iff.1 hm1
  obtain ⟨st', hst', hm1⟩ := Option.bind_eq_some_iff.1 hm1
  cases hm1
  obtain ⟨hev, -⟩ := events_spec E h.env bl.1 bl.2 hne b3 b2
  obtain ⟨e1, e2, e3⟩ := hev evs he
  have hdim : bl.1 + bl.2.length - (if E.S then 1 else 0) = m.dim := by
    rw [b1, h.range]; simp
  rw [hdim, h.order] at e2
  have hpt : ∀ e ∈ evs, e.pt ∈ indices (List.replicate m.dim m.order) := fun e hee =>
    ((e2 e.cell e.pt).1 (List.mem_map.2 ⟨e, hee, rfl⟩)).2
  obtain ⟨st, hst, C, hA⟩ := insert_all m h.order2 h.whole evs hpt e1
  rw [hst] at hst'
  cases hst'
  have hpts : m.points ++ evs.map (fun e => e.point.reverse) = m.points ++ P0 := by rw [← hP, hA.mesh]
  have hP0 := List.append_cancel_left hpts
  intro p hp
  rw [← hP0] at hp
  obtain ⟨e, hee, rfl⟩ := List.mem_map.1 hp
  rw [List.reverse_reverse]
  exact events_source E h.env bl.1 bl.2 _ hlast b3 b2 evs he e hee

theorem mid_of_getD {rts mid : List (Root K)} (h : rts = (0, -1) :: mid ++ [(1, -1)]) {k : Nat} (hk : k + 2 < rts.length) :
    rts.getD (k + 1) (0, -1) ∈ mid := by
  rw [h] at hk ⊢
  simp only [List.cons_append, List.length_cons, List.length_append, List.length_nil] at hk
  rw [List.cons_append, List.getD_cons_succ, List.getD_append _ _ _ _ (by omega), List.getD_eq_getElem _ _ (by omega)]
  exact List.getElem_mem _

/-- **C57** (level sets). Every vertex of the reparameterization of a level set is, up to the scaling to the domain and to the
reversed order of the coordinates used by the root finder, on a line over a base point `u` of the cube, within the tolerance of a
`RootSource` of one of the polynomials: in the regular case, of a root over `u`. -/
theorem C57_levelset_vertices (cheb : Nat → Nat → K) (norm : List K → K) (E : Env K) (phis : List (BezierPoly K) → List (PolySet K))
    (outer : List K → List K) (wtol : K) (m : Mesh K) (polys : List (BezierPoly K)) (domain : Box K) (phi : PolySet K)
    (rest : List (PolySet K)) (hphi : phis (keptPolys polys) = phi :: rest) (hc : phi.count ≠ 0) (h : Setup cheb E (phi :: rest) m)
    (hS : E.S = true) (hd : domain.length = m.range) (hd2 : ∀ iv ∈ domain, iv.1 ≤ iv.2) (m' : Mesh K)
    (hm' : reparameterize cheb norm E phis outer wtol m polys domain = some m') :
    ∀ p ∈ m'.points.drop m.points.length, ∃ (q u : List K) (x r : K) (i : Nat), u.length + 1 = m.range ∧ q.length = u.length ∧
      InCube q ∧ InCube u ∧ p = scalePoint (unitBox m.range) domain (addComponent u (topLevel m.range phi rest).dir x).reverse ∧
      |x - r| ≤ E.tol ∧ i < phi.count ∧ RootSource E (topLevel m.range phi rest) i q u r := by
  obtain ⟨P, C, W, h1, h2, h3, h4, h5, P0, h6, h7⟩ := reparam_appends cheb norm E phis outer wtol m polys domain (hphi ▸ h) hd hd2 m' hm'
  intro p hp
  rw [h1] at hp
  dsimp only at hp
  rw [List.drop_left, h7] at hp
  obtain ⟨p0, hp0, rfl⟩ := List.mem_map.1 hp
  obtain ⟨m1, hm1, hpts⟩ := Option.map_eq_some_iff.1 h6
  obtain ⟨q, u, rts, k, hql, hq, hu, ⟨mid, hmid, hsrc⟩, -, -, hdir, htop⟩ :=
    create_source cheb E phis m polys phi rest hphi hc h m1 hm1 P0 hpts p0 hp0
  rw [hS, if_pos rfl] at htop
  obtain ⟨hk, hx⟩ := htop
  obtain ⟨i, hi, r, hr, hxr⟩ := hsrc _ (mid_of_getD hmid hk)
  obtain ⟨P0', C0, f1, f2, f3, f4⟩ := (create_spec cheb E phis m polys (hphi ▸ h)).1 m1 hm1
  have hlen : p0.length = m.range := by
    rw [f1] at hpts
    have := List.append_cancel_left hpts
    exact (f4 p0 (this ▸ hp0)).1
  have hlu : u.length + 1 = m.range := by
    rw [← hlen, ← List.length_reverse (as := p0), hx, addComponent_length hdir]
  refine ⟨q, u, _, r, i, hlu, hql, hq, hu, ?_, hxr, hi, hr⟩
  rw [← hx, List.reverse_reverse]

/-- **C57** (regular case). If over the cube the polynomials have as many roots over every base point, away from the ends, and
the roots found are zeros, every vertex of the reparameterization of a level set is within the tolerance, along a coordinate
direction, of a zero of one of the polynomials. -/
theorem C57_levelset_regular (cheb : Nat → Nat → K) (norm : List K → K) (E : Env K) (phis : List (BezierPoly K) → List (PolySet K))
    (outer : List K → List K) (wtol : K) (m : Mesh K) (polys : List (BezierPoly K)) (domain : Box K) (phi : PolySet K)
    (rest : List (PolySet K)) (hphi : phis (keptPolys polys) = phi :: rest) (hc : phi.count ≠ 0) (h : Setup cheb E (phi :: rest) m)
    (hS : E.S = true) (hd : domain.length = m.range) (hd2 : ∀ iv ∈ domain, iv.1 ≤ iv.2) (m' : Mesh K)
    (hm' : reparameterize cheb norm E phis outer wtol m polys domain = some m')
    (hst : ∀ q u : List K, u.length + 1 = m.range → q.length = u.length → InCube q → InCube u → SteadyAt E (topLevel m.range phi rest) q u)
    (hz : ∀ (u : List K) (i : Nat) (r : K), u.length + 1 = m.range → i < phi.count → r ∈ phi.roots i u →
      phi.eval i (addComponent u (topLevel m.range phi rest).dir r) = 0) :
    ∀ p ∈ m'.points.drop m.points.length, ∃ (u : List K) (x r : K) (i : Nat), u.length + 1 = m.range ∧ InCube u ∧
      p = scalePoint (unitBox m.range) domain (addComponent u (topLevel m.range phi rest).dir x).reverse ∧
      |x - r| ≤ E.tol ∧ i < phi.count ∧ phi.eval i (addComponent u (topLevel m.range phi rest).dir r) = 0 := by
  obtain ⟨P, C, W, h1, h2, h3, h4, h5, P0, h6, h7⟩ := reparam_appends cheb norm E phis outer wtol m polys domain (hphi ▸ h) hd hd2 m' hm'
  intro p hp
  rw [h1] at hp
  dsimp only at hp
  rw [List.drop_left, h7] at hp
  obtain ⟨p0, hp0, rfl⟩ := List.mem_map.1 hp
  obtain ⟨m1, hm1, hpts⟩ := Option.map_eq_some_iff.1 h6
  obtain ⟨q, u, rts, k, hql, hq, hu, -, hnear, -, hdir, htop⟩ :=
    create_source cheb E phis m polys phi rest hphi hc h m1 hm1 P0 hpts p0 hp0
  rw [hS, if_pos rfl] at htop
  obtain ⟨hk, hx⟩ := htop
  obtain ⟨P0', C0, f1, f2, f3, f4⟩ := (create_spec cheb E phis m polys (hphi ▸ h)).1 m1 hm1
  have hlen : p0.length = m.range := by
    rw [f1] at hpts
    have := List.append_cancel_left hpts
    exact (f4 p0 (this ▸ hp0)).1
  have hlu : u.length + 1 = m.range := by
    rw [← hlen, ← List.length_reverse (as := p0), hx, addComponent_length hdir]
  obtain ⟨mid, hmid, hn, -⟩ := hnear (hst q u hlu hql hq hu)
  obtain ⟨i, hi, r, hr, -, hxr⟩ := hn _ (mid_of_getD hmid hk)
  refine ⟨u, _, r, i, hlu, hu, ?_, hxr, hi, hz u i r hlu hi hr⟩
  rw [← hx, List.reverse_reverse]

/-- An end of a piece of the line over `u`: an end of the line, or within the tolerance of a root of a polynomial. -/
def PieceEnd (E : Env K) (L : Level K) (q u : List K) (x : K) : Prop :=
  x = 0 ∨ x = 1 ∨ ∃ i r, i < L.phi.count ∧ RootSource E L i q u r ∧ |x - r| ≤ E.tol

/-- **C57** (volumes). Every vertex of the reparameterization of a volume is, up to the scaling to the domain and to the reversed
order of the coordinates, on a line over a base point `u` of the cube, between two consecutive ends of pieces. -/
theorem C57_volume_vertices (cheb : Nat → Nat → K) (norm : List K → K) (E : Env K) (phis : List (BezierPoly K) → List (PolySet K))
    (outer : List K → List K) (wtol : K) (m : Mesh K) (polys : List (BezierPoly K)) (domain : Box K) (phi : PolySet K)
    (rest : List (PolySet K)) (hphi : phis (keptPolys polys) = phi :: rest) (hc : phi.count ≠ 0) (h : Setup cheb E (phi :: rest) m)
    (hS : E.S = false) (hd : domain.length = m.range) (hd2 : ∀ iv ∈ domain, iv.1 ≤ iv.2) (m' : Mesh K)
    (hm' : reparameterize cheb norm E phis outer wtol m polys domain = some m') :
    ∀ p ∈ m'.points.drop m.points.length, ∃ (q u : List K) (a b x : K), u.length + 1 = m.range ∧ q.length = u.length ∧
      InCube q ∧ InCube u ∧ p = scalePoint (unitBox m.range) domain (addComponent u (topLevel m.range phi rest).dir x).reverse ∧
      a ≤ x ∧ x ≤ b ∧ PieceEnd E (topLevel m.range phi rest) q u a ∧ PieceEnd E (topLevel m.range phi rest) q u b := by
  obtain ⟨P, C, W, h1, h2, h3, h4, h5, P0, h6, h7⟩ := reparam_appends cheb norm E phis outer wtol m polys domain (hphi ▸ h) hd hd2 m' hm'
  intro p hp
  rw [h1] at hp
  dsimp only at hp
  rw [List.drop_left, h7] at hp
  obtain ⟨p0, hp0, rfl⟩ := List.mem_map.1 hp
  obtain ⟨m1, hm1, hpts⟩ := Option.map_eq_some_iff.1 h6
  obtain ⟨q, u, rts, k, hql, hq, hu, ⟨mid, hmid, hsrc⟩, -, hsort, hdir, htop⟩ :=
    create_source cheb E phis m polys phi rest hphi hc h m1 hm1 P0 hpts p0 hp0
  rw [hS, if_neg (by simp)] at htop
  obtain ⟨hk, t, ht0, ht1, hx⟩ := htop
  obtain ⟨P0', C0, f1, f2, f3, f4⟩ := (create_spec cheb E phis m polys (hphi ▸ h)).1 m1 hm1
  have hlen : p0.length = m.range := by
    rw [f1] at hpts
    have := List.append_cancel_left hpts
    exact (f4 p0 (this ▸ hp0)).1
  have hlu : u.length + 1 = m.range := by
    rw [← hlen, ← List.length_reverse (as := p0), hx, addComponent_length hdir]
  have hend : ∀ j, j < rts.length → PieceEnd E (topLevel m.range phi rest) q u (rts.getD j (0, -1)).1 := by
    intro j hj
    rw [List.getD_eq_getElem _ _ hj]
    have hm := List.getElem_mem hj
    obtain ⟨y, hy⟩ : ∃ y, y = rts[j] := ⟨_, rfl⟩
    rw [← hy] at hm ⊢
    rw [hmid] at hm
    simp only [List.cons_append, List.mem_cons, List.mem_append, List.not_mem_nil, or_false] at hm
    rcases hm with rfl | hm | rfl
    · exact Or.inl rfl
    · obtain ⟨i, hi, r, hr, hxr⟩ := hsrc _ hm
      exact Or.inr (Or.inr ⟨i, r, hi, hr, hxr⟩)
    · exact Or.inr (Or.inl rfl)
  have hle : (rts.getD k (0, -1)).1 ≤ (rts.getD (k + 1) (0, -1)).1 := by
    rw [List.getD_eq_getElem _ _ (by omega), List.getD_eq_getElem _ _ hk]
    exact List.pairwise_iff_getElem.1 hsort k (k + 1) _ _ (by omega)
  refine ⟨q, u, _, _, _, hlu, hql, hq, hu, by rw [← hx, List.reverse_reverse], ?_, ?_, hend k (by omega), hend (k + 1) hk⟩
  · have := mul_nonneg (sub_nonneg.2 hle) ht0
    linarith
  · have := mul_le_mul_of_nonneg_left ht1 (sub_nonneg.2 hle)
    linarith

/-! ### C56: which pieces are inside -/

theorem no_zero_same_sign {f : ℝ → ℝ} {a b : ℝ} (hf : ContinuousOn f (Set.uIcc a b)) (hz : ∀ x ∈ Set.uIcc a b, f x ≠ 0) :
    f a ≤ 0 ↔ f b ≤ 0 := by
  have hsub := intermediate_value_uIcc hf
  have h0 : (0 : ℝ) ∉ Set.uIcc (f a) (f b) := by
    intro h
    obtain ⟨x, hx, hfx⟩ := hsub h
    exact hz x hx hfx
  rw [Set.mem_uIcc] at h0
  push Not at h0
  constructor
  · intro ha
    by_contra hb
    exact absurd (h0.1 ha) (by linarith [not_le.1 hb])
  · intro hb
    by_contra ha
    exact absurd (h0.2 hb) (by linarith [not_le.1 ha])

/-- A value of [0,1] that is not a break is strictly between two consecutive breaks. -/
theorem exists_piece (rts : List (Root ℝ)) (hs : rts.Pairwise (fun a b => a.1 ≤ b.1)) (x : ℝ) (hne : ∀ b ∈ rts, x ≠ b.1)
    (h0 : ∃ b ∈ rts, b.1 < x) (h1 : ∃ b ∈ rts, x < b.1) :
    ∃ k, k + 1 < rts.length ∧ (rts.getD k (0, -1)).1 < x ∧ x < (rts.getD (k + 1) (0, -1)).1 := by
  induction rts with
  | nil => obtain ⟨b, hb, _⟩ := h0; simp at hb
  | cons a l ih =>
    rw [List.pairwise_cons] at hs
    cases l with
    | nil =>
      obtain ⟨b, hb, hb'⟩ := h0
      obtain ⟨c, hc, hc'⟩ := h1
      simp only [List.mem_singleton] at hb hc
      subst hb; subst hc
      exact absurd hb' (by linarith)
    | cons c l =>
      have ha : a.1 < x := by
        obtain ⟨b, hb, hb'⟩ := h0
        rcases List.mem_cons.1 hb with rfl | hb
        · exact hb'
        · exact lt_of_le_of_lt (hs.1 b hb) hb'
      rcases lt_or_ge x c.1 with hc | hc
      · exact ⟨0, by simp, by simpa using ha, by simpa using hc⟩
      · have hc : c.1 < x := lt_of_le_of_ne hc (fun e => hne c (by simp) e.symm)
        obtain ⟨k, k1, k2, k3⟩ := ih hs.2 (fun b hb => hne b (by simp [hb])) ⟨c, by simp, hc⟩ (by
          obtain ⟨b, hb, hb'⟩ := h1
          rcases List.mem_cons.1 hb with rfl | hb
          · exact absurd hb' (by linarith)
          · exact ⟨b, hb, hb'⟩)
        exact ⟨k + 1, by simpa using k1, by simpa using k2, by simpa using k3⟩

/-- **C56** On the line over a base point, if the root finder finds all the zeros of the (continuous) polynomials: a point that is
farther than the tolerance from the breaks is in the domain (no polynomial is positive) iff it is in an interval that the
reparameterization takes for inside. -/
theorem C56_inside_intervals (E : Env ℝ) (hE : EnvOk E) (L : Level ℝ) (hL : RootsOk [L]) (q : List ℝ)
    (hcont : ∀ i, i < L.phi.count → ContinuousOn (fun x => L.phi.eval i (addComponent q L.dir x)) (Set.Icc 0 1))
    (hall : ∀ i, i < L.phi.count → ∀ x, 0 ≤ x → x ≤ 1 → L.phi.eval i (addComponent q L.dir x) = 0 → x ∈ L.phi.roots i q)
    (x : ℝ) (hx0 : 0 ≤ x) (hx1 : x ≤ 1) (hfar : ∀ b ∈ breaks E L q, E.tol < |x - b.1|) :
    (∀ i, i < L.phi.count → L.phi.eval i (addComponent q L.dir x) ≤ 0) ↔
      ∃ k, InsideInterval E L q k ∧ ((breaks E L q).getD k (0, -1)).1 < x ∧ x < ((breaks E L q).getD (k + 1) (0, -1)).1 := by
  have ht := hE.tol0
  obtain ⟨mid, hmid, -, hnear⟩ := near_breaks hE.tol0 hE.tol1 hE.sort hL q
  have hsort := breaks_sorted hE.tol0 hE.sort hL q
  obtain ⟨rts, hrts⟩ : ∃ rts, rts = breaks E L q := ⟨_, rfl⟩
  have hmid' : rts = (0, -1) :: mid ++ [(1, -1)] := by rw [hrts]; exact hmid
  rw [← hrts] at hfar hsort
  have hne : ∀ b ∈ rts, x ≠ b.1 := by
    intro b hb e
    have := hfar b hb
    rw [e, sub_self, abs_zero] at this
    linarith
  have hm0 : ((0 : ℝ), (-1 : Int)) ∈ rts := by rw [hmid']; simp
  have hm1 : ((1 : ℝ), (-1 : Int)) ∈ rts := by rw [hmid']; simp
  have hb01 : ∀ b ∈ rts, 0 ≤ b.1 ∧ b.1 ≤ 1 := by rw [hrts]; exact breaks_mem hE.tol0 hE.sort hL q
  obtain ⟨k, hk, hk0, hk1⟩ := exists_piece rts hsort x hne ⟨_, hm0, lt_of_le_of_ne hx0 (fun e => hne _ hm0 e.symm)⟩
    ⟨_, hm1, lt_of_le_of_ne hx1 (hne _ hm1)⟩
  -- the sign does not change between a point and the mid-point of its interval
  have hsign : ∀ k, k + 1 < rts.length → (rts.getD k (0, -1)).1 < x → x < (rts.getD (k + 1) (0, -1)).1 →
      E.tol < |(rts.getD k (0, -1)).1 - (rts.getD (k + 1) (0, -1)).1| ∧
      ∀ i, i < L.phi.count → (L.phi.eval i (addComponent q L.dir x) ≤ 0 ↔ L.phi.eval i (midPoint L rts q k) ≤ 0) := by
    intro k hk hk0 hk1
    have hgk : rts.getD k (0, -1) = rts[k] := List.getD_eq_getElem _ _ (by omega)
    have hgk1 : rts.getD (k + 1) (0, -1) = rts[k + 1] := List.getD_eq_getElem _ _ hk
    obtain ⟨a, ha⟩ : ∃ a, a = (rts.getD k (0, -1)).1 := ⟨_, rfl⟩
    obtain ⟨b, hb⟩ : ∃ b, b = (rts.getD (k + 1) (0, -1)).1 := ⟨_, rfl⟩
    unfold midPoint
    rw [← ha] at hk0
    rw [← hb] at hk1
    rw [← ha, ← hb]
    have hma : rts[k] ∈ rts := List.getElem_mem _
    have hmb : rts[k + 1] ∈ rts := List.getElem_mem _
    have fa : E.tol < x - a := by
      have := hfar _ hma
      rw [← hgk, ← ha, abs_of_pos (by linarith)] at this
      exact this
    have fb : E.tol < b - x := by
      have := hfar _ hmb
      rw [← hgk1, ← hb, abs_of_neg (by linarith)] at this
      linarith
    have a01 := hb01 _ hma
    have b01 := hb01 _ hmb
    rw [← hgk, ← ha] at a01
    rw [← hgk1, ← hb] at b01
    refine ⟨by rw [abs_sub_comm, abs_of_pos (by linarith)]; linarith, ?_⟩
    intro i hi
    have hsub : Set.uIcc x (1 / 2 * (a + b)) ⊆ Set.Icc 0 1 := by
      intro y hy
      rw [Set.mem_uIcc] at hy
      constructor <;> rcases hy with hy | hy <;> linarith [hy.1, hy.2]
    refine no_zero_same_sign (f := fun x => L.phi.eval i (addComponent q L.dir x)) ((hcont i hi).mono hsub) ?_
    intro r hr hzero
    have hr01 := hsub hr
    have hroot := hall i hi r hr01.1 hr01.2 hzero
    obtain ⟨c, hc, -, hcr⟩ := hnear i hi r hroot
    have hc' : c ∈ rts := by rw [hmid']; simp [hc]
    obtain ⟨j, hj, hjc⟩ := List.getElem_of_mem hc'
    rw [Set.mem_uIcc] at hr
    have habs := abs_le.1 hcr
    rcases Nat.lt_or_ge j (k + 1) with hjk | hjk
    · have hle : c.1 ≤ a := by
        rw [ha, hgk, ← hjc]
        rcases Nat.lt_or_ge j k with h | h
        · exact List.pairwise_iff_getElem.1 hsort j k _ _ h
        · have : j = k := by omega
          subst this; exact le_refl _
      rcases hr with hr | hr <;> linarith [hr.1, hr.2, habs.1, habs.2]
    · have hle : b ≤ c.1 := by
        rw [hb, hgk1, ← hjc]
        rcases Nat.lt_or_ge (k + 1) j with h | h
        · exact List.pairwise_iff_getElem.1 hsort (k + 1) j _ _ h
        · have : j = k + 1 := by omega
          subst this; exact le_refl _
      rcases hr with hr | hr <;> linarith [hr.1, hr.2, habs.1, habs.2]
  unfold InsideInterval
  rw [← hrts]
  constructor
  · intro hin
    obtain ⟨h1, h2⟩ := hsign k hk hk0 hk1
    exact ⟨k, ⟨hk, h1, fun i hi => (h2 i hi).1 (hin i hi)⟩, hk0, hk1⟩
  · rintro ⟨j, ⟨hj, -, hin⟩, hj0, hj1⟩
    obtain ⟨-, h2⟩ := hsign j hj hj0 hj1
    intro i hi
    exact (h2 i hi).2 (hin i hi)

/-! ### C55: domains without interfaces -/

theorem scale_fullCellPoint (cheb : Nat → Nat → K) (o : Nat) : ∀ (domain : Box K) (t : List Nat),
    scalePoint (unitBox domain.length) domain (fullCellPoint cheb o (unitBox domain.length) t) = fullCellPoint cheb o domain t := by
  intro domain
  induction domain with
  | nil => intro t; simp [scalePoint, fullCellPoint, unitBox]
  | cons iv domain ih =>
    intro t
    cases t with
    | nil => simp [scalePoint, fullCellPoint, unitBox]
    | cons a t =>
      have := ih t
      unfold scalePoint fullCellPoint unitBox at this ⊢
      rw [List.length_cons, List.replicate_succ, List.zipWith_cons_cons, List.zip_cons_cons, List.zipWith_cons_cons, List.zipWith_cons_cons, this]
      congr 1
      simp only [sub_zero, div_one, zero_mul, zero_add, one_mul]
      ring

/-- **C55** When no polynomial has zeros in the cell (all the masks are empty), or one of the polynomials has no zeros and is positive
(so that the region is empty), the reparameterization appends nothing for the level set, and one cell that fills the domain for the volume: its points are the tensor-product nodes in the domain. -/
theorem C55_no_interfaces (cheb : Nat → Nat → K) (norm : List K → K) (E : Env K) (phis : List (BezierPoly K) → List (PolySet K))
    (outer : List K → List K) (wtol : K) (m : Mesh K) (polys : List (BezierPoly K)) (domain : Box K)
    (hmask : (∀ f ∈ polys, f.maskEmpty = true) ∨ ∃ f ∈ polys, f.maskEmpty = true ∧ 0 < f.centre) (hphi : ∃ phi rest, phis [] = phi :: rest ∧ phi.count = 0)
    (h : Setup cheb E (phis []) m) (hd : domain.length = m.range) (hd2 : ∀ iv ∈ domain, iv.1 ≤ iv.2) (m' : Mesh K)
    (hm' : reparameterize cheb norm E phis outer wtol m polys domain = some m') :
    (E.S = true → m' = m) ∧
    (E.S = false → m'.points = m.points ++ (indices (List.replicate m.dim m.order)).map (fullCellPoint cheb m.order domain) ∧
      m'.conn.take m.conn.length = m.conn ∧
      (m'.conn.drop m.conn.length).Perm (List.range' m.points.length (m.order ^ m.dim))) := by
  have hkept : keptPolys polys = [] := by
    unfold keptPolys
    split
    · rfl
    · rename_i hno
      rw [List.filter_eq_nil_iff]
      intro f hf
      rcases hmask with hmask | ⟨g, hg, hg1, hg2⟩
      · simp [hmask f hf]
      · exact absurd (List.any_eq_true.2 ⟨g, hg, by simp [hg1, hg2]⟩) hno
  obtain ⟨phi, rest, hp, hcnt⟩ := hphi
  have hr0 : 0 < m.range := by have := h.range; have := h.dim; omega
  have hb : build m.range (phis (keptPolys polys)) [] = (m.range, []) := by
    rw [hkept, hp]
    obtain ⟨k, hk⟩ := Nat.exists_eq_succ_of_ne_zero (by omega : m.range ≠ 0)
    rw [hk, build, if_pos hcnt]
  obtain ⟨P, C, W, h1, h2, h3, h4, h5, P0, h6, h7⟩ := reparam_appends cheb norm E phis outer wtol m polys domain (by rw [hkept]; exact h) hd hd2 m' hm'
  rw [hb] at h2
  unfold cellCount at h2
  constructor
  · intro hS
    rw [hS] at h2
    simp only [List.isEmpty_nil, if_true, Nat.zero_mul] at h2
    have hP : P = [] := List.length_eq_zero_iff.1 h2
    subst hP
    have hC : C = [] := by simpa using h3
    subst hC
    have hW : W = [] := by
      cases W with
      | nil => rfl
      | cons e W =>
        obtain ⟨e1, e2⟩ := h5 e (by simp)
        cases e with
        | nil => have := h.order2; simp at e1; omega
        | cons i e => have := e2 i (by simp); simp at this; omega
    subst hW
    rw [h1]
    simp
  · intro hS
    rw [hS] at h2
    simp only [List.isEmpty_nil, if_true, Bool.false_eq_true, if_false, Nat.one_mul] at h2
    have hr : m.range = m.dim := by rw [h.range, hS]; simp
    rw [h1]
    dsimp only
    refine ⟨?_, by rw [List.take_left], by rw [List.drop_left, ← h2]; exact h3⟩
    rw [h7]
    unfold create at h6
    rw [hb] at h6
    simp only [List.isEmpty_nil, if_true, hS, Bool.false_eq_true, if_false] at h6
    have hpe := pushFullCell_eq cheb m (unitBox m.range) h.dim h.order2
    have hfull : addFullCell cheb m (unitBox m.range) false = some (pushFullCell cheb m (unitBox m.range)) := by
      unfold addFullCell numCells ppc
      rw [hpe]
      dsimp only
      rw [if_pos (by rw [List.length_append, List.length_range', Nat.add_mod_right]; exact h.whole)]
      rfl
    rw [hfull, hpe] at h6
    simp only [Option.map_some, Option.some.injEq] at h6
    rw [← List.append_cancel_left h6, List.map_map]
    congr 1
    apply List.map_congr_left
    intro t _
    rw [Function.comp_apply, ← hd]
    exact scale_fullCellPoint cheb m.order domain t

/-- **C55** (negative polynomials): polynomials without zeros that are not positive impose nothing: the cells are those of the other
polynomials. -/
theorem C55_negative_polynomials (cheb : Nat → Nat → K) (E : Env K) (phis : List (BezierPoly K) → List (PolySet K)) (m : Mesh K)
    (polys : List (BezierPoly K)) (hneg : ∀ f ∈ polys, f.maskEmpty = true → f.centre ≤ 0) :
    create cheb E phis m polys = create cheb E phis m (polys.filter fun f => !f.maskEmpty) := by
  have hk : keptPolys polys = keptPolys (polys.filter fun f => !f.maskEmpty) := by
    unfold keptPolys
    have h1 : ¬ (polys.any fun q => q.maskEmpty && decide (0 < q.centre)) = true := by
      rw [List.any_eq_true]
      rintro ⟨f, hf, h⟩
      rw [Bool.and_eq_true, decide_eq_true_eq] at h
      exact absurd h.2 (not_lt.2 (hneg f hf h.1))
    have h2 : ¬ ((polys.filter fun f => !f.maskEmpty).any fun q => q.maskEmpty && decide (0 < q.centre)) = true := by
      rw [List.any_eq_true]
      rintro ⟨f, hf, h⟩
      rw [Bool.and_eq_true] at h
      have := (List.mem_filter.1 hf).2
      rw [h.1] at this
      simp at this
    rw [if_neg h1, if_neg h2, List.filter_filter]
    simp
  unfold create
  rw [hk]

-- A polynomial without zeros and negative next to one with zeros: the hypotheses are met, and one polynomial is kept.
example : (keptPolys [⟨true, -1, fun _ => -1⟩, (⟨false, 0, fun x => vat x 0 - 1/2⟩ : BezierPoly ℚ)]).length = 1 := by decide +kernel

/-- **C55** (positive polynomials). The reparameterization of the volume of an empty domain, given by a polynomial that is positive
everywhere (and whose mask is therefore empty), is not empty: it is the whole cell. -/
theorem C55_positive_polynomials_fail (cheb : Nat → Nat → K) (norm : List K → K) (E : Env K) (phis : List (BezierPoly K) → List (PolySet K))
    (outer : List K → List K) (wtol : K) (m : Mesh K) (f : BezierPoly K) (domain : Box K) (hf : ∀ x, 0 < f.value x)
    (hmask : f.maskEmpty = true) (hphi : ∃ phi rest, phis [] = phi :: rest ∧ phi.count = 0) (h : Setup cheb E (phis []) m)
    (hS : E.S = false) (hd : domain.length = m.range) (hd2 : ∀ iv ∈ domain, iv.1 ≤ iv.2) :
    (∀ x, ¬ f.value x ≤ 0) ∧ ∃ m', reparameterize cheb norm E phis outer wtol m [f] domain = some m' ∧
      m'.points = m.points ++ (indices (List.replicate m.dim m.order)).map (fullCellPoint cheb m.order domain) ∧
      m'.conn.length = m.conn.length + m.order ^ m.dim := by
  have hkept : keptPolys [f] = [] := by unfold keptPolys; simp [hmask]
  have hb : (build m.range (phis (keptPolys [f])) []).2 = [] := by
    obtain ⟨phi, rest, hp, hcnt⟩ := hphi
    have hr0 : 0 < m.range := by have := h.range; have := h.dim; omega
    rw [hkept, hp]
    obtain ⟨k, hk⟩ := Nat.exists_eq_succ_of_ne_zero (by omega : m.range ≠ 0)
    rw [hk, build, if_pos hcnt]
  obtain ⟨m', hm'⟩ := C53_reparam_succeeds_partial cheb norm E phis outer wtol m [f] domain (by rw [hkept]; exact h) rfl (Or.inr (Or.inl hb))
  have hmm : ∀ g ∈ [f], g.maskEmpty = true := by intro g hg; rw [List.mem_singleton.1 hg]; exact hmask
  obtain ⟨h1, h2, h3⟩ := (C55_no_interfaces cheb norm E phis outer wtol m [f] domain (Or.inl hmm) hphi h hd hd2 m' hm').2 hS
  refine ⟨fun x => not_le.2 (hf x), m', hm', h1, ?_⟩
  have := h3.length_eq
  rw [List.length_range', List.length_drop] at this
  have hl := congrArg List.length h2
  rw [List.length_take] at hl
  omega

/-! ### Examples -/

-- C55: the reparameterization of the empty domain {1 ≤ 0} is the whole cell.
example : reparameterize exCheb (fun _ => 1) (exEnv false) (fun _ => [⟨0, 0, fun _ _ => [], fun _ _ => 0⟩]) (fun _ => [1, 0]) (1/1000)
    (exMesh 2) [⟨true, 1, fun _ => 1⟩] [(0, 2), (0, 4)] = some ⟨2, 2, 2, [[9, 9], [0, 0], [2, 0], [0, 4], [2, 4]], [0, 0, 0, 0, 1, 2, 3, 4],
      [1, 3, 2, 4, 1, 2, 3, 4]⟩ := by decide +kernel

-- C57: the half plane of the examples of C53 has one root, 1/2, over every base point.
example : SteadyAt (exEnv true) (topLevel 2 exPhi [⟨0, 0, fun _ _ => [], fun _ _ => 0⟩]) [1/3] [1/5] := by
  intro i _
  refine ⟨rfl, ?_⟩
  intro r hr
  have : r = 1/2 := by simpa [topLevel, exPhi] using hr
  rw [this]
  norm_num [exEnv]

/-- C56: a parabola on a line, with its two roots. -/
noncomputable def exParabola : Level ℝ := ⟨⟨1, 0, fun _ _ => [1/4, 3/4], fun _ x => (vat x 0 - 1/4) * (vat x 0 - 3/4)⟩, 0, 0⟩

example : (∀ i, i < exParabola.phi.count → ContinuousOn (fun x => exParabola.phi.eval i (addComponent [] exParabola.dir x)) (Set.Icc 0 1)) ∧
    (∀ i, i < exParabola.phi.count → ∀ x, 0 ≤ x → x ≤ 1 → exParabola.phi.eval i (addComponent [] exParabola.dir x) = 0 →
      x ∈ exParabola.phi.roots i []) := by
  constructor
  · intro i _
    simp only [exParabola, addComponent, List.insertIdx_zero, vat, List.getD_cons_zero]
    fun_prop
  · intro i _ x _ _ h
    simp only [exParabola, addComponent, List.insertIdx_zero, vat, List.getD_cons_zero, mul_eq_zero, sub_eq_zero] at h
    simpa [exParabola] using h

end Qugar.Reparam
