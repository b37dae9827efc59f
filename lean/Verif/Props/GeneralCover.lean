import Verif.Lemmas.GeneralCoverBox
import Verif.Props.GeneralPlane
/-
Property theorems on the region that the reparameterization of a general implicit function stands for.
-/
namespace Qugar.General
open Roots Mesh Poly Reparam Spec TS
variable {K : Type} [Field K] [LinearOrder K] [IsStrictOrderedRing K]

/-- **C60** (the region): in the plane, with exact arithmetic, sound interval evaluations, exact root finding, and a box that is resolved by
the subdivision, the reparameterization of the negative region appends one cell for each of a list of columns: the vertices of the cell
are the lattice of the column (possibly with the two directions exchanged, to orient it positively). The columns are in the box, do not
overlap, the function is not positive in them, and they cover every point of the box where it is negative. Missing for the full property:
dimension three, the level set, and the tolerance. -/
theorem C60_plane_coverage_partial (norm : List K → K) (E : Env K) (F : Fn K) (outer : List K → List K) (wtol : K) (m : Mesh K) (domain : Box K)
    (h : Setup E F m domain (m.range - if E.S then 1 else 0)) (hS : E.S = false) (h2 : m.range = 2) (h0 : E.tol = 0) (hs : Sound 2 F)
    (hi' : Intermediate 2 F) (hR : Resolves F 16 domain) :
    ∃ (P : List (List K)) (C W : List Nat) (cols : List (Column K)),
      reparameterize norm E F outer wtol m domain = some ⟨m.dim, m.range, m.order, m.points ++ P, m.conn ++ C, m.wires ++ W⟩ ∧
      C.length = cols.length * m.order ^ 2 ∧
      (∀ k (hk : k < cols.length),
        (∀ i j, i < m.order → j < m.order → vertex 2 m.order (m.points ++ P) (m.conn ++ C) (m.conn.length / m.order ^ 2 + k) [i, j] =
          cols[k].lattice (pointIn01 E.cheb m.order) [i, j]) ∨
        (∀ i j, i < m.order → j < m.order → vertex 2 m.order (m.points ++ P) (m.conn ++ C) (m.conn.length / m.order ^ 2 + k) [i, j] =
          cols[k].lattice (pointIn01 E.cheb m.order) [j, i])) ∧
      Covers F.val domain cols := by
  obtain ⟨P, C, W, k, p1, p2, p3, p4, p5, m1, r1, r2, r3, r4⟩ := general_core norm E F outer wtol m domain h
  obtain ⟨E', hE'⟩ : ∃ E' : Env K, E' = { E with order := m.order } := ⟨_, rfl⟩
  have hS' : E'.S = false := by rw [hE']; exact hS
  have hd : m.dim = 2 := by rw [h.dim, h2, hS]; rfl
  have hp : Par E' F 2 m.dim none := by
    rw [hE']
    exact ⟨h.roots, h.tol0, h.tol1, h.sort, h.order, h.nodes, Or.inl rfl, by rw [hd, hS]; rfl, fun _ => rfl⟩
  unfold runCtor at r1
  rw [← hE', h2] at r1
  obtain ⟨acts, a1, a2⟩ := Option.bind_eq_some_iff.1 r1
  obtain ⟨st, s1, s2⟩ := Option.bind_eq_some_iff.1 a2
  have s2 := Option.some.inj s2
  have hb : domain.length = 2 := by rw [h.box, h2]
  have hext : ∀ k, k < 2 → 0 < extent domain k := by
    intro k hk
    have := h.lt _ (getD_mem_box (by rw [hb]; exact hk))
    unfold extent
    linarith
  have hw : m.conn.length % m.order ^ 2 = 0 := by have := h.whole; rwa [hd] at this
  have fine := plane_cover hp (by rw [hE']; exact h0) hS' hs hi' maxSubdivs _ domain acts rfl (by simp) hb hext hR a1
  obtain ⟨st', cols, t1, t2, t3⟩ := fine m hd (by rw [hE']) hw
  have hch : E'.cheb = E.cheb := by rw [hE']
  rw [hch] at t1
  rw [s1] at t1
  rw [← Option.some.inj t1, s2] at t2
  obtain ⟨P', C', e, l, _, v⟩ := t2
  have hP : P' = P := by
    rw [e] at r2
    exact List.append_cancel_left r2
  subst hP
  refine ⟨P', C, W.flatten, cols, p1, ?_, ?_, t3⟩
  · rw [e] at r3
    have r3 : (m.conn ++ C).length = (m.conn ++ C').length := r3
    rw [List.length_append, List.length_append] at r3
    omega
  · intro k hk
    have hidx : ∀ i j, i < m.order → j < m.order → [i, j] ∈ indices [m.order, m.order] := by
      intro i j hi hj
      rw [mem_indices]
      exact .cons hi (.cons hj .nil)
    have hn : node E' = pointIn01 E.cheb m.order := by rw [hE']; rfl
    rw [hn] at v
    have r4 := r4 (m.conn.length / m.order ^ 2 + k)
    rw [e] at r4
    dsimp only [] at r4
    rw [hd] at r4
    rcases r4 with r4 | r4
    · left
      intro i j hi hj
      rw [← v k hk [i, j] (hidx i j hi hj)]
      exact r4 [i, j] (hidx i j hi hj)
    · right
      intro i j hi hj
      rw [← v k hk [j, i] (hidx j i hj hi)]
      exact r4 [i, j] (hidx i j hi hj)

example : ∃ (P : List (List ℚ)) (C W : List Nat) (cols : List (Column ℚ)),
    reparameterize (fun _ => 1) (hyEnv false) hyFn (fun _ => [1, 0]) (1/1000) (hyMesh false) [(0, 1), (0, 1)] =
      some ⟨2, 2, 2, [[9, 9]] ++ P, List.replicate 4 0 ++ C, [] ++ W⟩ ∧ C.length = cols.length * 2 ^ 2 ∧
    Covers hyVal [(0, 1), (0, 1)] cols := by
  obtain ⟨P, C, W, cols, h1, h2, _, h3⟩ := C60_plane_coverage_partial (fun _ => 1) (hyEnv false) hyFn (fun _ => [1, 0]) (1/1000) (hyMesh false) [(0, 1), (0, 1)]
    (hySetup false) rfl rfl rfl hySound hyIntermediate (resolvesB_spec (by decide +kernel))
  exact ⟨P, C, W, cols, h1, h2, h3⟩

end Qugar.General
