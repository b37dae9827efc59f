import Verif.Lemmas.MeshWires
import Verif.Lemmas.MeshDeriv
/-
Operations on the last cells and points of a mesh leave the others unchanged.
-/
namespace Qugar.Mesh
open Spec Poly TS
variable {K : Type} [Field K] [LinearOrder K]

theorem take_eq_of_getD {l l' : List Nat} {n : Nat} (hl : l'.length = l.length) (h : ∀ k, k < n → l'.getD k 0 = l.getD k 0) :
    l'.take n = l.take n := by
  apply List.ext_getElem
  · simp [hl]
  · intro k h1 h2
    have hk : k < n ∧ k < l'.length := by simpa using h1
    rw [List.getElem_take, List.getElem_take]
    have := h k hk.1
    rwa [List.getD_eq_getElem _ _ hk.2, List.getD_eq_getElem _ _ (by omega)] at this

/-- Each cell of `m'` is the cell of `m`, or the same cell with flipped directions. -/
def SameOrFlipped (m m' : Mesh K) : Prop := ∀ c,
  (∀ t ∈ indices (List.replicate m.dim m.order), vert m' c t = vert m c t) ∨
  (∀ t ∈ indices (List.replicate m.dim m.order), vert m' c t = vert m c (mirror m.order t))

theorem orient_tail (m0 : Mesh K) (hdim : 0 < m0.dim) (ho : 1 < m0.order) (hlen : m0.conn.length % ppc m0 = 0) (n0 : Nat)
    (step : Mesh K → Nat → Option (Mesh K))
    (hstep : ∀ m, SameShape m0 m → ∀ c < m0.conn.length / ppc m0, step m c = permuteCell m c ∨ step m c = some m) :
    ∀ (cells : List Nat) (m : Mesh K), SameShape m0 m → (∀ c ∈ cells, n0 ≤ c ∧ c < m0.conn.length / ppc m0) →
    ∃ m', cells.foldlM step m = some m' ∧ SameShape m0 m' ∧ m'.conn.take (n0 * ppc m0) = m.conn.take (n0 * ppc m0) ∧
      SameOrFlipped m m' := by
  intro cells
  induction cells with
  | nil => intro m hm _; exact ⟨m, rfl, hm, rfl, fun c => Or.inl fun t _ => rfl⟩
  | cons c cells ih =>
    intro m hm hc
    obtain ⟨hc1, hc2⟩ := hc c (by simp)
    have hw : m.conn.length % ppc m = 0 := by rw [hm.len, hm.ppc]; exact hlen
    have hcm : c < m.conn.length / ppc m := by rw [hm.len, hm.ppc]; exact hc2
    have key : ∃ m1, step m c = some m1 ∧ SameShape m0 m1 ∧ m1.conn.take (n0 * ppc m0) = m.conn.take (n0 * ppc m0) ∧
        SameOrFlipped m m1 := by
      rcases hstep m hm c hc2 with h | h
      · obtain ⟨m1, e1, e2, e3, e4⟩ := permute_vert m c (by rw [hm.dim]; exact hdim) (by rw [hm.order]; exact ho) hw hcm
        obtain ⟨conn', p1, p2, p3, _, p5⟩ := permuteCell_spec m c (by rw [hm.dim]; exact hdim) (by rw [hm.order]; exact ho) hw hcm
        have hm1 : m1 = { m with conn := conn' } := by rw [p1] at e1; exact (Option.some.inj e1).symm
        refine ⟨m1, by rw [h, e1], hm.trans e2, ?_, ?_⟩
        · rw [hm1]
          refine take_eq_of_getD p2 fun k hk => p5 k (Or.inl ?_)
          rw [hm.ppc]
          exact lt_of_lt_of_le hk (Nat.mul_le_mul_right _ hc1)
        · intro c'
          by_cases hcc : c' = c
          · subst hcc; exact Or.inr e3
          · exact Or.inl (e4 c' hcc)
      · exact ⟨m, h, hm, rfl, fun c => Or.inl fun t _ => rfl⟩
    obtain ⟨m1, s1, s2, s3, s4⟩ := key
    obtain ⟨m2, r1, r2, r3, r4⟩ := ih m1 s2 fun c' hc' => hc c' (by simp [hc'])
    refine ⟨m2, by rw [List.foldlM_cons, s1]; exact r1, r2, r3.trans s3, ?_⟩
    intro c'
    have hd1 : m1.dim = m.dim := s2.dim.trans hm.dim.symm
    have ho1 : m1.order = m.order := s2.order.trans hm.order.symm
    have r4' := r4 c'
    rw [hd1, ho1] at r4'
    rcases s4 c' with a | a <;> rcases r4' with b | b
    · exact Or.inl fun t ht => (b t ht).trans (a t ht)
    · exact Or.inr fun t ht => (b t ht).trans (a _ (mirror_mem ht))
    · exact Or.inr fun t ht => (b t ht).trans (a t ht)
    · exact Or.inl fun t ht => by rw [b t ht, a _ (mirror_mem ht), mirror_invol ht]

theorem replicate_one_lt {d n : Nat} (h : 1 < n) : ∀ k ∈ List.replicate d n, 1 < k := by
  intro k hk; rw [(List.mem_replicate.1 hk).2]; exact h

theorem numCells_of_sameShape {m0 m : Mesh K} (h : SameShape m0 m) (hlen : m0.conn.length % ppc m0 = 0) :
    numCells m = some (m0.conn.length / ppc m0) := by
  unfold numCells
  rw [h.len, h.ppc, if_pos hlen]

theorem orientCells_tail (cheb : Nat → Nat → K) (m : Mesh K) (hdim : 0 < m.dim) (ho : 1 < m.order)
    (hlen : m.conn.length % ppc m = 0) (n0 : Nat) (cells : List Nat) (hc : ∀ c ∈ cells, n0 ≤ c ∧ c < m.conn.length / ppc m) :
    ∃ m', orientCells cheb m cells = some m' ∧ SameShape m m' ∧ m'.conn.take (n0 * ppc m) = m.conn.take (n0 * ppc m) ∧
      SameOrFlipped m m' := by
  unfold orientCells
  rw [Lagrange.derivative_eq cheb _ _ false (replicate_one_lt ho)]
  simp only [Option.bind_eq_bind, Option.bind_some]
  refine orient_tail m hdim ho hlen n0 _ ?_ cells m (SameShape.refl m) hc
  intro m1 hm1 c hcc
  rw [numCells_of_sameShape hm1 hlen]
  simp only [Option.bind_some]
  rw [if_pos hcc]
  split
  · exact Or.inl rfl
  · exact Or.inr rfl

theorem orientLevelset_tail (cheb : Nat → Nat → K) (norm : List K → K) (m : Mesh K) (outer : List K → List K) (hdim : 0 < m.dim)
    (ho : 1 < m.order) (hlen : m.conn.length % ppc m = 0) (n0 : Nat) (cells : List Nat)
    (hc : ∀ c ∈ cells, n0 ≤ c ∧ c < m.conn.length / ppc m) :
    ∃ m', orientLevelset cheb norm m cells outer = some m' ∧ SameShape m m' ∧
      m'.conn.take (n0 * ppc m) = m.conn.take (n0 * ppc m) ∧ SameOrFlipped m m' := by
  unfold orientLevelset
  rw [Lagrange.derivative_eq cheb _ _ false (replicate_one_lt ho), Lagrange.basis_eq cheb _ _ false (replicate_one_lt ho)]
  simp only [Option.bind_eq_bind, Option.bind_some]
  refine orient_tail m hdim ho hlen n0 _ ?_ cells m (SameShape.refl m) hc
  intro m1 hm1 c hcc
  rw [numCells_of_sameShape hm1 hlen]
  simp only [Option.bind_some]
  rw [if_pos hcc]
  split
  · exact Or.inl rfl
  · exact Or.inr rfl

/-- Scaling of the last points. -/
theorem scalePoints_tail (m : Mesh K) (old new : Box K) : ∀ (Q P : List (List K)), m.points = P ++ Q →
    scalePoints m (List.range' P.length Q.length) old new = some { m with points := P ++ Q.map (scalePoint old new) } := by
  suffices h : ∀ (Q P : List (List K)) (m : Mesh K), m.points = P ++ Q →
    scalePoints m (List.range' P.length Q.length) old new = some { m with points := P ++ Q.map (scalePoint old new) } from
    fun Q P => h Q P m
  intro Q
  induction Q with
  | nil => intro P m h; simp [scalePoints, ← h]
  | cons q Q ih =>
    intro P m h
    have := ih (P ++ [scalePoint old new q]) { m with points := P ++ [scalePoint old new q] ++ Q } rfl
    unfold scalePoints at *
    have hq : m.points[P.length]? = some q := by rw [h]; simp
    rw [List.length_cons, List.range'_succ, List.foldlM_cons, hq]
    simp only [Option.bind_eq_bind, Option.bind_some] at *
    have e : m.points.set P.length (scalePoint old new q) = P ++ [scalePoint old new q] ++ Q := by
      rw [h, List.set_append_right _ _ (le_refl _), Nat.sub_self, List.set_cons_zero]
      simp
    rw [e]
    have hl : (P ++ [scalePoint old new q]).length = P.length + 1 := by simp
    rw [hl] at this
    rw [this]
    simp

end Qugar.Mesh
