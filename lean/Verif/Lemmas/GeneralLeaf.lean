import Verif.Lemmas.GeneralKeys
import Verif.Lemmas.ReparamEvents
/-
All the points inserted over a base, and their effect on the mesh.
-/
namespace Qugar.General
open Roots Mesh Poly Reparam Spec TS
variable {K : Type} [Field K] [LinearOrder K]

/-- The base indices: those smaller than `o` in the directions `A`, with zeros in the other ones. -/
def BaseIdx (n o : Nat) (A : Nat → Bool) (bs : List (List Nat)) : Prop :=
  bs.Nodup ∧ ∀ b, b ∈ bs ↔ b.length = n ∧ (∀ k, k < n → A k = true → b.getD k 0 < o) ∧ ∀ k, A k = false → b.getD k 0 = 0

/-- Indices smaller than `o`, with a zero in the direction `e` (if any). -/
def FullIdx (n o : Nat) (e : Option Nat) (t : List Nat) : Prop :=
  t.length = n ∧ (∀ k, k < n → some k ≠ e → t.getD k 0 < o) ∧ ∀ k, some k = e → t.getD k 0 = 0

theorem getD_map_range (n : Nat) (f : Nat → Nat) (k : Nat) : ((List.range n).map f).getD k 0 = if k < n then f k else 0 := by
  by_cases h : k < n
  · rw [if_pos h, List.getD_eq_getElem _ _ (by simpa using h), List.getElem_map, List.getElem_range]
  · rw [if_neg h, List.getD_eq_default _ _ (by simp; omega)]

theorem base_ext {n o : Nat} {A : Nat → Bool} {bs : List (List Nat)} {D : List Nat} {e : Option Nat} (hb : BaseIdx n o A bs)
    (hD : ∀ k ∈ D, A k = false ∧ k < n) (he : ∀ k, k < n → ((A k = true ∨ k ∈ D) ↔ some k ≠ e)) (hen : ∀ k, some k = e → k < n) (t : List Nat) :
    (∃ b ∈ bs, Ext o D b t) ↔ FullIdx n o e t := by
  constructor
  · rintro ⟨b, hbm, h1, h2, h3⟩
    obtain ⟨b1, b2, b3⟩ := (hb.2 b).1 hbm
    refine ⟨by rw [h1, b1], ?_, ?_⟩
    · intro k hk hke
      by_cases hkD : k ∈ D
      · exact h2 k hkD
      · rw [h3 k hkD]
        exact b2 k hk (((he k hk).2 hke).resolve_right hkD)
    · intro k hke
      have hk := hen k hke
      have hn : ¬ (A k = true ∨ k ∈ D) := fun h => (he k hk).1 h hke
      rw [not_or] at hn
      rw [h3 k hn.2, b3 k (by simpa using hn.1)]
  · rintro ⟨h1, h2, h3⟩
    refine ⟨(List.range n).map fun k => if k ∈ D then 0 else t.getD k 0, (hb.2 _).2 ⟨by simp, ?_, ?_⟩, by simp [h1], ?_, ?_⟩
    · intro k hk hA
      rw [getD_map_range, if_pos hk]
      have hkD : k ∉ D := fun h => by rw [(hD k h).1] at hA; simp at hA
      rw [if_neg hkD]
      exact h2 k hk ((he k hk).1 (Or.inl hA))
    · intro k hA
      rw [getD_map_range]
      by_cases hk : k < n
      · rw [if_pos hk]
        by_cases hkD : k ∈ D
        · rw [if_pos hkD]
        · rw [if_neg hkD]
          refine h3 k ?_
          by_contra hc
          rcases (he k hk).2 hc with h | h
          · rw [hA] at h; simp at h
          · exact hkD h
      · rw [if_neg hk]
    · intro k hkD
      have hk := (hD k hkD).2
      exact h2 k hk ((he k hk).1 (Or.inr hkD))
    · intro k hkD
      rw [getD_map_range]
      by_cases hk : k < n
      · rw [if_pos hk, if_neg hkD]
      · rw [if_neg hk, List.getD_eq_default _ _ (by omega)]

/-- Removing the direction `e` is a bijection onto the indices of a cell. -/
theorem er_mem {n o : Nat} {e : Option Nat} (hen : ∀ k, some k = e → k < n) {t : List Nat} (h : FullIdx n o e t) :
    er e t ∈ indices (List.replicate (n - if e.isSome then 1 else 0) o) := by
  rw [mem_indices_iff]
  obtain ⟨h1, h2, h3⟩ := h
  cases e with
  | none =>
    refine ⟨by simpa [er] using h1, ?_⟩
    intro x hx
    obtain ⟨k, hk, rfl⟩ := List.getElem_of_mem hx
    have := h2 k (by simpa [er, h1] using hk) (by simp)
    rwa [List.getD_eq_getElem _ _ (by simpa [er] using hk)] at this
  | some d =>
    have hd := hen d rfl
    refine ⟨by simp only [er, Option.isSome_some, if_true]; rw [List.length_eraseIdx_of_lt (by omega), h1], ?_⟩
    intro x hx
    obtain ⟨k, hk, hkd, hx⟩ := List.mem_eraseIdx_iff_getElem.1 hx
    have := h2 k (by omega) (by simpa using hkd)
    rw [List.getD_eq_getElem _ _ hk] at this
    rw [← hx]; exact this

theorem er_inj {n o : Nat} {e : Option Nat} (hen : ∀ k, some k = e → k < n) {s t : List Nat} (hs : FullIdx n o e s) (ht : FullIdx n o e t)
    (h : er e s = er e t) : s = t := by
  cases e with
  | none => exact h
  | some d =>
    have hd := hen d rfl
    have e1 : ∀ u, FullIdx n o (some d) u → u = (u.eraseIdx d).insertIdx d 0 := by
      intro u hu
      have hdu : d < u.length := by rw [hu.1]; exact hd
      have h0 : u[d] = 0 := by have := hu.2.2 d rfl; rwa [List.getD_eq_getElem _ _ hdu] at this
      have := List.insertIdx_eraseIdx_getElem hdu
      rw [h0] at this
      exact this.symm
    rw [e1 s hs, e1 t ht]
    exact congrArg (fun u => List.insertIdx u d 0) h

theorem er_surj {n o : Nat} {e : Option Nat} (hen : ∀ k, some k = e → k < n) {s : List Nat}
    (h : s ∈ indices (List.replicate (n - if e.isSome then 1 else 0) o)) : ∃ t, FullIdx n o e t ∧ er e t = s := by
  rw [mem_indices_iff] at h
  obtain ⟨h1, h2⟩ := h
  cases e with
  | none =>
    refine ⟨s, ⟨by simpa using h1, ?_, by simp⟩, rfl⟩
    intro k hk _
    have hk' : k < s.length := by simp at h1; omega
    rw [List.getD_eq_getElem _ _ hk']
    exact h2 _ (List.getElem_mem _)
  | some d =>
    have hd := hen d rfl
    simp only [Option.isSome_some, if_true] at h1
    have hl : (s.insertIdx d 0).length = n := by rw [List.length_insertIdx_of_le_length (by omega), h1]; omega
    refine ⟨s.insertIdx d 0, ⟨hl, ?_, ?_⟩, ?_⟩
    · intro k hk hkd
      have hkd : k ≠ d := by simpa using hkd
      have hk' : k < (s.insertIdx d 0).length := by omega
      rw [List.getD_eq_getElem _ _ hk']
      have := List.getElem_mem hk'
      rw [List.getElem_insertIdx]
      split
      · exact h2 _ (List.getElem_mem _)
      · try split
        all_goals first | omega | exact h2 _ (List.getElem_mem _)
    · intro k hk
      have hk : k = d := by simpa using hk
      subst hk
      rw [List.getD_eq_getElem _ _ (by omega), List.getElem_insertIdx_self]
    · exact List.eraseIdx_insertIdx_self ..

/-- The cells and indices of all the points over a base: every cell has every index exactly once. -/
theorem all_keys (E : Env K) (F : Fn K) {n : Nat} {Ls : List (Level K)} (hne : Ls ≠ []) (hd : DirsOk n Ls) (q : List K) {tid : List Nat}
    (htid : tid.length = n) {A : Nat → Bool} {bs : List (List Nat)} {e : Option Nat} (hb : BaseIdx n E.order A bs)
    (hA : ∀ L ∈ Ls, A L.dir = false) (he : ∀ k, k < n → ((A k = true ∨ k ∈ pdirs E.S Ls) ↔ some k ≠ e)) (hen : ∀ k, some k = e → k < n) :
    ((bs.flatMap (keys E F Ls q tid)).map fun c => (c.1, er e c.2)).Nodup ∧
    ∀ c t, (c, t) ∈ ((bs.flatMap (keys E F Ls q tid)).map fun c => (c.1, er e c.2)) ↔
      c ∈ cells E F Ls q tid ∧ t ∈ indices (List.replicate (n - if e.isSome then 1 else 0) E.order) := by
  have hD : ∀ k ∈ pdirs E.S Ls, A k = false ∧ k < n := by
    intro k hk
    obtain ⟨L, hL, rfl⟩ := List.mem_map.1 (pdirs_sub _ _ _ hk)
    exact ⟨hA L hL, hd.2 L hL⟩
  have hlen : ∀ b ∈ bs, b.length = n := fun b h => ((hb.2 b).1 h).1
  have hmem : ∀ c t, (c, t) ∈ bs.flatMap (keys E F Ls q tid) ↔ c ∈ cells E F Ls q tid ∧ FullIdx n E.order e t := by
    intro c t
    rw [← base_ext hb hD he hen, List.mem_flatMap]
    constructor
    · rintro ⟨b, hbm, h⟩
      have := (mem_keys E F Ls q tid b c t hne (by rw [hlen b hbm]; exact hd)).1 h
      exact ⟨this.1, b, hbm, this.2⟩
    · rintro ⟨h, b, hbm, h'⟩
      exact ⟨b, hbm, (mem_keys E F Ls q tid b c t hne (by rw [hlen b hbm]; exact hd)).2 ⟨h, h'⟩⟩
  constructor
  · rw [List.nodup_map_iff_inj_on]
    · rintro ⟨c, t⟩ h ⟨c', t'⟩ h' heq
      rw [Prod.mk.injEq] at heq ⊢
      exact ⟨heq.1, er_inj hen ((hmem c t).1 h).2 ((hmem c' t').1 h').2 heq.2⟩
    · rw [List.nodup_flatMap]
      constructor
      · intro b hbm
        exact keys_nodup E F Ls q tid b hne (by rw [htid]; exact hd) (by rw [hlen b hbm, htid])
      · refine List.Pairwise.imp_of_mem ?_ hb.1
        rintro b b' hbm hbm' hne' ⟨c, t⟩ h h'
        have h1 := ((mem_keys E F Ls q tid b c t hne (by rw [hlen b hbm]; exact hd)).1 h).2
        have h2 := ((mem_keys E F Ls q tid b' c t hne (by rw [hlen b' hbm']; exact hd)).1 h').2
        refine hne' (list_ext_getD (by rw [hlen b hbm, hlen b' hbm']) ?_)
        intro k
        by_cases hkD : k ∈ pdirs E.S Ls
        · rw [((hb.2 b).1 hbm).2.2 k (hD k hkD).1, ((hb.2 b').1 hbm').2.2 k (hD k hkD).1]
        · rw [← h1.2.2 k hkD, ← h2.2.2 k hkD]
  · intro c t
    rw [List.mem_map]
    constructor
    · rintro ⟨⟨c', t'⟩, h, heq⟩
      rw [Prod.mk.injEq] at heq
      obtain ⟨rfl, rfl⟩ := heq
      have := (hmem _ _).1 h
      exact ⟨this.1, er_mem hen this.2⟩
    · rintro ⟨h, h'⟩
      obtain ⟨t', ht', rfl⟩ := er_surj hen h'
      exact ⟨(c, t'), (hmem _ _).2 ⟨h, ht'⟩, rfl⟩

/-! ### Effect on the mesh -/

/-- `m'` is `m` with whole cells appended: their vertices are the new points, each used exactly once, all in the box `B`. -/
def Grown (B : Box K) (m m' : Mesh K) : Prop :=
  ∃ (P : List (List K)) (C : List Nat) (k : Nat), m' = { m with points := m.points ++ P, conn := m.conn ++ C } ∧
    C.Perm (List.range' m.points.length P.length) ∧ P.length = k * m.order ^ m.dim ∧
    ∀ p ∈ P, p.length = m.range ∧ ∀ k, k < m.range → InAt B p k

theorem grown_refl (B : Box K) (m : Mesh K) : Grown B m m := ⟨[], [], 0, by simp, by simp, by simp, by simp⟩

theorem grown_trans {B : Box K} {m1 m2 m3 : Mesh K} (h : Grown B m1 m2) (h' : Grown B m2 m3) : Grown B m1 m3 := by
  obtain ⟨P, C, k, rfl, h2, h3, h4⟩ := h
  obtain ⟨P', C', k', rfl, g2, g3, g4⟩ := h'
  dsimp only at g2 g3 g4
  refine ⟨P ++ P', C ++ C', k + k', by simp, ?_, ?_, ?_⟩
  · rw [List.length_append, ← List.range'_append_1]
    exact h2.append (by rw [List.length_append] at g2; exact g2)
  · rw [List.length_append, h3, g3, Nat.add_mul]
  · intro p hp
    rcases List.mem_append.1 hp with hp | hp
    · exact h4 p hp
    · exact g4 p hp

theorem Grown.whole {B : Box K} {m m' : Mesh K} (h : Grown B m m') (hw : m.conn.length % m.order ^ m.dim = 0) :
    m'.dim = m.dim ∧ m'.range = m.range ∧ m'.order = m.order ∧ m'.wires = m.wires ∧ m'.conn.length % m.order ^ m.dim = 0 := by
  obtain ⟨P, C, k, rfl, h2, h3, h4⟩ := h
  refine ⟨rfl, rfl, rfl, rfl, ?_⟩
  dsimp only
  rw [List.length_append, h2.length_eq, List.length_range', h3, Nat.add_mul_mod_self_right]
  exact hw

/-- The actions, applied to any mesh with the given dimensions (with an empty map), succeed and append cells in the box `B`. -/
def Fine (cheb : Nat → Nat → K) (d n o : Nat) (B : Box K) (acts : List (Action K)) : Prop :=
  ∀ m : Mesh K, m.dim = d → m.range = n → m.order = o → m.conn.length % o ^ d = 0 →
    ∃ st, acts.foldlM (act cheb) (m, []) = some st ∧ Grown B m st.1

theorem fine_nil (cheb : Nat → Nat → K) (d n o : Nat) (B : Box K) : Fine cheb d n o B [] :=
  fun m _ _ _ _ => ⟨(m, []), rfl, grown_refl B m⟩

theorem fine_append {cheb : Nat → Nat → K} {d n o : Nat} {B : Box K} {a1 a2 : List (Action K)} (h1 : Fine cheb d n o B a1)
    (h2 : Fine cheb d n o B a2) : Fine cheb d n o B (a1 ++ [.clear] ++ a2) := by
  intro m hd hn ho hw
  obtain ⟨st, s1, s2⟩ := h1 m hd hn ho hw
  have hw' : m.conn.length % m.order ^ m.dim = 0 := by rw [ho, hd]; exact hw
  obtain ⟨w1, w2, w3, _, w4⟩ := s2.whole hw'
  obtain ⟨st', t1, t2⟩ := h2 st.1 (by rw [w1, hd]) (by rw [w2, hn]) (by rw [w3, ho]) (by rw [ho, hd] at w4; exact w4)
  refine ⟨st', ?_, grown_trans s2 t2⟩
  rw [List.foldlM_append, List.foldlM_append, s1]
  exact t1

theorem insertAt_eq (st : Mesh K × List (List Nat × Nat)) (e : Event K) : insertAt st e = insertPoint st { e with point := e.point.reverse } := by
  unfold insertAt insertPoint
  simp only [List.reverse_reverse]

/-- Inserting every index of every cell once. -/
theorem fine_events (cheb : Nat → Nat → K) {d n o : Nat} {B : Box K} (ho : 1 < o) {evs : List (Event K)} {cs : List (List Nat)} (hcs : cs.Nodup)
    (hnd : (evs.map fun e => (e.cell, e.pt)).Nodup)
    (hall : ∀ c t, (c, t) ∈ (evs.map fun e => (e.cell, e.pt)) ↔ c ∈ cs ∧ t ∈ indices (List.replicate d o))
    (hpts : ∀ e ∈ evs, e.point.length = n ∧ ∀ k, k < n → InAt B e.point k) : Fine cheb d n o B (evs.map .ins) := by
  intro m hd hn hor hw
  subst hd hn hor
  obtain ⟨evs', hevs'⟩ : ∃ evs' : List (Event K), evs' = evs.map fun e => { e with point := e.point.reverse } := ⟨_, rfl⟩
  have hk : (evs'.map fun e => (e.cell, e.pt)) = evs.map fun e => (e.cell, e.pt) := by
    rw [hevs', List.map_map]; rfl
  rw [← hk] at hnd hall
  have hpt : ∀ e ∈ evs', e.pt ∈ indices (List.replicate m.dim m.order) := fun e hee =>
    ((hall e.cell e.pt).1 (List.mem_map.2 ⟨e, hee, rfl⟩)).2
  obtain ⟨st, hst, C, hA⟩ := insert_all m ho hw evs' hpt hnd
  obtain ⟨p1, p2⟩ := after_perm ho hw hpt hnd hcs hall hA
  have hpe : evs'.map (fun e => e.point.reverse) = evs.map (·.point) := by
    rw [hevs', List.map_map]
    apply List.map_congr_left
    intro e _
    exact List.reverse_reverse _
  have hrun : (evs.map Action.ins).foldlM (act cheb) (m, []) = some st := by
    rw [← hst, hevs', List.foldlM_map, List.foldlM_map]
    congr 1
    funext s e
    exact insertAt_eq s e
  have hl : evs'.length = (evs.map (·.point)).length := by rw [hevs']; simp
  refine ⟨st, hrun, evs.map (·.point), C, st.2.length, by rw [hA.mesh, hpe], by rw [← hl]; exact p1, ?_, ?_⟩
  · rw [← hl, ← hA.len, p1.length_eq, List.length_range']
  · intro p hp
    obtain ⟨e, he, rfl⟩ := List.mem_map.1 hp
    exact hpts e he

end Qugar.General
