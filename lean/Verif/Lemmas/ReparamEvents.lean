import Verif.Lemmas.ReparamInsert
/-
All the calls of `insert_point_reparam` of one reparameterization.
-/
namespace Qugar.Reparam
open Roots Mesh Poly Spec TS
variable {K : Type} [Field K] [LinearOrder K]

theorem mem_indices_iff {b n : Nat} {t : List Nat} : t ∈ indices (List.replicate b n) ↔ t.length = b ∧ ∀ x ∈ t, x < n := by
  rw [mem_indices_replicate, inSize_replicate]
  refine and_congr_right fun hl => ?_
  constructor
  · intro h x hx
    obtain ⟨k, hk, rfl⟩ := List.getElem_of_mem hx
    have := h k (by omega)
    rwa [List.getD_eq_getElem _ _ hk] at this
  · intro h k hk
    rw [List.getD_eq_getElem _ _ (by omega)]
    exact h _ (List.getElem_mem _)

theorem fresh_empty : ∀ (Ls : List (Level K)) (tid : List Nat), Fresh Ls (Ls.map fun _ => []) tid := by
  intro Ls
  induction Ls with
  | nil => intro _; simp [Fresh]
  | cons L Ls ih => intro tid; exact ⟨rfl, fun i => ih _⟩

section
variable [IsStrictOrderedRing K]

/-- The cells of one reparameterization. -/
def allCells (E : Env K) (b : Nat) (Ls : List (Level K)) : List (List Nat) :=
  cells E Ls (List.replicate b (1 / 2)) (List.replicate b 0)

/-- What is needed of the parameters. -/
structure EnvOk (E : Env K) : Prop where
  tol0 : 0 ≤ E.tol
  tol1 : E.tol < 1
  sort : IsRootSort E.srt
  node : ∀ j, j < E.order → 0 ≤ E.node j ∧ E.node j ≤ 1
  order : 0 < E.order

theorem indices_nodup (size : List Nat) : (indices size).Nodup := by
  have h := indices_flat size
  have h2 : ((indices size).map fun t => flatIndex t size).Nodup := by
    have : (indices size).map (fun t => flatIndex t size) = List.range (listProd size) := h
    rw [this]; exact List.nodup_range
  exact List.Nodup.of_map _ h2

theorem events_spec (E : Env K) (hE : EnvOk E) (b : Nat) (Ls : List (Level K)) (hne : Ls ≠ []) (hr : RootsOk Ls)
    (hd : DirsOk b Ls) :
    (∀ evs, events E b Ls = some evs →
      (evs.map fun e => (e.cell, e.pt)).Nodup ∧
      (∀ c t, (c, t) ∈ (evs.map fun e => (e.cell, e.pt)) ↔
        c ∈ allCells E b Ls ∧ t ∈ indices (List.replicate (b + Ls.length - (if E.S then 1 else 0)) E.order)) ∧
      ∀ e ∈ evs, e.point.length = b + Ls.length ∧ InCube e.point) ∧
    (BaseOk E b Ls → ∃ evs, events E b Ls = some evs) := by
  obtain ⟨Ms, hMs, hst, -, -⟩ := computeRef_total E hE.tol0 hE.tol1 hE.sort Ls (Ls.map fun _ => []) (List.replicate b (1 / 2))
    (List.replicate b 0) hne hr (by simpa using hd) (fresh_empty Ls _)
  have hev : events E b Ls = if b = 0 then process E Ls Ms [] [] []
      else collect (indices (List.replicate b E.order)) fun pt => process E Ls Ms (pt.map E.node) (List.replicate b 0) pt := by
    unfold events
    rw [hMs]
    simp only [Option.bind_eq_bind, Option.bind_some]
    by_cases hb : b = 0
    · simp [hb]
    · rw [if_neg hb, if_neg hb, visitAll_ofUpper (by simp [hb]) (by intro n hn; rw [(List.mem_replicate.1 hn).2]; exact hE.order)]
  rw [hev]
  by_cases hb : b = 0
  · subst hb
    simp only [if_true, List.replicate_zero] at *
    have hp := process_spec E hE.tol0 hE.tol1 hE.sort hE.node Ls Ms [] [] [] [] hne hr hd (by intro x hx; simp at hx) hst
    refine ⟨?_, fun hbase => hp.2 hbase rfl (by intro x hx; simp at hx)⟩
    intro evs he
    obtain ⟨h1, h2⟩ := hp.1 evs he
    refine ⟨by rw [h1]; exact keys_nodup E Ls _ _ _ hne hd rfl, ?_, fun e he => by simpa using h2 e he⟩
    intro c t
    rw [h1, mem_keys E Ls _ _ _ c t hne, mem_indices_iff, ← extends_iff E.S E.order Ls t 0 hne hd]
    refine and_congr_right fun _ => ?_
    constructor
    · intro h; exact ⟨[], rfl, by simp, h⟩
    · rintro ⟨s, hs, _, h⟩
      rw [List.length_eq_zero_iff.1 hs] at h
      exact h
  · rw [if_neg hb]
    have hp : ∀ pt ∈ indices (List.replicate b E.order), _ := fun pt hpt =>
      process_spec E hE.tol0 hE.tol1 hE.sort hE.node Ls Ms (List.replicate b (1 / 2)) (pt.map E.node) (List.replicate b 0) pt hne hr
        (by rw [List.length_map, (mem_indices_iff.1 hpt).1]; exact hd)
        (by
          intro x hx
          obtain ⟨j, hj, rfl⟩ := List.mem_map.1 hx
          exact hE.node j ((mem_indices_iff.1 hpt).2 j hj)) hst
    constructor
    · intro evs he
      have hk : evs.map (fun e => (e.cell, e.pt)) = (indices (List.replicate b E.order)).flatMap fun pt =>
          keys E Ls (List.replicate b (1 / 2)) (List.replicate b 0) pt :=
        collect_map _ _ he fun pt hpt evs' h => ((hp pt hpt).1 evs' h).1
      refine ⟨?_, ?_, ?_⟩
      · rw [hk, List.nodup_flatMap]
        refine ⟨fun pt hpt => keys_nodup E Ls _ _ _ hne (by simpa using hd) (by simpa using (mem_indices_iff.1 hpt).1), ?_⟩
        refine List.Pairwise.imp_of_mem ?_ (indices_nodup (List.replicate b E.order))
        rintro s s' hs hs' hss ⟨c, t⟩ h h'
        have h1 := ((mem_keys E Ls _ _ _ c t hne).1 h).2
        have h2 := ((mem_keys E Ls _ _ _ c t hne).1 h').2
        refine hss (extends_inj E.S E.order Ls s s' t ?_ ?_ h1 h2)
        · rw [(mem_indices_iff.1 hs).1]; exact hd
        · rw [(mem_indices_iff.1 hs).1, (mem_indices_iff.1 hs').1]
      · intro c t
        rw [hk, List.mem_flatMap, mem_indices_iff, ← extends_iff E.S E.order Ls t b hne hd]
        constructor
        · rintro ⟨s, hs, h⟩
          obtain ⟨h1, h2⟩ := (mem_keys E Ls _ _ _ c t hne).1 h
          exact ⟨h1, s, (mem_indices_iff.1 hs).1, (mem_indices_iff.1 hs).2, h2⟩
        · rintro ⟨h1, s, hs1, hs2, h2⟩
          exact ⟨s, mem_indices_iff.2 ⟨hs1, hs2⟩, (mem_keys E Ls _ _ _ c t hne).2 ⟨h1, h2⟩⟩
      · intro e hee
        obtain ⟨pt, hpt, b', h1, h2⟩ := collect_mem he hee
        have := ((hp pt hpt).1 b' h1).2 e h2
        rw [List.length_map, (mem_indices_iff.1 hpt).1] at this
        exact this
    · intro hbase
      refine collect_total _ _ fun pt hpt => (hp pt hpt).2 ?_ ?_ ?_
      · rw [List.length_map, (mem_indices_iff.1 hpt).1]
        exact hbase
      · rw [List.length_map, (mem_indices_iff.1 hpt).1, List.length_replicate]
      · intro x hx
        rw [(List.mem_replicate.1 hx).2]
        norm_num

end
end Qugar.Reparam
