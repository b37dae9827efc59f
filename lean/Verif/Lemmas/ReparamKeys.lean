import Verif.Lemmas.ReparamProcess
/-
The calls of `insert_point_reparam`: their cells and indices form a product, without repetitions.
-/
namespace Qugar.Reparam
open Roots Mesh Poly
variable {K : Type} [Field K] [LinearOrder K]

/-- Cells and indices of the points inserted over the reference point `q`. -/
def keys (E : Env K) : List (Level K) → List K → List Nat → List Nat → List (List Nat × List Nat)
  | [], _, _, _ => []
  | L :: Ls, q, tid, pt =>
    (List.range (actives E (L :: Ls) q).length).flatMap fun i =>
      if (actives E (L :: Ls) q).getD i false then
        if Ls.isEmpty && E.S then [(addComponent tid L.dir i, pt)]
        else (List.range E.order).flatMap fun j =>
          if Ls.isEmpty then [(addComponent tid L.dir i, addComponent pt L.dir j)]
          else keys E Ls (midPoint L (breaks E L q) q i) (addComponent tid L.dir i) (addComponent pt L.dir j)
      else []

/-- Coordinates in [0,1]. -/
def InCube (p : List K) : Prop := ∀ x ∈ p, 0 ≤ x ∧ x ≤ 1

/-- At every level: there is no base point, or the direction used by the backup strategy exists, or the backup strategy is
not needed because the number of roots does not change. -/
def BaseOk (E : Env K) : Nat → List (Level K) → Prop
  | _, [] => True
  | n, L :: Ls => (n = 0 ∨ L.baseDir < n ∨ ∀ q p : List K, q.length = n → p.length = n → InCube q → InCube p → SteadyAt E L q p) ∧
      BaseOk E (n + 1) Ls

theorem inCube_add {p : List K} {d : Nat} {x : K} (hp : InCube p) (hx : 0 ≤ x ∧ x ≤ 1) : InCube (addComponent p d x) := by
  intro y hy
  rcases List.eq_or_mem_of_mem_insertIdx hy with rfl | h
  · exact hx
  · exact hp y h

section
variable [IsStrictOrderedRing K]

theorem between {x0 x1 t : K} (h0 : 0 ≤ x0 ∧ x0 ≤ 1) (h1 : 0 ≤ x1 ∧ x1 ≤ 1) (ht : 0 ≤ t ∧ t ≤ 1) :
    0 ≤ x0 + (x1 - x0) * t ∧ x0 + (x1 - x0) * t ≤ 1 := by
  have e : x0 + (x1 - x0) * t = x0 * (1 - t) + x1 * t := by ring
  rw [e]
  have a := mul_nonneg h0.1 (sub_nonneg.2 ht.2)
  have b := mul_nonneg h1.1 ht.1
  have c := mul_le_mul_of_nonneg_right h0.2 (sub_nonneg.2 ht.2)
  have d := mul_le_mul_of_nonneg_right h1.2 ht.1
  constructor <;> linarith

theorem inCube_mid {E : Env K} (ht : 0 ≤ E.tol) (hs : IsRootSort E.srt) {L : Level K} (h : RootsOk [L]) {q : List K}
    (hq : InCube q) (i : Nat) : InCube (midPoint L (breaks E L q) q i) := by
  have key : ∀ k, 0 ≤ ((breaks E L q).getD k (0, -1)).1 ∧ ((breaks E L q).getD k (0, -1)).1 ≤ 1 := by
    intro k
    by_cases hk : k < (breaks E L q).length
    · rw [List.getD_eq_getElem _ _ hk]
      exact breaks_mem ht hs h q _ (List.getElem_mem _)
    · rw [List.getD_eq_default _ _ (by omega)]
      simp
  refine inCube_add hq ?_
  have h1 := key i
  have h2 := key (i + 1)
  constructor <;> linarith

theorem active_nonDeg {E : Env K} {L L' : Level K} {Ls : List (Level K)} {q : List K} {i : Nat}
    (h : (actives E (L :: L' :: Ls) q).getD i false = true) : i < (breaks E L q).length - 1 ∧ nonDeg E (breaks E L q) i = true := by
  have hf : (flags E (actives E (L' :: Ls)) false L q).getD i false = true := by
    rw [actives] at h
    simpa using h
  rw [flags_getD] at hf
  simp only [Bool.and_eq_true, decide_eq_true_eq, Bool.false_eq_true, if_false] at hf
  exact ⟨hf.1, hf.2.1⟩

theorem computeIntervals_spec {E : Env K} (ht : 0 ≤ E.tol) (ht1 : E.tol < 1) (hs : IsRootSort E.srt) {L : Level K} (h : RootsOk [L])
    {M : RefMap K} {tid : List Nat} {q p : List K} {act : List Bool} (hact : act.length = (breaks E L q).length - 1)
    (hM : M.lookup tid = some ⟨q, breaks E L q, act⟩) :
    (∀ iv, computeIntervals E L M p tid = some iv → iv.active = act ∧ iv.roots.length = (breaks E L q).length ∧ IvOk iv) ∧
    ((p.length = 0 ∨ L.baseDir < p.length ∨ SteadyAt E L q p) → ∃ iv, computeIntervals E L M p tid = some iv) := by
  have hc := computeSimilar_spec ht ht1 hs h q p act hact
  unfold computeIntervals
  rw [hM]
  simp only [Option.bind_eq_bind, Option.bind_some]
  by_cases hp : p.length = 0
  · rw [if_pos hp]
    refine ⟨?_, fun _ => ⟨_, rfl⟩⟩
    intro iv hiv
    cases hiv
    exact ⟨rfl, rfl, ⟨breaks_mem ht hs h q, breaks_sorted ht hs h q, hact⟩⟩
  · rw [if_neg hp]
    exact ⟨hc.1, fun hd => hc.2 (by omega) (hd.resolve_left hp)⟩

theorem process_spec (E : Env K) (ht : 0 ≤ E.tol) (ht1 : E.tol < 1) (hs : IsRootSort E.srt)
    (hnode : ∀ j, j < E.order → 0 ≤ E.node j ∧ E.node j ≤ 1) : ∀ (Ls : List (Level K)) (Ms : List (RefMap K)) (q p : List K)
    (tid pt : List Nat), Ls ≠ [] → RootsOk Ls → DirsOk p.length Ls → InCube p → Stored E Ls Ms q tid →
    (∀ evs, process E Ls Ms p tid pt = some evs → evs.map (fun e => (e.cell, e.pt)) = keys E Ls q tid pt ∧
      ∀ e ∈ evs, e.point.length = p.length + Ls.length ∧ InCube e.point) ∧
    (BaseOk E p.length Ls → q.length = p.length → InCube q → ∃ evs, process E Ls Ms p tid pt = some evs) := by
  intro Ls
  induction Ls with
  | nil => intro _ _ _ _ _ h; exact absurd rfl h
  | cons L Ls ih =>
    intro Ms q p tid pt _ hro hdir hp hst
    cases Ms with
    | nil => exact absurd hst (by simp [Stored])
    | cons M Ms =>
      obtain ⟨h1, h2⟩ := hst
      obtain ⟨hd1, hd2⟩ := hdir
      have hL : RootsOk [L] := fun L' hL' => hro L' (by simp at hL'; simp [hL'])
      have hLs : RootsOk Ls := fun L' hL' => hro L' (by simp [hL'])
      have hci := computeIntervals_spec (p := p) ht ht1 hs hL (actives_length E L Ls q) h1
      have hal := actives_length E L Ls q
      rw [process]
      constructor
      · intro evs hevs
        cases hiv : computeIntervals E L M p tid with
        | none => rw [hiv] at hevs; simp at hevs
        | some iv =>
          rw [hiv] at hevs
          obtain ⟨ha, hr, hok⟩ := hci.1 iv hiv
          simp only [Option.bind_eq_bind, Option.bind_some] at hevs
          constructor
          · rw [keys, ← ha]
            refine collect_map _ _ hevs ?_
            intro i hi b hb
            split at hb
            · rename_i hact
              rw [if_pos hact]
              cases hx0 : iv.roots[i]? with
              | none => rw [hx0] at hb; simp at hb
              | some x0 =>
                cases hx1 : iv.roots[i + 1]? with
                | none => rw [hx0, hx1] at hb; simp at hb
                | some x1 =>
                  rw [hx0, hx1] at hb
                  simp only [Option.bind_some] at hb
                  split at hb
                  · rename_i hS
                    rw [if_pos hS]
                    cases hb
                    rfl
                  · rename_i hS
                    rw [if_neg hS]
                    refine collect_map _ _ hb ?_
                    intro j hj b' hb'
                    split at hb'
                    · rename_i hE
                      rw [if_pos hE]
                      cases hb'
                      rfl
                    · rename_i hE
                      rw [if_neg hE]
                      have hne : Ls ≠ [] := by rintro rfl; simp at hE
                      obtain ⟨L', Ls', rfl⟩ := List.exists_cons_of_ne_nil hne
                      have hact' := active_nonDeg (by rw [← ha]; exact hact)
                      have hb0 := between (hok.mem x0 (List.mem_of_getElem? hx0)) (hok.mem x1 (List.mem_of_getElem? hx1)) (hnode j (List.mem_range.1 hj))
                      exact ((ih Ms _ _ _ _ hne hLs (by rw [addComponent_length hd1]; exact hd2) (inCube_add hp hb0)
                        (h2 i hact'.1 hact'.2)).1 b' hb').1
            · rename_i hact
              cases hb
              rw [if_neg hact]
              rfl
          · intro e he
            obtain ⟨i, hi, b, hb, heb⟩ := collect_mem hevs he
            split at hb
            · rename_i hact
              cases hx0 : iv.roots[i]? with
              | none => rw [hx0] at hb; simp at hb
              | some x0 =>
                cases hx1 : iv.roots[i + 1]? with
                | none => rw [hx0, hx1] at hb; simp at hb
                | some x1 =>
                  have hm0 := hok.mem x0 (List.mem_of_getElem? hx0)
                  have hm1 := hok.mem x1 (List.mem_of_getElem? hx1)
                  rw [hx0, hx1] at hb
                  simp only [Option.bind_some] at hb
                  split at hb
                  · rename_i hS
                    simp only [Bool.and_eq_true, List.isEmpty_iff] at hS
                    cases hb
                    rw [List.mem_singleton] at heb
                    rw [heb, hS.1]
                    exact ⟨addComponent_length hd1, inCube_add hp hm1⟩
                  · obtain ⟨j, hj, b', hb', heb'⟩ := collect_mem hb heb
                    have hb0 := between hm0 hm1 (hnode j (List.mem_range.1 hj))
                    split at hb'
                    · rename_i hE
                      cases hb'
                      rw [List.mem_singleton] at heb'
                      rw [heb', List.isEmpty_iff.1 hE]
                      exact ⟨addComponent_length hd1, inCube_add hp hb0⟩
                    · rename_i hE
                      have hne : Ls ≠ [] := by rintro rfl; simp at hE
                      obtain ⟨L', Ls', rfl⟩ := List.exists_cons_of_ne_nil hne
                      have hact' := active_nonDeg (by rw [← ha]; exact hact)
                      have := ((ih Ms _ _ _ _ hne hLs (by rw [addComponent_length hd1]; exact hd2) (inCube_add hp hb0)
                        (h2 i hact'.1 hact'.2)).1 b' hb').2 e heb'
                      rw [addComponent_length hd1] at this
                      refine ⟨?_, this.2⟩
                      rw [this.1, List.length_cons (a := L)]
                      omega
            · cases hb
              simp at heb
      · intro hb hq1 hq2
        obtain ⟨iv, hiv⟩ := hci.2 (hb.1.imp_right fun h => h.imp_right fun h => h q p hq1 rfl hq2 hp)
        obtain ⟨ha, hr, hok⟩ := hci.1 iv hiv
        rw [hiv]
        simp only [Option.bind_eq_bind, Option.bind_some]
        apply collect_total
        intro i hi
        have hi := List.mem_range.1 hi
        rw [hok.len] at hi
        split
        · rename_i hact
          rw [List.getElem?_eq_getElem (by omega), List.getElem?_eq_getElem (by omega)]
          simp only [Option.bind_some]
          split
          · exact ⟨_, rfl⟩
          · apply collect_total
            intro j hj
            split
            · exact ⟨_, rfl⟩
            · rename_i hE
              have hne : Ls ≠ [] := by rintro rfl; simp at hE
              obtain ⟨L', Ls', rfl⟩ := List.exists_cons_of_ne_nil hne
              have hact' := active_nonDeg (by rw [← ha]; exact hact)
              have hb0 := between (hok.mem _ (List.getElem_mem (by omega : i < iv.roots.length))) (hok.mem _ (List.getElem_mem (by omega : i + 1 < iv.roots.length))) (hnode j (List.mem_range.1 hj))
              exact (ih Ms _ _ _ _ hne hLs (by rw [addComponent_length hd1]; exact hd2) (inCube_add hp hb0)
                (h2 i hact'.1 hact'.2)).2 (by rw [addComponent_length hd1]; exact hb.2)
                (by rw [midPoint, addComponent_length hd1, addComponent_length (by omega), hq1])
                (inCube_mid ht hs hL hq2 i)
        · exact ⟨_, rfl⟩
end

/-! ### The product -/

theorem mem_ite_nil {α : Type} {b : Prop} [Decidable b] {l : List α} {x : α} (h : x ∈ (if b then l else [])) : b ∧ x ∈ l := by
  split at h
  · rename_i hb; exact ⟨hb, h⟩
  · simp at h

/-- The cells over the reference point `q`. -/
def cells (E : Env K) : List (Level K) → List K → List Nat → List (List Nat)
  | [], _, _ => []
  | L :: Ls, q, tid =>
    (List.range (actives E (L :: Ls) q).length).flatMap fun i =>
      if (actives E (L :: Ls) q).getD i false then
        if Ls.isEmpty then [addComponent tid L.dir i]
        else cells E Ls (midPoint L (breaks E L q) q i) (addComponent tid L.dir i)
      else []

/-- `t` extends `s` with components smaller than `n`, in the directions of the levels (not the last one for a level set). -/
def Extends (S : Bool) (n : Nat) : List (Level K) → List Nat → List Nat → Prop
  | [], s, t => t = s
  | L :: Ls, s, t => if Ls.isEmpty && S then t = s else ∃ j, j < n ∧ Extends S n Ls (addComponent s L.dir j) t

theorem mem_keys (E : Env K) : ∀ (Ls : List (Level K)) (q : List K) (tid pt : List Nat) (c t : List Nat), Ls ≠ [] →
    ((c, t) ∈ keys E Ls q tid pt ↔ c ∈ cells E Ls q tid ∧ Extends E.S E.order Ls pt t) := by
  intro Ls
  induction Ls with
  | nil => intro _ _ _ _ _ h; exact absurd rfl h
  | cons L Ls ih =>
    intro q tid pt c t _
    rw [keys, cells, Extends]
    simp only [List.mem_flatMap, List.mem_range]
    cases Ls with
    | nil =>
      cases hS : E.S with
      | true =>
        simp only [List.isEmpty_nil, Bool.and_self, if_true]
        constructor
        · rintro ⟨i, hi, h⟩
          split at h
          · rename_i ha
            simp only [List.mem_singleton, Prod.mk.injEq] at h
            exact ⟨⟨i, hi, by rw [if_pos ha]; simp [h.1]⟩, h.2⟩
          · simp at h
        · rintro ⟨⟨i, hi, h⟩, rfl⟩
          refine ⟨i, hi, ?_⟩
          split at h
          · rename_i ha
            rw [if_pos ha]
            simpa using h
          · simp at h
      | false =>
        simp only [List.isEmpty_nil, Bool.and_false, Bool.false_eq_true, if_false, if_true]
        constructor
        · rintro ⟨i, hi, h⟩
          split at h
          · rename_i ha
            simp only [List.mem_flatMap, List.mem_range, List.mem_singleton, Prod.mk.injEq] at h
            obtain ⟨j, hj, h⟩ := h
            exact ⟨⟨i, hi, by rw [if_pos ha]; simp [h.1]⟩, j, hj, by rw [h.2]; rfl⟩
          · simp at h
        · rintro ⟨⟨i, hi, h⟩, j, hj, rfl⟩
          refine ⟨i, hi, ?_⟩
          split at h
          · rename_i ha
            rw [if_pos ha]
            simp only [List.mem_flatMap, List.mem_range, List.mem_singleton, Prod.mk.injEq]
            exact ⟨j, hj, by simpa using h, rfl⟩
          · simp at h
    | cons L' Ls =>
      simp only [List.isEmpty_cons, Bool.false_and, Bool.false_eq_true, if_false]
      constructor
      · rintro ⟨i, hi, h⟩
        split at h
        · rename_i ha
          simp only [List.mem_flatMap, List.mem_range] at h
          obtain ⟨j, hj, h⟩ := h
          have h := (ih _ _ _ c t (by simp)).1 h
          exact ⟨⟨i, hi, by rw [if_pos ha]; exact h.1⟩, j, hj, h.2⟩
        · simp at h
      · rintro ⟨⟨i, hi, h⟩, j, hj, hext⟩
        refine ⟨i, hi, ?_⟩
        split at h
        · rename_i ha
          rw [if_pos ha]
          simp only [List.mem_flatMap, List.mem_range]
          exact ⟨j, hj, (ih _ _ _ c t (by simp)).2 ⟨h, hext⟩⟩
        · simp at h

/-- The cells over different indices are different. -/
theorem cells_inj (E : Env K) : ∀ (Ls : List (Level K)) (q q' : List K) (tid tid' c : List Nat), DirsOk tid.length Ls →
    tid'.length = tid.length → c ∈ cells E Ls q tid → c ∈ cells E Ls q' tid' → tid = tid' := by
  intro Ls
  induction Ls with
  | nil => intro _ _ _ _ _ _ _ h; simp [cells] at h
  | cons L Ls ih =>
    intro q q' tid tid' c hd hl h h'
    rw [cells] at h h'
    simp only [List.mem_flatMap, List.mem_range] at h h'
    obtain ⟨i, _, h⟩ := h
    obtain ⟨i', _, h'⟩ := h'
    split at h
    · split at h'
      · cases hLs : Ls with
        | nil =>
          simp only [hLs, List.isEmpty_nil, if_true, List.mem_singleton] at h h'
          exact (addComponent_inj (h.symm.trans h') hd.1 (by rw [hl]; exact hd.1)).1
        | cons L' Ls' =>
          have hE : Ls.isEmpty = false := by rw [hLs]; rfl
          rw [hE] at h h'
          simp only [Bool.false_eq_true, if_false] at h h'
          have := ih _ _ _ _ c (by rw [addComponent_length hd.1]; exact hd.2)
            (by rw [addComponent_length hd.1, addComponent_length (by rw [hl]; exact hd.1), hl]) h h'
          exact (addComponent_inj this hd.1 (by rw [hl]; exact hd.1)).1
      · simp at h'
    · simp at h

theorem cells_length (E : Env K) : ∀ (Ls : List (Level K)) (q : List K) (tid c : List Nat), DirsOk tid.length Ls →
    c ∈ cells E Ls q tid → c.length = tid.length + Ls.length := by
  intro Ls
  induction Ls with
  | nil => intro _ _ _ _ h; simp [cells] at h
  | cons L Ls ih =>
    intro q tid c hd h
    rw [cells] at h
    simp only [List.mem_flatMap, List.mem_range] at h
    obtain ⟨i, _, h⟩ := h
    split at h
    · split at h
      · rename_i hE
        rw [List.mem_singleton] at h
        rw [h, addComponent_length hd.1, List.isEmpty_iff.1 hE]
        rfl
      · have := ih _ _ c (by rw [addComponent_length hd.1]; exact hd.2) h
        rw [this, addComponent_length hd.1, List.length_cons]
        omega
    · simp at h

theorem cells_nodup (E : Env K) : ∀ (Ls : List (Level K)) (q : List K) (tid : List Nat), DirsOk tid.length Ls →
    (cells E Ls q tid).Nodup := by
  intro Ls
  induction Ls with
  | nil => intro _ _ _; simp [cells]
  | cons L Ls ih =>
    intro q tid hd
    rw [cells, List.nodup_flatMap]
    constructor
    · intro i _
      split
      · split
        · simp
        · exact ih _ _ (by rw [addComponent_length hd.1]; exact hd.2)
      · simp
    · refine List.Pairwise.imp_of_mem ?_ (List.nodup_range (n := (actives E (L :: Ls) q).length))
      intro i j _ _ hij c hc hc'
      replace hc := (mem_ite_nil hc).2
      replace hc' := (mem_ite_nil hc').2
      cases hE : Ls.isEmpty with
      | true =>
        simp only [hE, if_true, List.mem_singleton] at hc hc'
        exact hij (addComponent_inj (hc.symm.trans hc') hd.1 hd.1).2
      | false =>
        simp only [hE, Bool.false_eq_true, if_false] at hc hc'
        have := cells_inj E Ls _ _ _ _ c (by rw [addComponent_length hd.1]; exact hd.2)
          (by rw [addComponent_length hd.1, addComponent_length hd.1]) hc hc'
        exact hij (addComponent_inj this hd.1 hd.1).2

theorem extends_inj (S : Bool) (n : Nat) : ∀ (Ls : List (Level K)) (s s' t : List Nat), DirsOk s.length Ls →
    s'.length = s.length → Extends S n Ls s t → Extends S n Ls s' t → s = s' := by
  intro Ls
  induction Ls with
  | nil => intro s s' t _ _ h h'; rw [Extends] at h h'; exact h.symm.trans h'
  | cons L Ls ih =>
    intro s s' t hd hl h h'
    rw [Extends] at h h'
    split at h
    · rename_i hS
      rw [if_pos hS] at h'
      exact h.symm.trans h'
    · rename_i hS
      rw [if_neg hS] at h'
      obtain ⟨j, _, h⟩ := h
      obtain ⟨j', _, h'⟩ := h'
      have := ih _ _ t (by rw [addComponent_length hd.1]; exact hd.2)
        (by rw [addComponent_length hd.1, addComponent_length (by rw [hl]; exact hd.1), hl]) h h'
      exact (addComponent_inj this hd.1 (by rw [hl]; exact hd.1)).1

theorem keys_nodup (E : Env K) : ∀ (Ls : List (Level K)) (q : List K) (tid pt : List Nat), Ls ≠ [] → DirsOk tid.length Ls →
    pt.length = tid.length → (keys E Ls q tid pt).Nodup := by
  intro Ls
  induction Ls with
  | nil => intro _ _ _ h; exact absurd rfl h
  | cons L Ls ih =>
    intro q tid pt _ hd hpt
    have hdp : L.dir ≤ pt.length := by rw [hpt]; exact hd.1
    rw [keys, List.nodup_flatMap]
    constructor
    · intro i _
      split
      · split
        · simp
        · rw [List.nodup_flatMap]
          constructor
          · intro j _
            split
            · simp
            · rename_i hE
              exact ih _ _ _ (by rintro rfl; simp at hE) (by rw [addComponent_length hd.1]; exact hd.2)
                (by rw [addComponent_length hd.1, addComponent_length hdp, hpt])
          · refine List.Pairwise.imp_of_mem ?_ (List.nodup_range (n := E.order))
            rintro j j' _ _ hij ⟨c, t⟩ hc hc'
            cases hE : Ls.isEmpty with
            | true =>
              simp only [hE, if_true, List.mem_singleton, Prod.mk.injEq] at hc hc'
              exact hij (addComponent_inj (hc.2.symm.trans hc'.2) hdp hdp).2
            | false =>
              have hne : Ls ≠ [] := by rintro rfl; simp at hE
              simp only [hE, Bool.false_eq_true, if_false] at hc hc'
              have h1 := ((mem_keys E Ls _ _ _ c t hne).1 hc).2
              have h2 := ((mem_keys E Ls _ _ _ c t hne).1 hc').2
              have := extends_inj E.S E.order Ls _ _ t (by rw [addComponent_length hdp, hpt]; exact hd.2)
                (by rw [addComponent_length hdp, addComponent_length hdp]) h1 h2
              exact hij (addComponent_inj this hdp hdp).2
      · simp
    · refine List.Pairwise.imp_of_mem ?_ (List.nodup_range (n := (actives E (L :: Ls) q).length))
      rintro i i' _ _ hij ⟨c, t⟩ hc hc'
      replace hc := (mem_ite_nil hc).2
      replace hc' := (mem_ite_nil hc').2
      cases hE : Ls.isEmpty with
      | true =>
        have key : ∀ a : List Nat, (c, t) ∈ (if E.S = true then [(a, pt)]
            else (List.range E.order).flatMap fun j => [(a, addComponent pt L.dir j)]) → c = a := by
          intro a h
          split at h
          · simp only [List.mem_singleton, Prod.mk.injEq] at h; exact h.1
          · simp only [List.mem_flatMap, List.mem_singleton, Prod.mk.injEq] at h
            obtain ⟨_, _, h⟩ := h
            exact h.1
        simp only [hE, if_true, Bool.true_and] at hc hc'
        exact hij (addComponent_inj ((key _ hc).symm.trans (key _ hc')) hd.1 hd.1).2
      | false =>
        have hne : Ls ≠ [] := by rintro rfl; simp at hE
        simp only [hE, Bool.false_and, Bool.false_eq_true, if_false, List.mem_flatMap] at hc hc'
        obtain ⟨_, _, hc⟩ := hc
        obtain ⟨_, _, hc'⟩ := hc'
        have h1 := ((mem_keys E Ls _ _ _ c t hne).1 hc).1
        have h2 := ((mem_keys E Ls _ _ _ c t hne).1 hc').1
        have := cells_inj E Ls _ _ _ _ c (by rw [addComponent_length hd.1]; exact hd.2)
          (by rw [addComponent_length hd.1, addComponent_length hd.1]) h1 h2
        exact hij (addComponent_inj this hd.1 hd.1).2

/-- The indices that extend a base index: all those with the right length and small components. -/
theorem extends_iff (S : Bool) (n : Nat) : ∀ (Ls : List (Level K)) (t : List Nat) (b : Nat), Ls ≠ [] → DirsOk b Ls →
    ((∃ s : List Nat, s.length = b ∧ (∀ x ∈ s, x < n) ∧ Extends S n Ls s t) ↔
      t.length = b + Ls.length - (if S then 1 else 0) ∧ ∀ x ∈ t, x < n) := by
  intro Ls
  induction Ls with
  | nil => intro _ _ h; exact absurd rfl h
  | cons L Ls ih =>
    intro t b _ hd
    have hsplit : ∀ (t : List Nat), t.length = b + 1 → (∀ x ∈ t, x < n) → ∃ s : List Nat, ∃ j, s.length = b ∧ (∀ x ∈ s, x < n) ∧ j < n ∧ t = addComponent s L.dir j := by
      intro t hl hx
      have hd1 := hd.1
      have hlt : L.dir < t.length := by omega
      refine ⟨t.eraseIdx L.dir, t[L.dir], by rw [List.length_eraseIdx_of_lt hlt, hl]; rfl, fun x h => hx x (List.mem_of_mem_eraseIdx h),
        hx _ (List.getElem_mem hlt), ?_⟩
      unfold addComponent
      exact (List.insertIdx_eraseIdx_getElem hlt).symm
    by_cases hE : Ls = []
    · subst hE
      cases S with
      | true =>
        simp only [Extends, List.isEmpty_nil, Bool.and_self, if_true, List.length_singleton]
        constructor
        · rintro ⟨s, h1, h2, rfl⟩; exact ⟨by omega, h2⟩
        · rintro ⟨h1, h2⟩; exact ⟨t, by omega, h2, rfl⟩
      | false =>
        simp only [Extends, List.isEmpty_nil, Bool.and_false, Bool.false_eq_true, if_false, List.length_singleton]
        constructor
        · rintro ⟨s, h1, h2, j, hj, rfl⟩
          refine ⟨by rw [addComponent_length (by rw [h1]; exact hd.1), h1]; rfl, ?_⟩
          intro x hx
          rcases List.eq_or_mem_of_mem_insertIdx hx with rfl | h
          · exact hj
          · exact h2 x h
        · rintro ⟨h1, h2⟩
          obtain ⟨s, j, a, b', c, d⟩ := hsplit t (by omega) h2
          exact ⟨s, a, b', j, c, d⟩
    · have hE' : Ls.isEmpty = false := by rw [List.isEmpty_eq_false_iff]; exact hE
      have ih' := ih t (b + 1) hE hd.2
      simp only [Extends, hE', Bool.false_and, Bool.false_eq_true, if_false]
      have e : b + (L :: Ls).length = b + 1 + Ls.length := by rw [List.length_cons]; omega
      rw [e, ← ih']
      constructor
      · rintro ⟨s, h1, h2, j, hj, hx⟩
        refine ⟨addComponent s L.dir j, by rw [addComponent_length (by rw [h1]; exact hd.1), h1], ?_, hx⟩
        intro x hx
        rcases List.eq_or_mem_of_mem_insertIdx hx with rfl | h
        · exact hj
        · exact h2 x h
      · rintro ⟨s, h1, h2, hx⟩
        obtain ⟨s', j, a, b', c, d⟩ := hsplit s h1 h2
        exact ⟨s', a, b', j, c, by rw [← d]; exact hx⟩

end Qugar.Reparam
