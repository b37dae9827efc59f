import Verif.Lemmas.GeneralProcess
import Verif.Lemmas.ReparamInsert
/-
The cells and indices of the points inserted by the reparameterization of general functions.
-/
namespace Qugar.General
open Roots Mesh Poly Reparam
variable {K : Type} [Field K] [LinearOrder K]

/-- The cells over the reference point `q`. -/
def cells (E : Env K) (F : Fn K) : List (Level K) → List K → List Nat → List (List Nat)
  | [], _, _ => []
  | L :: Ls, q, tid =>
    if Ls.isEmpty && E.S then if (breaks E F L q).length = 2 then [] else [tid.set L.dir 0]
    else (List.range (actives E F false L q).length).flatMap fun i =>
      if (actives E F false L q).getD i false then
        if Ls.isEmpty then [tid.set L.dir i]
        else cells E F Ls (midPoint L (breaks E F L q) q i) (tid.set L.dir i)
      else []

/-- The directions of the levels in which the points have an index. -/
def pdirs (S : Bool) : List (Level K) → List Nat
  | [] => []
  | L :: Ls => if Ls.isEmpty && S then [] else L.dir :: pdirs S Ls

theorem pdirs_sub (S : Bool) : ∀ (Ls : List (Level K)), ∀ k ∈ pdirs S Ls, k ∈ Ls.map (·.dir) := by
  intro Ls
  induction Ls with
  | nil => intro k h; simp [pdirs] at h
  | cons L Ls ih =>
    intro k h
    rw [pdirs] at h
    split at h
    · simp at h
    · rcases List.mem_cons.1 h with h | h
      · rw [h]; simp
      · exact List.mem_cons_of_mem _ (ih k h)

/-- `t` agrees with `s` outside the directions `D`, and its components in these directions are smaller than `n`. -/
def Ext (n : Nat) (D : List Nat) (s t : List Nat) : Prop :=
  t.length = s.length ∧ (∀ k ∈ D, t.getD k 0 < n) ∧ ∀ k, k ∉ D → t.getD k 0 = s.getD k 0

theorem list_ext_getD {s t : List Nat} (hl : s.length = t.length) (h : ∀ k, s.getD k 0 = t.getD k 0) : s = t := by
  apply List.ext_getElem hl
  intro k h1 h2
  have := h k
  rwa [List.getD_eq_getElem _ _ h1, List.getD_eq_getElem _ _ h2] at this

theorem ext_nil {n : Nat} {s t : List Nat} : Ext n [] s t ↔ t = s := by
  constructor
  · intro h
    exact list_ext_getD h.1 fun k => h.2.2 k (by simp)
  · rintro rfl
    exact ⟨rfl, by simp, fun _ _ => rfl⟩

theorem ext_cons {n d : Nat} {D s t : List Nat} (hd : d < s.length) (hD : d ∉ D) :
    Ext n (d :: D) s t ↔ ∃ j, j < n ∧ Ext n D (s.set d j) t := by
  constructor
  · rintro ⟨h1, h2, h3⟩
    refine ⟨t.getD d 0, h2 d (by simp), by rw [h1, List.length_set], fun k hk => h2 k (by simp [hk]), ?_⟩
    intro k hk
    by_cases c : k = d
    · subst c; rw [getD_set_self hd]
    · rw [getD_set_ne c]; exact h3 k (by simp [c, hk])
  · rintro ⟨j, hj, h1, h2, h3⟩
    refine ⟨by rw [h1, List.length_set], ?_, ?_⟩
    · intro k hk
      rcases List.mem_cons.1 hk with rfl | hk
      · rw [h3 _ hD, getD_set_self hd]; exact hj
      · exact h2 k hk
    · intro k hk
      rw [List.mem_cons, not_or] at hk
      rw [h3 k hk.2, getD_set_ne hk.1]

/-- The cells and indices are independent. -/
theorem mem_keys (E : Env K) (F : Fn K) : ∀ (Ls : List (Level K)) (q : List K) (tid pt : List Nat) (c t : List Nat), Ls ≠ [] →
    DirsOk pt.length Ls → ((c, t) ∈ keys E F Ls q tid pt ↔ c ∈ cells E F Ls q tid ∧ Ext E.order (pdirs E.S Ls) pt t) := by
  intro Ls
  induction Ls with
  | nil => intro _ _ _ _ _ h; exact absurd rfl h
  | cons L Ls ih =>
    intro q tid pt c t _ hd
    have hdl : L.dir < pt.length := hd.2 L (by simp)
    have hnd := hd.1
    rw [List.map_cons, List.nodup_cons] at hnd
    rw [keys, cells, pdirs]
    by_cases hS : (Ls.isEmpty && E.S) = true
    · rw [if_pos hS, if_pos hS, if_pos hS, ext_nil]
      by_cases hb : (breaks E F L q).length = 2
      · rw [if_pos hb, if_pos hb]; simp
      · rw [if_neg hb, if_neg hb]; simp
    · rw [if_neg hS, if_neg hS, if_neg hS, ext_cons hdl (fun h => hnd.1 (pdirs_sub _ _ _ h))]
      have hds : ∀ j : Nat, DirsOk (pt.set L.dir j).length Ls := by
        intro j; rw [List.length_set]; exact ⟨hnd.2, fun L' h => hd.2 L' (by simp [h])⟩
      simp only [List.mem_flatMap, List.mem_range]
      by_cases hE : Ls.isEmpty = true
      · rw [List.isEmpty_iff] at hE
        subst hE
        simp only [List.isEmpty_nil, if_true, pdirs, ext_nil]
        constructor
        · rintro ⟨i, hi, h⟩
          obtain ⟨ha, h⟩ := mem_ite_nil h
          simp only [List.mem_flatMap, List.mem_range, List.mem_singleton, Prod.mk.injEq] at h
          obtain ⟨j, hj, h1, h2⟩ := h
          exact ⟨⟨i, hi, by rw [if_pos ha, h1]; simp⟩, j, hj, h2⟩
        · rintro ⟨⟨i, hi, h⟩, j, hj, h2⟩
          obtain ⟨ha, h⟩ := mem_ite_nil h
          refine ⟨i, hi, ?_⟩
          rw [if_pos ha]
          simp only [List.mem_flatMap, List.mem_range, List.mem_singleton, Prod.mk.injEq]
          exact ⟨j, hj, List.mem_singleton.1 h, h2⟩
      · have hne : Ls ≠ [] := by rintro rfl; simp at hE
        rw [Bool.not_eq_true] at hE
        simp only [hE, Bool.false_eq_true, if_false]
        constructor
        · rintro ⟨i, hi, h⟩
          obtain ⟨ha, h⟩ := mem_ite_nil h
          simp only [List.mem_flatMap, List.mem_range] at h
          obtain ⟨j, hj, h⟩ := h
          have h := (ih _ _ _ c t hne (hds j)).1 h
          exact ⟨⟨i, hi, by rw [if_pos ha]; exact h.1⟩, j, hj, h.2⟩
        · rintro ⟨⟨i, hi, h⟩, j, hj, h2⟩
          obtain ⟨ha, h⟩ := mem_ite_nil h
          refine ⟨i, hi, ?_⟩
          rw [if_pos ha]
          simp only [List.mem_flatMap, List.mem_range]
          exact ⟨j, hj, (ih _ _ _ c t hne (hds j)).2 ⟨h, h2⟩⟩

/-- A cell keeps the components of the starting index outside the directions of the levels. -/
theorem cells_agree (E : Env K) (F : Fn K) : ∀ (Ls : List (Level K)) (q : List K) (tid c : List Nat), c ∈ cells E F Ls q tid →
    ∀ k, k ∉ Ls.map (·.dir) → c.getD k 0 = tid.getD k 0 := by
  intro Ls
  induction Ls with
  | nil => intro _ _ _ h; simp [cells] at h
  | cons L Ls ih =>
    intro q tid c h k hk
    rw [List.map_cons, List.mem_cons, not_or] at hk
    rw [cells] at h
    split at h
    · split at h
      · simp at h
      · rw [List.mem_singleton] at h
        rw [h, getD_set_ne hk.1]
    · obtain ⟨i, _, h⟩ := List.mem_flatMap.1 h
      obtain ⟨_, h⟩ := mem_ite_nil h
      split at h
      · rw [List.mem_singleton] at h
        rw [h, getD_set_ne hk.1]
      · rw [ih _ _ _ h k hk.2, getD_set_ne hk.1]

theorem cells_nodup (E : Env K) (F : Fn K) : ∀ (Ls : List (Level K)) (q : List K) (tid : List Nat), DirsOk tid.length Ls →
    (cells E F Ls q tid).Nodup := by
  intro Ls
  induction Ls with
  | nil => intro _ _ _; simp [cells]
  | cons L Ls ih =>
    intro q tid hd
    have hdl : L.dir < tid.length := hd.2 L (by simp)
    have hnd := hd.1
    rw [List.map_cons, List.nodup_cons] at hnd
    rw [cells]
    split
    · split <;> simp
    rw [List.nodup_flatMap]
    constructor
    · intro i _
      split
      · split
        · simp
        · exact ih _ _ (by rw [List.length_set]; exact ⟨hnd.2, fun L' h => hd.2 L' (by simp [h])⟩)
      · simp
    · refine List.Pairwise.imp_of_mem ?_ (List.nodup_range (n := (actives E F false L q).length))
      intro i j _ _ hij c hc hc'
      have key : ∀ i : Nat, c ∈ (if Ls.isEmpty = true then [tid.set L.dir i]
          else cells E F Ls (midPoint L (breaks E F L q) q i) (tid.set L.dir i)) → c.getD L.dir 0 = i := by
        intro i h
        split at h
        · rw [List.mem_singleton] at h
          rw [h, getD_set_self hdl]
        · rw [cells_agree E F _ _ _ _ h _ hnd.1, getD_set_self hdl]
      exact hij ((key i (mem_ite_nil hc).2).symm.trans (key j (mem_ite_nil hc').2))

theorem keys_nodup (E : Env K) (F : Fn K) : ∀ (Ls : List (Level K)) (q : List K) (tid pt : List Nat), Ls ≠ [] → DirsOk tid.length Ls →
    pt.length = tid.length → (keys E F Ls q tid pt).Nodup := by
  intro Ls
  induction Ls with
  | nil => intro _ _ _ h; exact absurd rfl h
  | cons L Ls ih =>
    intro q tid pt _ hd hpt
    have hdl : L.dir < tid.length := hd.2 L (by simp)
    have hdp : L.dir < pt.length := by rw [hpt]; exact hdl
    have hnd := hd.1
    rw [List.map_cons, List.nodup_cons] at hnd
    have hd' : DirsOk tid.length Ls := ⟨hnd.2, fun L' h => hd.2 L' (by simp [h])⟩
    rw [keys]
    split
    · split <;> simp
    have key : ∀ (i j : Nat) (c t : List Nat), (c, t) ∈ (if Ls.isEmpty = true then [(tid.set L.dir i, pt.set L.dir j)]
          else keys E F Ls (midPoint L (breaks E F L q) q i) (tid.set L.dir i) (pt.set L.dir j)) →
          c.getD L.dir 0 = i ∧ t.getD L.dir 0 = j := by
      intro i j c t h
      split at h
      · rw [List.mem_singleton, Prod.mk.injEq] at h
        rw [h.1, h.2, getD_set_self hdl, getD_set_self hdp]
        exact ⟨rfl, rfl⟩
      · rename_i hE
        have hne : Ls ≠ [] := by rintro rfl; simp at hE
        have h := (mem_keys E F Ls _ _ _ c t hne (by rw [List.length_set, hpt]; exact hd')).1 h
        refine ⟨by rw [cells_agree E F _ _ _ _ h.1 _ hnd.1, getD_set_self hdl], ?_⟩
        rw [h.2.2.2 _ (fun h' => hnd.1 (pdirs_sub _ _ _ h')), getD_set_self hdp]
    rw [List.nodup_flatMap]
    constructor
    · intro i _
      split
      · rw [List.nodup_flatMap]
        constructor
        · intro j _
          split
          · simp
          · rename_i hE
            exact ih _ _ _ (by rintro rfl; simp at hE) (by rw [List.length_set]; exact hd') (by rw [List.length_set, List.length_set, hpt])
        · refine List.Pairwise.imp_of_mem ?_ (List.nodup_range (n := E.order))
          rintro j j' _ _ hij ⟨c, t⟩ hc hc'
          exact hij ((key i j c t hc).2.symm.trans (key i j' c t hc').2)
      · simp
    · refine List.Pairwise.imp_of_mem ?_ (List.nodup_range (n := (actives E F false L q).length))
      rintro i i' _ _ hij ⟨c, t⟩ hc hc'
      obtain ⟨j, _, hc⟩ := List.mem_flatMap.1 (mem_ite_nil hc).2
      obtain ⟨j', _, hc'⟩ := List.mem_flatMap.1 (mem_ite_nil hc').2
      exact hij ((key i j c t hc).1.symm.trans (key i' j' c t hc').1)

end Qugar.General
