import Verif.Lemmas.GeneralLeaf
/-
The state of the constructors: free directions, higher levels and boxes.
-/
namespace Qugar.General
open Roots Mesh Poly Reparam Spec TS
variable {K : Type} [Field K] [LinearOrder K]

/-! ### Base indices -/

theorem spread_length {α : Type} (u : α) : ∀ (free : List Bool) (t : List α), (spread free u t).length = free.length
  | [], t => by cases t <;> rfl
  | true :: fs, [] => by rw [spread, List.length_cons, spread_length u fs, List.length_cons]
  | true :: fs, a :: as => by rw [spread, List.length_cons, spread_length u fs, List.length_cons]
  | false :: fs, t => by rw [spread, List.length_cons, spread_length u fs, List.length_cons]

theorem spread_mem (o : Nat) : ∀ (free : List Bool) (t : List Nat), t.length = free.count true → (∀ x ∈ t, x < o) →
    (∀ k, free.getD k false = true → (spread free 0 t).getD k 0 < o) ∧ ∀ k, free.getD k false = false → (spread free 0 t).getD k 0 = 0
  | [], t, _, _ => by
    refine ⟨by simp, ?_⟩
    intro k _
    cases t <;> simp [spread]
  | true :: fs, [], h, _ => by simp at h
  | true :: fs, a :: as, h, hx => by
    obtain ⟨h1, h2⟩ := spread_mem o fs as (by simpa using h) (fun x hx' => hx x (by simp [hx']))
    rw [spread]
    constructor
    · intro k hk
      cases k with
      | zero => exact hx a (by simp)
      | succ k => exact h1 k (by simpa using hk)
    · intro k hk
      cases k with
      | zero => simp at hk
      | succ k => exact h2 k (by simpa using hk)
  | false :: fs, t, h, hx => by
    obtain ⟨h1, h2⟩ := spread_mem o fs t (by simpa using h) hx
    rw [spread]
    constructor
    · intro k hk
      cases k with
      | zero => simp at hk
      | succ k => exact h1 k (by simpa using hk)
    · intro k hk
      cases k with
      | zero => rfl
      | succ k => exact h2 k (by simpa using hk)

theorem spread_inj : ∀ (free : List Bool) (t t' : List Nat), t.length = free.count true → t'.length = free.count true →
    spread free 0 t = spread free 0 t' → t = t'
  | [], t, t', h, h', _ => by
    rw [List.length_eq_zero_iff.1 (show t.length = 0 by simpa using h), List.length_eq_zero_iff.1 (show t'.length = 0 by simpa using h')]
  | true :: fs, [], _, h, _, _ => by simp at h
  | true :: fs, _ :: _, [], _, h, _ => by simp at h
  | true :: fs, a :: as, b :: bs, h, h', he => by
    rw [spread, spread, List.cons.injEq] at he
    rw [he.1, spread_inj fs as bs (by simpa using h) (by simpa using h') he.2]
  | false :: fs, t, t', h, h', he => by
    rw [spread, spread, List.cons.injEq] at he
    exact spread_inj fs t t' (by simpa using h) (by simpa using h') he.2

theorem spread_surj (o : Nat) : ∀ (free : List Bool) (b : List Nat), b.length = free.length →
    (∀ k, k < free.length → free.getD k false = true → b.getD k 0 < o) → (∀ k, free.getD k false = false → b.getD k 0 = 0) →
    ∃ t, t.length = free.count true ∧ (∀ x ∈ t, x < o) ∧ spread free 0 t = b
  | [], b, hl, _, _ => ⟨[], rfl, by simp, by rw [List.length_eq_zero_iff.1 hl]; rfl⟩
  | _ :: _, [], hl, _, _ => by simp at hl
  | true :: fs, a :: b, hl, h1, h2 => by
    obtain ⟨t, t1, t2, t3⟩ := spread_surj o fs b (by simpa using hl) (fun k hk h => by simpa using h1 (k + 1) (by simpa using hk) (by simpa using h))
      (fun k h => by simpa using h2 (k + 1) (by simpa using h))
    refine ⟨a :: t, by simp [t1], ?_, by rw [spread, t3]⟩
    intro x hx
    rcases List.mem_cons.1 hx with rfl | hx
    · exact h1 0 (by simp) (by simp)
    · exact t2 x hx
  | false :: fs, a :: b, hl, h1, h2 => by
    obtain ⟨t, t1, t2, t3⟩ := spread_surj o fs b (by simpa using hl) (fun k hk h => by simpa using h1 (k + 1) (by simpa using hk) (by simpa using h))
      (fun k h => by simpa using h2 (k + 1) (by simpa using h))
    have : a = 0 := by simpa using h2 0 (by simp)
    exact ⟨t, by simp [t1], t2, by rw [spread, t3, this]⟩

theorem base_spread (free : List Bool) (o : Nat) :
    BaseIdx free.length o (fun k => free.getD k false) ((indices (List.replicate (free.count true) o)).map (spread free 0)) := by
  constructor
  · rw [List.nodup_map_iff_inj_on (indices_nodup _)]
    intro t ht t' ht' h
    exact spread_inj free t t' (mem_indices_iff.1 ht).1 (mem_indices_iff.1 ht').1 h
  · intro b
    rw [List.mem_map]
    constructor
    · rintro ⟨t, ht, rfl⟩
      rw [mem_indices_iff] at ht
      obtain ⟨h1, h2⟩ := spread_mem o free t ht.1 ht.2
      exact ⟨spread_length _ _ _, fun k _ h => h1 k h, h2⟩
    · rintro ⟨h1, h2, h3⟩
      obtain ⟨t, t1, t2, t3⟩ := spread_surj o free b h1 h2 h3
      exact ⟨t, mem_indices_iff.2 ⟨t1, t2⟩, t3⟩

theorem base_zero (n o : Nat) : BaseIdx n o (fun _ => false) [List.replicate n 0] := by
  refine ⟨by simp, ?_⟩
  intro b
  rw [List.mem_singleton]
  constructor
  · rintro rfl
    refine ⟨by simp, by simp, ?_⟩
    intro k _
    by_cases h : k < n
    · rw [List.getD_eq_getElem _ _ (by simpa using h)]; simp
    · rw [List.getD_eq_default _ _ (by simp; omega)]
  · rintro ⟨h1, _, h3⟩
    refine list_ext_getD (by simp [h1]) ?_
    intro k
    rw [h3 k rfl]
    by_cases h : k < n
    · rw [List.getD_eq_getElem _ _ (by simpa using h)]; simp
    · rw [List.getD_eq_default _ _ (by simp; omega)]

/-! ### Boxes -/

/-- `box` has `n` ordered intervals inside those of `B`. -/
def SubBox (n : Nat) (box B : Box K) : Prop :=
  box.length = n ∧ ∀ k, k < n → (B.getD k (0, 0)).1 ≤ sideAt box 0 k ∧ sideAt box 0 k ≤ sideAt box 1 k ∧ sideAt box 1 k ≤ (B.getD k (0, 0)).2

/-- The sides are longer than `tol * 2^j`. -/
def Wide (tol : K) (n j : Nat) (box : Box K) : Prop := ∀ k, k < n → tol * 2 ^ j < extent box k

/-! ### The state -/

/-- State of a constructor: the free directions are those without level, and not the restricted direction `fc` of a face. -/
structure St (E : Env K) (n : Nat) (fc : Option Nat) (B : Box K) (free : List Bool) (Ps : List (Level K)) (dim : Nat) : Prop where
  len : free.length = n
  fcl : ∀ k, some k = fc → k < n
  iff : ∀ k, k < n → (free.getD k false = true ↔ k ∉ Ps.map (·.dir) ∧ some k ≠ fc)
  chain : ChainOk E n B Ps
  off : ∀ L ∈ Ps, some L.dir ≠ fc
  cnt : free.count true = dim
  total : dim + Ps.length + (if fc.isSome then 1 else 0) = n
  top : ∀ T, Ps.getLast? = some T → erDir false T = fc ∧ (T.dim < n ↔ fc.isSome = true) ∧ ∀ k, some k = fc → T.free.getD k false = false
  surf : E.S = true → fc = none

theorem count_le_one_false {n : Nat} {free : List Bool} (hl : free.length = n) {j : Nat} (hj : j < n)
    (h : ∀ k, k < n → (free.getD k false = true ↔ some k ≠ some j)) : free.count true = n - 1 ∧ fixDir free = j := by
  have e : free = (List.replicate n true).set j false := by
    apply List.ext_getElem (by simp [hl])
    intro k h1 h2
    have hk := h k (by omega)
    rw [List.getD_eq_getElem _ _ h1] at hk
    rw [List.getElem_set]
    by_cases c : j = k
    · rw [if_pos c]
      subst c
      have : ¬ free[j] = true := fun h' => (hk.1 h') rfl
      simpa using this
    · rw [if_neg c, List.getElem_replicate]
      exact hk.2 (by simpa using fun h' : k = j => c h'.symm)
  constructor
  · rw [e, List.count_set (by simpa using hj)]
    simp
  · unfold fixDir
    have : ((List.range free.length).filter fun d => !free.getD d false) = [j] := by
      rw [hl]
      have : ((List.range n).filter fun d => !free.getD d false) = (List.range n).filter fun d => decide (d = j) := by
        apply List.filter_congr
        intro d hd
        rw [List.mem_range] at hd
        have := h d hd
        by_cases c : d = j
        · subst c
          have : ¬ free.getD d false = true := fun h' => (this.1 h') rfl
          simp only [Bool.not_eq_true] at this
          rw [this]; simp
        · rw [this.2 (by simpa using c)]; simp [c]
      rw [this]
      have hn : ((List.range n).filter fun d => decide (d = j)).Nodup := List.nodup_range.filter _
      have hm : ∀ x, x ∈ ((List.range n).filter fun d => decide (d = j)) ↔ x = j := by
        intro x
        rw [List.mem_filter, List.mem_range]
        simp only [decide_eq_true_eq]
        constructor
        · exact fun h => h.2
        · rintro rfl; exact ⟨hj, rfl⟩
      obtain ⟨l, hl'⟩ : ∃ l, l = ((List.range n).filter fun d => decide (d = j)) := ⟨_, rfl⟩
      rw [← hl'] at hn hm ⊢
      exact List.perm_singleton.1 ((List.perm_ext_iff_of_nodup hn (by simp)).2 (by simpa using hm))
    rw [this]
    rfl

/-- A new level. -/
theorem St.push {E : Env K} {n : Nat} {fc : Option Nat} {B : Box K} {free : List Bool} {Ps : List (Level K)} {dim : Nat}
    (h : St E n fc B free Ps dim) {k : Nat} (hk : k < n) (hkf : free.getD k false = true) {psi : List Psi} {count : Nat} {box : Box K}
    (hL : LevelOk E ⟨dim, free, psi, count, box, k⟩) (hbox : SubBox n box B) (hd : 0 < dim)
    (hc : 1 < dim → count ≤ 2) (ht : Ps = [] → E.S = true → 1 < dim ∧ count = 1) :
    St E n fc B (free.set k false) (⟨dim, free, psi, count, box, k⟩ :: Ps) (dim - 1) where
  len := by rw [List.length_set, h.len]
  fcl := h.fcl
  iff := by
    intro j hj
    by_cases c : j = k
    · subst c
      rw [getD_set_self (by rw [h.len]; exact hj)]
      simp
    · rw [getD_set_ne c, h.iff j hj]
      simp [c]
  chain := by
    have hkk := (h.iff k hk).1 hkf
    refine ⟨?_, ⟨?_, ?_⟩, ?_, ?_, ?_, ?_⟩
    · intro L hL'
      rcases List.mem_cons.1 hL' with rfl | hL'
      · exact hL
      · exact h.chain.levels L hL'
    · rw [List.map_cons, List.nodup_cons]
      exact ⟨hkk.1, h.chain.dirs.1⟩
    · intro L hL'
      rcases List.mem_cons.1 hL' with rfl | hL'
      · exact hk
      · exact h.chain.dirs.2 L hL'
    · intro L hL'
      rcases List.mem_cons.1 hL' with rfl | hL'
      · exact hd
      · exact h.chain.pos L hL'
    · intro L hL'
      rcases List.mem_cons.1 hL' with rfl | hL'
      · exact ⟨(hbox.2 k hk).1, (hbox.2 k hk).2.2⟩
      · exact h.chain.sub L hL'
    · intro L hL'
      rcases List.mem_cons.1 hL' with rfl | hL'
      · exact fun hd' => ⟨hc hd', by simp⟩
      · exact h.chain.count L hL'
    · intro T hT
      cases hPs : Ps with
      | nil =>
        rw [hPs] at hT
        simp only [List.getLast?_singleton, Option.some.injEq] at hT
        subst hT
        exact ⟨h.len, hbox.2, ht hPs⟩
      | cons a l =>
        rw [hPs, List.getLast?_cons_cons, ← hPs] at hT
        exact h.chain.top T hT
  off := by
    intro L hL'
    rcases List.mem_cons.1 hL' with rfl | hL'
    · exact ((h.iff k hk).1 hkf).2
    · exact h.off L hL'
  cnt := by
    rw [List.count_set (by rw [h.len]; exact hk), h.cnt]
    rw [List.getD_eq_getElem _ _ (by rw [h.len]; exact hk)] at hkf
    simp [hkf]
  total := by have := h.total; rw [List.length_cons]; omega
  top := by
    intro T hT
    cases hPs : Ps with
    | nil =>
      rw [hPs] at hT
      simp only [List.getLast?_singleton, Option.some.injEq] at hT
      subst hT
      have hiff := h.iff
      rw [hPs] at hiff
      simp only [List.map_nil, List.not_mem_nil, not_false_eq_true, true_and] at hiff
      have hn := h.total
      rw [hPs, List.length_nil] at hn
      cases hfc : fc with
      | none =>
        rw [hfc] at hn
        simp only [Option.isSome_none, Bool.false_eq_true, if_false] at hn
        refine ⟨?_, ?_, by simp⟩
        · simp only [erDir, Bool.false_eq_true, if_false]
          rw [if_neg (by rw [h.len]; omega)]
        · simp only [Option.isSome_none, Bool.false_eq_true, iff_false]; omega
      | some j =>
        rw [hfc] at hn hiff
        simp only [Option.isSome_some, if_true] at hn
        obtain ⟨c1, c2⟩ := count_le_one_false h.len (h.fcl j hfc.symm) hiff
        refine ⟨?_, ?_, ?_⟩
        · simp only [erDir, Bool.false_eq_true, if_false]
          rw [if_pos (by rw [h.len]; omega), c2]
        · simp only [Option.isSome_some, iff_true]; omega
        · intro k' hk'
          have := (hiff k' (h.fcl k' (by rw [hfc]; exact hk')))
          by_contra hcc
          exact (this.1 (by simpa using hcc)) hk'
    | cons a l =>
      rw [hPs, List.getLast?_cons_cons, ← hPs] at hT
      exact h.top T hT
  surf := h.surf

end Qugar.General
