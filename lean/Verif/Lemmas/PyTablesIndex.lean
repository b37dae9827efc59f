import Verif.Model.PyTables
import Mathlib.Tactic.Ring
import Mathlib.Tactic.Linarith
import Mathlib.Data.Nat.Choose.Sum
/-
Lemmas about the numbering of derivatives (`basix.index`) and the layout of the blocks of values.
-/
namespace Qugar.Py.Tables

/-- Triangular numbers. -/
def tri : Nat → Nat
  | 0 => 0
  | s + 1 => tri s + (s + 1)

/-- Tetrahedral numbers. -/
def tet : Nat → Nat
  | 0 => 0
  | s + 1 => tet s + tri (s + 1)

theorem tri_two (s : Nat) : s * (s + 1) = 2 * tri s := by
  induction s with
  | zero => rfl
  | succ s ih => rw [tri]; linarith [ih, show (s + 1) * (s + 1 + 1) = s * (s + 1) + 2 * (s + 1) by ring]

theorem tri_div (s : Nat) : s * (s + 1) / 2 = tri s := by rw [tri_two]; omega

theorem tet_six (s : Nat) : s * (s + 1) * (s + 2) = 6 * tet s := by
  induction s with
  | zero => rfl
  | succ s ih =>
    rw [tet]
    have h := tri_two (s + 1)
    have : (s + 1) * (s + 1 + 1) * (s + 1 + 2) = s * (s + 1) * (s + 2) + 3 * ((s + 1) * (s + 1 + 1)) := by ring
    rw [this, ih, h]; ring

theorem tet_div (s : Nat) : s * (s + 1) * (s + 2) / 6 = tet s := by rw [tet_six]; omega

theorem tri_mono {s t : Nat} (h : s ≤ t) : tri s ≤ tri t := by
  induction h with
  | refl => exact le_rfl
  | step _ ih => exact le_trans ih (Nat.le_add_right _ _)

theorem tet_mono {s t : Nat} (h : s ≤ t) : tet s ≤ tet t := by
  induction h with
  | refl => exact le_rfl
  | step _ ih => exact le_trans ih (Nat.le_add_right _ _)

theorem index_two (p q : Nat) : index [p, q] = tri (p + q) + q := by
  have := tri_div (p + q)
  rw [mul_comm] at this
  simp only [index, this]

theorem index_three (p q r : Nat) : index [p, q, r] = tet (p + q + r) + tri (q + r) + r := by
  simp only [index, tri_div, tet_div]

theorem tri_inj {s q s' q' : Nat} (h : tri s + q = tri s' + q') (hq : q ≤ s) (hq' : q' ≤ s') : s = s' ∧ q = q' := by
  rcases Nat.lt_trichotomy s s' with hs | hs | hs
  · exfalso
    have := tri_mono (Nat.succ_le_of_lt hs)
    rw [Nat.succ_eq_add_one, tri] at this
    omega
  · subst hs; exact ⟨rfl, by omega⟩
  · exfalso
    have := tri_mono (Nat.succ_le_of_lt hs)
    rw [Nat.succ_eq_add_one, tri] at this
    omega

theorem tet_inj {s q s' q' : Nat} (h : tet s + q = tet s' + q') (hq : q < tri (s + 1)) (hq' : q' < tri (s' + 1)) :
    s = s' ∧ q = q' := by
  rcases Nat.lt_trichotomy s s' with hs | hs | hs
  · exfalso
    have := tet_mono (Nat.succ_le_of_lt hs)
    rw [Nat.succ_eq_add_one, tet] at this
    omega
  · subst hs; exact ⟨rfl, by omega⟩
  · exfalso
    have := tet_mono (Nat.succ_le_of_lt hs)
    rw [Nat.succ_eq_add_one, tet] at this
    omega

theorem tri_lt {u r s : Nat} (hr : r ≤ u) (hu : u ≤ s) : tri u + r < tri (s + 1) := by
  have := tri_mono (Nat.succ_le_succ hu)
  simp only [Nat.succ_eq_add_one] at this
  rw [tri] at this
  omega

theorem index_inj {ds es : List Nat} (h1 : 1 ≤ ds.length) (h3 : ds.length ≤ 3) (hl : ds.length = es.length)
    (h : index ds = index es) : ds = es := by
  match ds, es with
  | [p], [p'] => simp only [index] at h; rw [h]
  | [p, q], [p', q'] =>
    rw [index_two, index_two] at h
    obtain ⟨h1, h2⟩ := tri_inj h (by omega) (by omega)
    rw [h2, show p = p' by omega]
  | [p, q, r], [p', q', r'] =>
    rw [index_three, index_three] at h
    have h' : tet (p + q + r) + (tri (q + r) + r) = tet (p' + q' + r') + (tri (q' + r') + r') := by omega
    obtain ⟨h1, h2⟩ := tet_inj h' (tri_lt (by omega) (by omega)) (tri_lt (by omega) (by omega))
    obtain ⟨h4, h5⟩ := tri_inj h2 (by omega) (by omega)
    rw [h5, show q = q' by omega, show p = p' by omega]
  | [], _ => simp at h1
  | _ :: _ :: _ :: _ :: _, _ => simp at h3; omega
  | [_], [] => simp at hl
  | [_], _ :: _ :: _ => simp at hl
  | [_, _], [] => simp at hl
  | [_, _], [_] => simp at hl
  | [_, _], _ :: _ :: _ :: _ => simp at hl
  | [_, _, _], [] => simp at hl
  | [_, _, _], [_] => simp at hl
  | [_, _, _], [_, _] => simp at hl
  | [_, _, _], _ :: _ :: _ :: _ :: _ => simp at hl

theorem choose_two_tri (m : Nat) : Nat.choose (m + 2) 2 = tri (m + 1) := by
  induction m with
  | zero => rfl
  | succ m ih =>
    rw [Nat.choose_succ_succ, ih, Nat.choose_one_right]
    show _ = tri (m + 1) + (m + 1 + 1)
    omega

theorem choose_three_tet (m : Nat) : Nat.choose (m + 3) 3 = tet (m + 1) := by
  induction m with
  | zero => rfl
  | succ m ih => 
    rw [Nat.choose_succ_succ, ih, choose_two_tri (m + 1)]
    show _ = tet (m + 1) + tri (m + 1 + 1)
    omega

/-- The number of a derivative of order at most `m` is smaller than the number of derivatives. -/
theorem index_lt {ds : List Nat} (h1 : 1 ≤ ds.length) (h3 : ds.length ≤ 3) {m : Nat} (hm : ds.sum ≤ m) :
    index ds < Nat.choose (m + ds.length) ds.length := by
  match ds with
  | [p] =>
    simp only [List.sum_cons, List.sum_nil] at hm
    simp only [index, List.length_cons, List.length_nil, Nat.choose_one_right, Nat.zero_add]
    omega
  | [p, q] =>
    simp only [List.sum_cons, List.sum_nil] at hm
    simp only [List.length_cons, List.length_nil, Nat.zero_add, Nat.reduceAdd]
    rw [index_two, choose_two_tri]
    exact tri_lt (by omega) (by omega)
  | [p, q, r] =>
    simp only [List.sum_cons, List.sum_nil] at hm
    simp only [List.length_cons, List.length_nil, Nat.zero_add, Nat.reduceAdd]
    rw [index_three, choose_three_tet]
    have h2 := tri_lt (u := q + r) (r := r) (s := p + q + r) (by omega) (by omega)
    have h4 := tet_mono (Nat.succ_le_succ (show p + q + r ≤ m by omega))
    simp only [Nat.succ_eq_add_one] at h4
    rw [tet] at h4
    omega
  | [] => simp at h1
  | _ :: _ :: _ :: _ :: _ => simp at h3; omega

theorem tri_ge (s : Nat) : s ≤ tri s := by
  induction s with
  | zero => exact le_rfl
  | succ s _ => rw [tri]; omega

theorem tet_ge (s : Nat) : s ≤ tet s := by
  induction s with
  | zero => exact le_rfl
  | succ s _ => rw [tet]; have := tri_ge (s + 1); omega

theorem le_index {ds : List Nat} (h1 : 1 ≤ ds.length) (h3 : ds.length ≤ 3) {d : Nat} (hd : d ∈ ds) : d ≤ index ds := by
  match ds with
  | [p] => simp at hd; subst hd; exact le_rfl
  | [p, q] =>
    rw [index_two]
    have := tri_ge (p + q)
    simp at hd
    omega
  | [p, q, r] =>
    rw [index_three]
    have := tet_ge (p + q + r)
    simp at hd
    omega
  | [] => simp at h1
  | _ :: _ :: _ :: _ :: _ => simp at h3; omega

theorem mem_orders {g m : Nat} {ds : List Nat} : ds ∈ orders g m ↔ ds.length = g ∧ ∀ d ∈ ds, d ≤ m := by
  induction g generalizing ds with
  | zero =>
    simp only [orders, List.mem_singleton, List.length_eq_zero_iff]
    constructor
    · rintro rfl; simp
    · rintro ⟨h, _⟩; exact h
  | succ g ih =>
    simp only [orders, List.mem_flatMap, List.mem_range, List.mem_map]
    constructor
    · rintro ⟨p, hp, es, hes, rfl⟩
      obtain ⟨h1, h2⟩ := ih.1 hes
      refine ⟨by simp [h1], ?_⟩
      intro d hd
      rcases List.mem_cons.1 hd with rfl | hd
      · omega
      · exact h2 d hd
    · rintro ⟨h1, h2⟩
      match ds with
      | [] => simp at h1
      | p :: es =>
        refine ⟨p, ?_, es, ih.2 ⟨by simpa using h1, fun d hd => h2 d (List.mem_cons_of_mem _ hd)⟩, rfl⟩
        have := h2 p (List.mem_cons_self ..)
        omega

theorem unindex_index {ds : List Nat} (h1 : 1 ≤ ds.length) (h3 : ds.length ≤ 3) : unindex ds.length (index ds) = ds := by
  unfold unindex
  cases hf : (orders ds.length (index ds)).find? fun es => decide (index es = index ds) with
  | none =>
    exfalso
    rw [List.find?_eq_none] at hf
    have := hf ds (mem_orders.2 ⟨rfl, fun d hd => le_index h1 h3 hd⟩)
    simp at this
  | some es =>
    have h4 := List.find?_some hf
    have h5 := List.mem_of_find?_eq_some hf
    simp only [decide_eq_true_eq] at h4
    rw [Option.getD_some]
    have h6 := (mem_orders.1 h5).1
    exact index_inj (by omega) (by omega) h6 h4

variable {P K : Type}

theorem block_entry (B : Basix P K) (core : P) (pts : List (List K)) {ds : List Nat} (h1 : 1 ≤ ds.length) (h3 : ds.length ≤ 3)
    (hds : ds.length = B.dim core) {iq dof v : Nat} (hiq : iq < pts.length) (hdof : dof < B.dofs core) (hv : v < B.values core) :
    block B core pts (index ds * pts.length * (B.dofs core * B.values core) + iq * (B.dofs core * B.values core) + dof * B.values core + v)
      = B.eval core (pts.getD iq []) ds dof v := by
  have e1 : index ds * pts.length * (B.dofs core * B.values core) + iq * (B.dofs core * B.values core) + dof * B.values core + v
      = ((index ds * pts.length + iq) * B.dofs core + dof) * B.values core + v := by ring
  rw [e1]
  have hV : 0 < B.values core := by omega
  have hD : 0 < B.dofs core := by omega
  have hN : 0 < pts.length := by omega
  have d1 : ∀ x, (x * B.values core + v) / B.values core = x := fun x => by
    rw [Nat.mul_comm, Nat.mul_add_div hV, Nat.div_eq_of_lt hv, Nat.add_zero]
  have d2 : ∀ x, (x * B.dofs core + dof) / B.dofs core = x := fun x => by
    rw [Nat.mul_comm, Nat.mul_add_div hD, Nat.div_eq_of_lt hdof, Nat.add_zero]
  have d3 : ∀ x, (x * pts.length + iq) / pts.length = x := fun x => by
    rw [Nat.mul_comm, Nat.mul_add_div hN, Nat.div_eq_of_lt hiq, Nat.add_zero]
  have m1 : ∀ x, (x * B.values core + v) % B.values core = v := fun x => by
    rw [Nat.mul_comm, Nat.mul_add_mod, Nat.mod_eq_of_lt hv]
  have m2 : ∀ x, (x * B.dofs core + dof) % B.dofs core = dof := fun x => by
    rw [Nat.mul_comm, Nat.mul_add_mod, Nat.mod_eq_of_lt hdof]
  have m3 : ∀ x, (x * pts.length + iq) % pts.length = iq := fun x => by
    rw [Nat.mul_comm, Nat.mul_add_mod, Nat.mod_eq_of_lt hiq]
  simp only [block, d1, d2, d3, m1, m2, m3]
  rw [← hds, unindex_index h1 h3]

/-- The entries of a derivative of order at most `nd` are in the block. -/
theorem entry_lt (B : Basix P K) (core : P) {n nd : Nat} {ds : List Nat} (h1 : 1 ≤ ds.length) (h3 : ds.length ≤ 3)
    (hds : ds.length = B.dim core) (hnd : ds.sum ≤ nd) {iq dof v : Nat} (hiq : iq < n) (hdof : dof < B.dofs core) (hv : v < B.values core) :
    index ds * n * (B.dofs core * B.values core) + iq * (B.dofs core * B.values core) + dof * B.values core + v < need B core nd n := by
  have h4 := index_lt h1 h3 hnd
  rw [hds] at h4
  unfold need
  have h5 : (index ds + 1) * n * B.dofs core * B.values core ≤ Nat.choose (nd + B.dim core) (B.dim core) * n * B.dofs core * B.values core := by
    gcongr; omega
  have h6 : (iq + 1) * (B.dofs core * B.values core) ≤ n * (B.dofs core * B.values core) := by gcongr; omega
  have h7 : (dof + 1) * B.values core ≤ B.dofs core * B.values core := by gcongr; omega
  have e1 : (index ds + 1) * n * B.dofs core * B.values core
      = index ds * n * (B.dofs core * B.values core) + n * (B.dofs core * B.values core) := by ring
  have e2 : (iq + 1) * (B.dofs core * B.values core) = iq * (B.dofs core * B.values core) + B.dofs core * B.values core := by ring
  have e3 : (dof + 1) * B.values core = dof * B.values core + B.values core := by ring
  omega

end Qugar.Py.Tables
