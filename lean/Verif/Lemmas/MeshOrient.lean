import Verif.Lemmas.MeshSum
/-
Lemmas on the orientation routines.
-/
namespace Qugar.Mesh
open Spec Poly TS Qugar.Lagrange

section
variable {K : Type} [Field K] [LinearOrder K]

theorem flipped_mirror {α : Type} {dim order : Nat} (v : List Nat → α) {t : List Nat}
    (ht : t ∈ indices (List.replicate dim order)) (hd : 0 < dim) : flipped dim order v t = v (mirror order t) := by
  rw [mem_indices_replicate, inSize_replicate] at ht
  obtain ⟨h1, _⟩ := ht
  subst h1
  unfold flipped
  match t with
  | [] => simp at hd
  | [i] => simp [mirror]
  | i :: j :: t => simp [mirror]

/-- Two meshes with the same points and shape. -/
structure SameShape (m m' : Mesh K) : Prop where
  dim : m'.dim = m.dim
  range : m'.range = m.range
  order : m'.order = m.order
  points : m'.points = m.points
  wires : m'.wires = m.wires
  len : m'.conn.length = m.conn.length
  perm : m'.conn.Perm m.conn

theorem SameShape.refl (m : Mesh K) : SameShape m m := ⟨rfl, rfl, rfl, rfl, rfl, rfl, List.Perm.refl _⟩

theorem SameShape.trans {a b c : Mesh K} (h : SameShape a b) (h' : SameShape b c) : SameShape a c :=
  ⟨h'.dim.trans h.dim, h'.range.trans h.range, h'.order.trans h.order, h'.points.trans h.points, h'.wires.trans h.wires,
    h'.len.trans h.len, h'.perm.trans h.perm⟩

theorem SameShape.ppc {m m' : Mesh K} (h : SameShape m m') : ppc m' = ppc m := by
  unfold Mesh.ppc; rw [h.dim, h.order]

/-- What `permute_cell_directions` does to the vertices. -/
theorem permute_vert (m : Mesh K) (cell : Nat) (hdim : 0 < m.dim) (ho : 1 < m.order)
    (hlen : m.conn.length % ppc m = 0) (hc : cell < m.conn.length / ppc m) :
    ∃ m', permuteCell m cell = some m' ∧ SameShape m m' ∧
      (∀ t ∈ indices (List.replicate m.dim m.order), vert m' cell t = vert m cell (mirror m.order t)) ∧
      ∀ c, c ≠ cell → ∀ t ∈ indices (List.replicate m.dim m.order), vert m' c t = vert m c t := by
  obtain ⟨conn', h1, h2, h3, h4, h5⟩ := permuteCell_spec m cell hdim ho hlen hc
  refine ⟨_, h1, ⟨rfl, rfl, rfl, rfl, rfl, h2, h3⟩, fun t ht => ?_, fun c hcc t ht => ?_⟩
  · unfold vert vertex
    have := h4 t ht
    unfold ppc at this
    rw [this]
  · have hlt := flatIndex_lt' ht
    rw [Vtu.listProd_replicate] at hlt
    unfold vert vertex
    dsimp only
    rw [h5]
    unfold ppc
    rcases Nat.lt_or_gt_of_ne hcc with h | h
    · left
      calc c * m.order ^ m.dim + flatIndex t (List.replicate m.dim m.order) < c * m.order ^ m.dim + m.order ^ m.dim := by omega
        _ = (c + 1) * m.order ^ m.dim := by ring
        _ ≤ cell * m.order ^ m.dim := Nat.mul_le_mul_right _ h
    · right
      calc (cell + 1) * m.order ^ m.dim ≤ c * m.order ^ m.dim := Nat.mul_le_mul_right _ h
        _ ≤ _ := Nat.le_add_right _ _

/-- A pass over the cells that flips the bad ones, when a flipped bad cell is not bad. -/
theorem orient_fold (m0 : Mesh K) (hdim : 0 < m0.dim) (ho : 1 < m0.order) (hlen : m0.conn.length % ppc m0 = 0)
    (bad : (List Nat → List K) → Prop) [DecidablePred bad]
    (hcongr : ∀ v v', (∀ t ∈ indices (List.replicate m0.dim m0.order), v t = v' t) → (bad v ↔ bad v'))
    (hflip : ∀ v, bad v → ¬ bad fun t => v (mirror m0.order t))
    (step : Mesh K → Nat → Option (Mesh K))
    (hstep : ∀ m, SameShape m0 m → ∀ c < m0.conn.length / ppc m0, step m c = if bad (vert m c) then permuteCell m c else some m) :
    ∀ (cells : List Nat) (m : Mesh K), SameShape m0 m → (∀ c ∈ cells, c < m0.conn.length / ppc m0) →
    ∃ m', cells.foldlM step m = some m' ∧ SameShape m0 m' ∧ ∀ c, ∀ t ∈ indices (List.replicate m0.dim m0.order),
      ((c ∈ cells ∧ bad (vert m c)) → vert m' c t = vert m c (mirror m0.order t)) ∧
      (¬ (c ∈ cells ∧ bad (vert m c)) → vert m' c t = vert m c t) := by
  intro cells
  induction cells with
  | nil => intro m hm _; exact ⟨m, rfl, hm, fun c t _ => ⟨fun h => by simp at h, fun _ => rfl⟩⟩
  | cons a cells ih =>
    intro m hm hr
    have ha := hr a (List.mem_cons_self ..)
    have hr' : ∀ c ∈ cells, c < m0.conn.length / ppc m0 := fun c hc => hr c (List.mem_cons_of_mem _ hc)
    rw [List.foldlM_cons, hstep m hm a ha]
    by_cases hb : bad (vert m a)
    · rw [if_pos hb]
      obtain ⟨m1, e1, s1, f1, g1⟩ := permute_vert m a (by rw [hm.dim]; exact hdim) (by rw [hm.order]; exact ho)
        (by rw [hm.len, hm.ppc]; exact hlen) (by rw [hm.len, hm.ppc]; exact ha)
      rw [hm.dim, hm.order] at f1 g1
      obtain ⟨m', e2, s2, f2⟩ := ih m1 (hm.trans s1) hr'
      refine ⟨m', ?_, s2, fun c t ht => ?_⟩
      · rw [e1]; exact e2
      · by_cases hca : c = a
        · subst hca
          have hnb : ¬ bad (vert m1 c) := by
            rw [hcongr (vert m1 c) (fun t => vert m c (mirror m0.order t)) f1]
            exact hflip _ hb
          have := (f2 c t ht).2 fun h => hnb h.2
          rw [this, f1 t ht]
          exact ⟨fun _ => rfl, fun h => absurd ⟨List.mem_cons_self .., hb⟩ h⟩
        · have hbc : bad (vert m1 c) ↔ bad (vert m c) := hcongr _ _ (g1 c hca)
          have h3 := f2 c t ht
          rw [g1 c hca t ht, g1 c hca _ (mirror_mem ht), hbc] at h3
          have hmem : c ∈ a :: cells ↔ c ∈ cells := by rw [List.mem_cons]; exact or_iff_right hca
          rw [hmem]
          exact h3
    · rw [if_neg hb]
      obtain ⟨m', e2, s2, f2⟩ := ih m hm hr'
      refine ⟨m', e2, s2, fun c t ht => ?_⟩
      have h3 := f2 c t ht
      by_cases hca : c = a
      · subst hca
        refine ⟨fun h => absurd h.2 hb, fun _ => h3.2 fun h => hb h.2⟩
      · have hmem : c ∈ a :: cells ↔ c ∈ cells := by rw [List.mem_cons]; exact or_iff_right hca
        rw [hmem]
        exact h3

/-- The weights of the derivative in direction `d`. -/
def wD (ν : Nat → K) (dim order d : Nat) (t : List Nat) : K :=
  basisProd ((List.replicate dim fun i => lag ν order i (1 / 2)).set d fun i => lagD ν order i (1 / 2)) t

/-- The weights of the value. -/
def wV (ν : Nat → K) (dim order : Nat) (t : List Nat) : K := basisProd (List.replicate dim fun i => lag ν order i (1 / 2)) t

theorem wD_swap2 (ν : Nat → K) (order : Nat) {t : List Nat} (ht : t ∈ indices (List.replicate 2 order)) :
    wD ν 2 order 0 (mirror order t) = wD ν 2 order 1 t ∧ wD ν 2 order 1 (mirror order t) = wD ν 2 order 0 t ∧
    wV ν 2 order (mirror order t) = wV ν 2 order t := by
  rw [mem_indices_replicate, inSize_replicate] at ht
  match t, ht.1 with
  | [i, j], _ => simp [wD, wV, mirror, basisProd, List.replicate, mul_comm]

theorem wD_swap3 (ν : Nat → K) (order : Nat) {t : List Nat} (ht : t ∈ indices (List.replicate 3 order)) :
    wD ν 3 order 0 (mirror order t) = wD ν 3 order 1 t ∧ wD ν 3 order 1 (mirror order t) = wD ν 3 order 0 t ∧
    wD ν 3 order 2 (mirror order t) = wD ν 3 order 2 t := by
  rw [mem_indices_replicate, inSize_replicate] at ht
  match t, ht.1 with
  | [i, j, k], _ =>
    refine ⟨?_, ?_, ?_⟩ <;> simp [wD, mirror, basisProd, List.replicate] <;> ring

/-- Symmetric nodes. -/
def Symmetric (ν : Nat → K) (n : Nat) : Prop := ∀ i < n, ν (n - 1 - i) = 1 - ν i

theorem erase_reflect (n : Nat) (i : Nat) (hi : i < n) (f : Nat → K) :
    ∏ j ∈ (Finset.range n).erase (n - 1 - i), f j = ∏ j ∈ (Finset.range n).erase i, f (n - 1 - j) := by
  refine Finset.prod_bij' (fun j _ => n - 1 - j) (fun j _ => n - 1 - j) ?_ ?_ ?_ ?_ ?_
  all_goals
    intro j hj
    rw [Finset.mem_erase, Finset.mem_range] at hj
    try rw [Finset.mem_erase, Finset.mem_range]
    try omega
  have : n - 1 - (n - 1 - j) = j := by omega
  rw [this]

theorem lag_symm (ν : Nat → K) (h2 : (2 : K) ≠ 0) (n : Nat) (h : Symmetric ν n) (i : Nat) (hi : i < n) :
    lag ν n (n - 1 - i) (1 / 2) = lag ν n i (1 / 2) := by
  unfold lag
  rw [erase_reflect n i hi]
  apply Finset.prod_congr rfl
  intro j hj
  rw [Finset.mem_erase, Finset.mem_range] at hj
  rw [h i hi, h j hj.2, ← neg_div_neg_eq]
  have e : -((1 : K) / 2 - (1 - ν j)) = 1 / 2 - ν j := by
    have : (1 : K) / 2 + 1 / 2 = 1 := by field_simp; norm_num
    linear_combination -this
  rw [e]
  congr 1
  ring

theorem lagD_symm (ν : Nat → K) (h2 : (2 : K) ≠ 0) (n : Nat) (h : Symmetric ν n) (i : Nat) (hi : i < n) :
    lagD ν n (n - 1 - i) (1 / 2) = - lagD ν n i (1 / 2) := by
  unfold lagD
  rw [← Finset.sum_neg_distrib]
  refine Finset.sum_bij' (fun j _ => n - 1 - j) (fun j _ => n - 1 - j) ?_ ?_ ?_ ?_ ?_
  all_goals
    intro j hj
    rw [Finset.mem_erase, Finset.mem_range] at hj
    try rw [Finset.mem_erase, Finset.mem_range]
    try omega
  have hh : (1 : K) / 2 + 1 / 2 = 1 := by field_simp; norm_num
  have hj' : ν j = 1 - ν (n - 1 - j) := by
    rw [h j hj.2]; ring
  rw [h i hi, hj', ← mul_neg]
  congr 1
  · refine Finset.prod_bij' (fun k _ => n - 1 - k) (fun k _ => n - 1 - k) ?_ ?_ ?_ ?_ ?_
    all_goals
      intro k hk
      rw [Finset.mem_erase, Finset.mem_erase, Finset.mem_range] at hk
      try rw [Finset.mem_erase, Finset.mem_erase, Finset.mem_range]
      try omega
    have hk' : ν k = 1 - ν (n - 1 - k) := by
      rw [h k hk.2.2]; ring
    rw [hk', ← neg_div_neg_eq]
    have e : -((1 : K) / 2 - (1 - ν (n - 1 - k))) = 1 / 2 - ν (n - 1 - k) := by
      linear_combination -hh
    rw [e]
    congr 1
    ring
  · rw [← neg_div_neg_eq, neg_div]
    congr 2
    ring

theorem wD_flip1 (ν : Nat → K) (h2 : (2 : K) ≠ 0) (order : Nat) (h : Symmetric ν order) {t : List Nat}
    (ht : t ∈ indices (List.replicate 1 order)) :
    wD ν 1 order 0 (mirror order t) = - wD ν 1 order 0 t ∧ wV ν 1 order (mirror order t) = wV ν 1 order t := by
  rw [mem_indices_replicate, inSize_replicate] at ht
  match t, ht with
  | [i], ⟨_, hb⟩ =>
    have := hb 0 (by omega)
    simp only [List.getD_cons_zero] at this
    simp [wD, wV, mirror, basisProd, List.replicate]
    simpa using And.intro (lagD_symm ν h2 order h i this) (lag_symm ν h2 order h i this)

end
end Qugar.Mesh
