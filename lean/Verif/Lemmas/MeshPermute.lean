import Verif.Model.Mesh
import Verif.Lemmas.PolyTensor
import Verif.Props.Vtu
/-
Lemmas on `permute_cell_directions`.
-/
namespace Qugar.Mesh
open Spec Poly TS
variable {K : Type} [Field K] [LinearOrder K]

theorem getD_set' (l : List Nat) (i j v : Nat) (hi : i < l.length) :
    (l.set i v).getD j 0 = if j = i then v else l.getD j 0 := by
  rw [List.getD_eq_getElem?_getD, List.getElem?_set]
  by_cases h : j = i
  · subst h
    rw [if_pos rfl, if_pos hi, if_pos rfl, Option.getD_some]
  · rw [if_neg (Ne.symm h), if_neg h, List.getD_eq_getElem?_getD]

theorem swapAt_spec (l : List Nat) (a b : Nat) (ha : a < l.length) (hb : b < l.length) :
    ∃ l', swapAt l a b = some l' ∧ l'.length = l.length ∧ l'.Perm l ∧
      ∀ k, l'.getD k 0 = if k = b then l.getD a 0 else if k = a then l.getD b 0 else l.getD k 0 := by
  refine ⟨(l.set a l[b]).set b l[a], ?_, by simp, List.set_set_perm ha hb, fun k => ?_⟩
  · unfold swapAt
    rw [List.getElem?_eq_getElem ha, List.getElem?_eq_getElem hb]; rfl
  · rw [getD_set' _ _ _ _ (by simpa using hb), getD_set' _ _ _ _ ha]
    simp [List.getD_eq_getElem?_getD, ha, hb]

/-- Swaps of disjoint pairs. -/
theorem foldlM_swap (L : List (Nat × Nat)) : ∀ (l : List Nat), (∀ p ∈ L, p.1 < l.length ∧ p.2 < l.length) →
    L.Pairwise (fun p q => p.1 ≠ q.1 ∧ p.1 ≠ q.2 ∧ p.2 ≠ q.1 ∧ p.2 ≠ q.2) →
    ∃ l', L.foldlM (fun c p => swapAt c p.1 p.2) l = some l' ∧ l'.length = l.length ∧ l'.Perm l ∧
      (∀ p ∈ L, l'.getD p.1 0 = l.getD p.2 0 ∧ l'.getD p.2 0 = l.getD p.1 0) ∧
      ∀ k, (∀ p ∈ L, k ≠ p.1 ∧ k ≠ p.2) → l'.getD k 0 = l.getD k 0 := by
  induction L with
  | nil => intro l _ _; exact ⟨l, rfl, rfl, List.Perm.refl _, by simp, by simp⟩
  | cons p L ih =>
    intro l hr hp
    obtain ⟨h1, h2⟩ := List.pairwise_cons.1 hp
    obtain ⟨ha, hb⟩ := hr p (List.mem_cons_self ..)
    obtain ⟨l1, e1, e2, e3, e4⟩ := swapAt_spec l p.1 p.2 ha hb
    obtain ⟨l', f1, f2, f3, f4, f5⟩ := ih l1 (fun q hq => by rw [e2]; exact hr q (List.mem_cons_of_mem _ hq)) h2
    refine ⟨l', ?_, f2.trans e2, f3.trans e3, fun q hq => ?_, fun k hk => ?_⟩
    · rw [List.foldlM_cons, e1]; exact f1
    · rcases List.mem_cons.1 hq with rfl | hq
      · have d1 : ∀ r ∈ L, q.1 ≠ r.1 ∧ q.1 ≠ r.2 := fun r hr => ⟨(h1 r hr).1, (h1 r hr).2.1⟩
        have d2 : ∀ r ∈ L, q.2 ≠ r.1 ∧ q.2 ≠ r.2 := fun r hr => ⟨(h1 r hr).2.2.1, (h1 r hr).2.2.2⟩
        rw [f5 _ d1, f5 _ d2, e4, e4]
        refine ⟨?_, by rw [if_pos rfl]⟩
        by_cases h : q.1 = q.2
        · rw [if_pos h, h]
        · rw [if_neg h, if_pos rfl]
      · obtain ⟨g1, g2⟩ := f4 q hq
        obtain ⟨n1, n2, n3, n4⟩ := h1 q hq
        rw [g1, g2, e4, e4, if_neg (Ne.symm n4), if_neg (Ne.symm n2), if_neg (Ne.symm n3), if_neg (Ne.symm n1)]
        exact ⟨rfl, rfl⟩
    · obtain ⟨n1, n2⟩ := hk p (List.mem_cons_self ..)
      rw [f5 k fun q hq => hk q (List.mem_cons_of_mem _ hq), e4, if_neg n2, if_neg n1]

/-- The tensor index of the point that takes the place of the point of index `t`: the index of the mirrored segment, or
the directions 0 and 1 swapped. -/
def mirror (n : Nat) : List Nat → List Nat
  | [i] => [n - 1 - i]
  | i :: j :: t => j :: i :: t
  | t => t

theorem mirror_mirror {n : Nat} {t : List Nat} (h : ∀ k, k < t.length → t.getD k 0 < n) : mirror n (mirror n t) = t := by
  match t with
  | [] => rfl
  | [i] =>
    have := h 0 (by simp)
    simp only [List.getD_cons_zero] at this
    simp only [mirror, List.cons.injEq, and_true]
    omega
  | _ :: _ :: _ => rfl

theorem inSize_replicate {dim n : Nat} {t : List Nat} :
    InSize (List.replicate dim n) t ↔ t.length = dim ∧ ∀ k, k < dim → t.getD k 0 < n := by
  unfold InSize
  rw [List.length_replicate]
  constructor
  · rintro ⟨h1, h2⟩
    refine ⟨h1, fun k hk => ?_⟩
    have := h2 k hk
    rwa [List.getD_replicate _ hk] at this
  · rintro ⟨h1, h2⟩
    refine ⟨h1, fun k hk => ?_⟩
    rw [List.getD_replicate _ hk]
    exact h2 k hk

theorem mirror_inSize {dim n : Nat} {t : List Nat} (h : InSize (List.replicate dim n) t) :
    InSize (List.replicate dim n) (mirror n t) := by
  rw [inSize_replicate] at h ⊢
  obtain ⟨h1, h2⟩ := h
  subst h1
  match t with
  | [] => exact ⟨rfl, fun k hk => by simp at hk⟩
  | [i] =>
    refine ⟨rfl, fun k hk => ?_⟩
    have := h2 0 (by simp)
    simp only [List.getD_cons_zero] at this
    obtain rfl : k = 0 := by simpa using hk
    simp only [mirror, List.getD_cons_zero]
    omega
  | i :: j :: t =>
    refine ⟨rfl, fun k hk => ?_⟩
    match k with
    | 0 => simpa [mirror] using h2 1 (by simp)
    | 1 => simpa [mirror] using h2 0 (by simp)
    | k + 2 => simpa [mirror] using h2 (k + 2) hk

theorem mem_indices_replicate {dim n : Nat} {t : List Nat} : t ∈ indices (List.replicate dim n) ↔ InSize (List.replicate dim n) t := by
  rw [mem_indices, forall2_lt_iff_inSize]

theorem mirror_mem {dim n : Nat} {t : List Nat} (h : t ∈ indices (List.replicate dim n)) :
    mirror n t ∈ indices (List.replicate dim n) := by
  rw [mem_indices_replicate] at h ⊢; exact mirror_inSize h

theorem mirror_invol {dim n : Nat} {t : List Nat} (h : t ∈ indices (List.replicate dim n)) : mirror n (mirror n t) = t := by
  rw [mem_indices_replicate, inSize_replicate] at h
  exact mirror_mirror fun k hk => h.2 k (by omega)

/-- What `permute_cell_directions` does to the connectivity. -/
theorem permuteCell_spec (m : Mesh K) (cell : Nat) (hdim : 0 < m.dim) (ho : 1 < m.order)
    (hlen : m.conn.length % ppc m = 0) (hc : cell < m.conn.length / ppc m) :
    ∃ conn', permuteCell m cell = some { m with conn := conn' } ∧ conn'.length = m.conn.length ∧ conn'.Perm m.conn ∧
      (∀ t ∈ indices (List.replicate m.dim m.order),
        conn'.getD (cell * ppc m + flatIndex t (List.replicate m.dim m.order)) 0 =
          m.conn.getD (cell * ppc m + flatIndex (mirror m.order t) (List.replicate m.dim m.order)) 0) ∧
      ∀ k, k < cell * ppc m ∨ (cell + 1) * ppc m ≤ k → conn'.getD k 0 = m.conn.getD k 0 := by
  have hppc : listProd (List.replicate m.dim m.order) = ppc m := Vtu.listProd_replicate _ _
  have hppc0 : 0 < ppc m := Nat.pow_pos (by omega)
  have hbound : (cell + 1) * ppc m ≤ m.conn.length := by
    calc (cell + 1) * ppc m ≤ (m.conn.length / ppc m) * ppc m := Nat.mul_le_mul_right _ hc
      _ ≤ m.conn.length := Nat.div_mul_le_self _ _
  have hb2 : (cell + 1) * ppc m = cell * ppc m + ppc m := by ring
  obtain ⟨s, hs⟩ : ∃ s, s = List.replicate m.dim m.order := ⟨_, rfl⟩
  obtain ⟨off, hoff⟩ : ∃ off, off = cell * ppc m := ⟨_, rfl⟩
  have hlt : ∀ t ∈ indices s, off + flatIndex t s < m.conn.length := by
    intro t ht
    have := flatIndex_lt' ht
    rw [hs, hppc, ← hs] at this
    omega
  -- the pairs swapped
  have key : ∃ L : List (List Nat × List Nat), (∀ p ∈ L, p.1 ∈ indices s ∧ p.2 = mirror m.order p.1) ∧
      L.Pairwise (fun p q => p.1 ≠ q.1 ∧ p.1 ≠ q.2 ∧ p.2 ≠ q.1 ∧ p.2 ≠ q.2) ∧
      (∀ t ∈ indices s, (∃ p ∈ L, t = p.1 ∨ t = p.2) ∨ mirror m.order t = t) ∧
      permuteCell m cell = (L.foldlM (fun c p => swapAt c (off + flatIndex p.1 s) (off + flatIndex p.2 s)) m.conn).map
        fun conn' => { m with conn := conn' } := by
    by_cases h1 : m.dim = 1
    · refine ⟨(List.range (m.order / 2)).map fun i => ([i], [m.order - 1 - i]), ?_, ?_, ?_, ?_⟩
      · intro p hp
        obtain ⟨i, hi, rfl⟩ := List.mem_map.1 hp
        rw [List.mem_range] at hi
        refine ⟨?_, rfl⟩
        rw [hs, mem_indices_replicate, inSize_replicate, h1]
        refine ⟨rfl, fun k hk => ?_⟩
        obtain rfl : k = 0 := by omega
        simp only [List.getD_cons_zero]
        omega
      · rw [List.pairwise_map]
        refine List.Pairwise.imp_of_mem (fun {a b} ha hb h => ?_) (List.nodup_range (n := m.order / 2))
        rw [List.mem_range] at ha hb
        simp only [ne_eq, List.cons.injEq, and_true]
        omega
      · intro t ht
        rw [hs, mem_indices_replicate, inSize_replicate, h1] at ht
        match t, ht with
        | [i], ht =>
          have hi := ht.2 0 (by omega)
          simp only [List.getD_cons_zero] at hi
          by_cases hlt1 : i < m.order / 2
          · exact Or.inl ⟨_, List.mem_map.2 ⟨i, List.mem_range.2 hlt1, rfl⟩, Or.inl rfl⟩
          · by_cases hlt2 : m.order - 1 - i < m.order / 2
            · refine Or.inl ⟨_, List.mem_map.2 ⟨m.order - 1 - i, List.mem_range.2 hlt2, rfl⟩, Or.inr ?_⟩
              simp only [List.cons.injEq, and_true]; omega
            · right
              simp only [mirror, List.cons.injEq, and_true]; omega
      · have hf : ∀ i, flatIndex [i] s = i := by intro i; rw [hs, h1]; simp [flatIndex]
        unfold permuteCell numCells
        rw [if_pos hlen]
        simp only [Option.bind_eq_bind, Option.bind_some]
        rw [if_pos hc, if_pos h1, List.foldlM_map]
        simp only [hf, ← hoff]
        rw [Option.map_eq_bind]; rfl
    · obtain ⟨d, hd⟩ : ∃ d, m.dim = d + 2 := ⟨m.dim - 2, by omega⟩
      have h01 : ∀ t ∈ indices s, ∃ a b u, t = a :: b :: u := by
        intro t ht
        rw [hs, mem_indices_replicate, inSize_replicate, hd] at ht
        match t, ht with
        | a :: b :: u, _ => exact ⟨a, b, u, rfl⟩
        | [_], ht => simp at ht
        | [], ht => simp at ht
      have hswap : ∀ t ∈ indices s, swap01 t = mirror m.order t := by
        intro t ht
        obtain ⟨a, b, u, rfl⟩ := h01 t ht
        rfl
      refine ⟨((indices s).filter fun t => !decide (t.getD 0 0 ≤ t.getD 1 0)).map fun t => (t, mirror m.order t), ?_, ?_, ?_, ?_⟩
      · intro p hp
        obtain ⟨t, ht, rfl⟩ := List.mem_map.1 hp
        exact ⟨(List.mem_filter.1 ht).1, rfl⟩
      · rw [List.pairwise_map]
        refine List.Pairwise.imp_of_mem (fun {t u} ht hu h => ?_) ((nodup_indices s).filter _)
        obtain ⟨ht1, ht2⟩ := List.mem_filter.1 ht
        obtain ⟨hu1, hu2⟩ := List.mem_filter.1 hu
        obtain ⟨a, b, v, rfl⟩ := h01 t ht1
        obtain ⟨a', b', v', rfl⟩ := h01 u hu1
        simp only [List.getD_cons_zero, List.getD_cons_succ, Bool.not_eq_true', decide_eq_false_iff_not] at ht2 hu2
        simp only [ne_eq, List.cons.injEq, not_and] at h
        simp only [mirror, ne_eq, List.cons.injEq, not_and]
        refine ⟨h, fun h1 h2 => by omega, fun h1 h2 => by omega, fun h1 h2 h3 => h h2 h1 h3⟩
      · intro t ht
        have hm := mirror_mem (hs ▸ ht)
        rw [← hs] at hm
        obtain ⟨a, b, v, rfl⟩ := h01 t ht
        rcases Nat.lt_trichotomy a b with hab | hab | hab
        · refine Or.inl ⟨_, List.mem_map.2 ⟨b :: a :: v, List.mem_filter.2 ⟨hm, ?_⟩, rfl⟩, Or.inr rfl⟩
          simp only [List.getD_cons_zero, List.getD_cons_succ, Bool.not_eq_true', decide_eq_false_iff_not]
          omega
        · right; subst hab; rfl
        · refine Or.inl ⟨_, List.mem_map.2 ⟨a :: b :: v, List.mem_filter.2 ⟨ht, ?_⟩, rfl⟩, Or.inl rfl⟩
          simp only [List.getD_cons_zero, List.getD_cons_succ, Bool.not_eq_true', decide_eq_false_iff_not]
          omega
      · have hloop : ∀ (T : List (List Nat)) (c : List Nat), (∀ t ∈ T, t ∈ indices s) →
            T.foldlM (fun c tid =>
              if tid.getD 0 0 ≤ tid.getD 1 0 then some c
              else do
                let a ← flat tid s
                let b ← flat (swap01 tid) s
                swapAt c (off + a) (off + b)) c =
            ((T.filter fun t => !decide (t.getD 0 0 ≤ t.getD 1 0)).map fun t => (t, mirror m.order t)).foldlM
              (fun c p => swapAt c (off + flatIndex p.1 s) (off + flatIndex p.2 s)) c := by
          intro T
          induction T with
          | nil => intro c _; rfl
          | cons t T ih =>
            intro c hT
            have ht := hT t (List.mem_cons_self ..)
            have hT' : ∀ u ∈ T, u ∈ indices s := fun u hu => hT u (List.mem_cons_of_mem _ hu)
            rw [List.foldlM_cons]
            by_cases hle : t.getD 0 0 ≤ t.getD 1 0
            · rw [if_pos hle, List.filter_cons_of_neg (by simpa using hle)]
              exact ih c hT'
            · rw [if_neg hle, List.filter_cons_of_pos (by simpa using hle), List.map_cons, List.foldlM_cons,
                hswap t ht, flat_eq (forall2_lt_iff_inSize.1 (mem_indices.1 ht)),
                flat_eq (hs ▸ mem_indices_replicate.1 (mirror_mem (hs ▸ ht)))]
              simp only [Option.bind_eq_bind, Option.bind_some]
              congr 1
              funext c'
              exact ih c' hT'
        unfold permuteCell numCells
        rw [if_pos hlen]
        simp only [Option.bind_eq_bind, Option.bind_some]
        rw [if_pos hc, if_neg h1, visitAll_ofUpper (by rw [hd]; simp [List.replicate]) (fun n hn => by
          rw [List.eq_of_mem_replicate hn]; omega), ← hs, ← hoff]
        have := hloop (indices s) m.conn fun t ht => ht
        simp only [Option.bind_eq_bind] at this
        rw [this]
        rw [Option.map_eq_bind]; rfl
  obtain ⟨L, hL1, hL2, hL3, hL4⟩ := key
  have hinj : ∀ t ∈ indices s, ∀ u ∈ indices s, t ≠ u → off + flatIndex t s ≠ off + flatIndex u s := by
    intro t ht u hu hne he
    exact hne (flatIndex_inj ht hu (by omega))
  have hmem2 : ∀ p ∈ L, p.2 ∈ indices s := by
    intro p hp
    rw [(hL1 p hp).2, hs]
    exact mirror_mem (hs ▸ (hL1 p hp).1)
  obtain ⟨c', g1, g2, g3, g4, g5⟩ := foldlM_swap (L.map fun p => (off + flatIndex p.1 s, off + flatIndex p.2 s)) m.conn
    (by
      intro q hq
      obtain ⟨p, hp, rfl⟩ := List.mem_map.1 hq
      exact ⟨hlt _ (hL1 p hp).1, hlt _ (hmem2 p hp)⟩)
    (by
      rw [List.pairwise_map]
      refine List.Pairwise.imp_of_mem (fun {p q} hp hq h => ?_) hL2
      exact ⟨hinj _ (hL1 p hp).1 _ (hL1 q hq).1 h.1, hinj _ (hL1 p hp).1 _ (hmem2 q hq) h.2.1,
        hinj _ (hmem2 p hp) _ (hL1 q hq).1 h.2.2.1, hinj _ (hmem2 p hp) _ (hmem2 q hq) h.2.2.2⟩)
  rw [List.foldlM_map] at g1
  refine ⟨c', ?_, g2, g3, fun t ht => ?_, fun k hk => ?_⟩
  · rw [hL4, g1]; rfl
  · rw [← hs] at ht
    rw [← hs, ← hoff]
    by_cases hfix : ∃ p ∈ L, t = p.1 ∨ t = p.2
    · obtain ⟨p, hp, h⟩ := hfix
      obtain ⟨e1, e2⟩ := g4 _ (List.mem_map.2 ⟨p, hp, rfl⟩)
      have hp2 := (hL1 p hp).2
      have hp1 := (hL1 p hp).1
      rcases h with rfl | rfl
      · rw [← hp2]; exact e1
      · have : mirror m.order p.2 = p.1 := by
          rw [hp2]; exact mirror_invol (hs ▸ hp1)
        rw [this]; exact e2
    · rw [(hL3 t ht).resolve_left hfix]
      refine g5 _ fun q hq => ?_
      obtain ⟨p, hp, rfl⟩ := List.mem_map.1 hq
      refine ⟨hinj _ ht _ (hL1 p hp).1 fun h => hfix ⟨p, hp, Or.inl h⟩,
        hinj _ ht _ (hmem2 p hp) fun h => hfix ⟨p, hp, Or.inr h⟩⟩
  · refine g5 _ fun q hq => ?_
    obtain ⟨p, hp, rfl⟩ := List.mem_map.1 hq
    have b1 := flatIndex_lt' (hL1 p hp).1
    have b2 := flatIndex_lt' (hmem2 p hp)
    rw [hs, hppc, ← hs] at b1 b2
    dsimp only
    omega

end Qugar.Mesh
