import Verif.Lemmas.PolyCalculus
import Verif.Lemmas.Horner
/-
Loops over tensor indices: Hessian sums, facets, derivative coefficients.
-/
namespace Qugar.Poly
open Spec TS Finset

variable {K V : Type} [Field K] [AddCommGroup V] [Module K V]

theorem forall2_replicate_zero {l : List Nat} (h : ∀ n ∈ l, 0 < n) :
    List.Forall₂ (· < ·) (l.map fun _ => 0) l := by
  induction l with
  | nil => exact .nil
  | cons a l ih => exact .cons (h a (by simp)) (ih fun n hn => h n (by simp [hn]))

theorem visitAll_box (r : Range) (h : NonemptyBox r.lo r.up) (hd : r.lo ≠ []) : visitAll r = rangeList r.lo r.up := by
  unfold visitAll
  rw [visit_nonempty r h hd _ (by omega)]; rfl

theorem visitAll_ofUpper {order : List Nat} (h0 : order ≠ []) (hpos : ∀ n ∈ order, 0 < n) :
    visitAll (Range.ofUpper order) = indices order := by
  rw [visitAll_box _ (forall2_replicate_zero hpos) (by simpa [Range.ofUpper] using h0), indices_eq]; rfl

theorem length_indices (size : List Nat) : (indices size).length = listProd size := by
  have := congrArg List.length (indices_flat size)
  simpa using this

/-- Reading a list tabulated over the indices. -/
theorem getD_indices_map {α : Type} (size : List Nat) (g : List Nat → α) (d : α) (i : List Nat) (hi : i ∈ indices size) :
    ((indices size).map g).getD (flatIndex i size) d = g i := by
  obtain ⟨k, hk, hik⟩ := List.getElem_of_mem hi
  have h1 : flatIndex i size = k := by
    have h2 : ((indices size).map fun i => flatIndex i size)[k]'(by simpa using hk) = k := by
      simp only [indices_flat, List.getElem_range]
    rw [List.getElem_map, hik] at h2
    exact h2
  rw [h1, List.getD_eq_getElem?_getD, List.getElem?_map, List.getElem?_eq_getElem hk, hik]; rfl

theorem zip_indices (size : List Nat) (c : List V) (hc : c.length = listProd size) :
    (indices size).zip c = (indices size).map fun i => (i, c.getD (flatIndex i size) 0) := by
  apply List.ext_getElem
  · simp [length_indices, hc]
  · intro k h1 h2
    have hk : k < listProd size := by simpa [length_indices] using h2
    have hki : k < (indices size).length := by rw [length_indices]; exact hk
    have h3 : flatIndex (indices size)[k] size = k := by
      have h2 : ((indices size).map fun i => flatIndex i size)[k]'(by simpa using hki) = k := by
        simp only [indices_flat, List.getElem_range]
      rwa [List.getElem_map] at h2
    rw [List.getElem_zip, List.getElem_map, h3, List.getD_eq_getElem?_getD, List.getElem?_eq_getElem (by omega)]
    rfl

theorem foldl_add_sum {α : Type} (L : List α) (g : α → V) : ∀ a : V,
    L.foldl (fun acc t => acc + g t) a = a + (L.map g).sum := by
  induction L with
  | nil => intro a; simp
  | cons b L ih => intro a; rw [List.foldl_cons, ih, List.map_cons, List.sum_cons, add_assoc]

theorem foldl_smul_prod (m : Nat) (φ : Nat → K) (v : V) :
    (List.range m).foldl (fun v d => φ d • v) v = (∏ d ∈ range m, φ d) • v := by
  induction m with
  | zero => simp
  | succ m ih =>
    rw [List.range_succ, List.foldl_append, ih, List.foldl_cons, List.foldl_nil, prod_range_succ, smul_smul, mul_comm]

theorem hessianSum_eq (basis : K → Nat → Nat → List K) (p : P V) (hw : WellFormed p.order p.coefs) (x : List K)
    (i j : Nat) :
    hessianSum basis p x i j = ts p.order (famD (fun der n t k => (basis t n der).getD k 0) p.order x
      (fun d => unit i d + unit j d)) (fun k => p.coefs.getD k 0) := by
  unfold hessianSum ts
  rw [visitAll_ofUpper hw.1 hw.2.1, zip_indices _ _ hw.2.2, foldl_add_sum, zero_add, List.map_map]
  congr 1
  apply List.map_congr_left
  intro t ht
  have hl : t.length = p.order.length := (mem_indices.1 ht).length_eq
  simp only [Function.comp]
  rw [foldl_smul_prod]
  congr 1
  unfold famD
  rw [basisProd_range _ _ _ hl]
  apply prod_congr rfl
  intro d hd
  rw [mem_range] at hd
  simp only
  rw [getD_map_range _ _ _ _ hd]
  simp only [unit]

theorem hessianLoop_eq (basis : K → Nat → Nat → List K) (p : P V) (hw : WellFormed p.order p.coefs) (x : List K) :
    hessianLoop basis p x = (List.range p.order.length).flatMap fun i => (List.range' i (p.order.length - i)).map fun j =>
      ts p.order (famD (fun der n t k => (basis t n der).getD k 0) p.order x (fun d => unit i d + unit j d))
        (fun k => p.coefs.getD k 0) := by
  unfold hessianLoop
  simp only [hessianSum_eq basis p hw x]

/-! ### Facets -/

/-- The sum with the direction `dir` fixed to the index `m`. -/
theorem ts_fixed (m : Nat) : ∀ (dir : Nat) (size : List Nat) (f : List (Nat → K)) (c : Nat → V),
    f.length = size.length → dir < size.length → m < size.getD dir 0 →
    ts size (f.set dir (fun k => if k = m then 1 else 0)) c =
      ((indices (size.eraseIdx dir)).map fun i => basisProd (f.eraseIdx dir) i •
        c (flatIndex (i.insertIdx dir m) size)).sum := by
  intro dir
  induction dir with
  | zero =>
    intro size f c hf hd hm
    match size, f with
    | [], _ => simp at hd
    | n :: ns, [] => simp at hf
    | n :: ns, φ :: f =>
      simp only [List.set_cons_zero, List.eraseIdx_cons_zero, List.insertIdx_zero]
      rw [ts_cons]
      unfold ts
      congr 1
      apply List.map_congr_left
      intro i _
      congr 1
      simp only [flatIndex]
      rw [sum_eq_single m]
      · simp
      · intro b _ hb; simp [hb]
      · intro h; exact absurd (mem_range.2 (by simpa using hm)) h
  | succ dir ih =>
    intro size f c hf hd hm
    match size, f with
    | [], _ => simp at hd
    | n :: ns, [] => simp at hf
    | n :: ns, φ :: f =>
      simp only [List.set_cons_succ, List.eraseIdx_cons_succ]
      rw [ts_cons, ih ns f _ (by simpa using hf) (by simpa using hd) (by simpa using hm)]
      simp only [indices]
      rw [sum_map_flatMap]
      congr 1
      apply List.map_congr_left
      intro t _
      rw [List.map_map, list_sum_range, smul_sum]
      apply sum_congr rfl
      intro i _
      simp only [Function.comp, basisProd, List.insertIdx_succ_cons, flatIndex]
      rw [smul_smul, mul_comm]

theorem rangeList_fixed (m : Nat) : ∀ (dir : Nat) (size : List Nat), dir < size.length →
    rangeList ((size.map fun _ => 0).set dir m) (size.set dir (m + 1)) =
      (indices (size.eraseIdx dir)).map fun i => i.insertIdx dir m := by
  intro dir
  induction dir with
  | zero =>
    intro size hd
    match size with
    | [] => simp at hd
    | n :: ns =>
      simp only [List.map_cons, List.set_cons_zero, List.eraseIdx_cons_zero, rangeList, List.insertIdx_zero]
      rw [indices_eq, show m + 1 - m = 1 by omega]
      induction rangeList (ns.map fun _ => 0) ns with
      | nil => rfl
      | cons a L ih => rw [List.flatMap_cons, List.map_cons, ih]; rfl
  | succ dir ih =>
    intro size hd
    match size with
    | [] => simp at hd
    | n :: ns =>
      simp only [List.map_cons, List.set_cons_succ, List.eraseIdx_cons_succ, rangeList, indices]
      rw [ih ns (by simpa using hd), List.map_flatMap, List.flatMap_map]
      congr 1
      funext t
      rw [List.map_map]
      simp [List.range_eq_range', Function.comp_def, List.insertIdx_succ_cons]

theorem mem_insert_indices (m : Nat) : ∀ (dir : Nat) (size : List Nat), dir < size.length → m < size.getD dir 0 →
    ∀ i ∈ indices (size.eraseIdx dir), i.insertIdx dir m ∈ indices size := by
  intro dir
  induction dir with
  | zero =>
    intro size hd hm i hi
    match size with
    | [] => simp at hd
    | n :: ns =>
      rw [mem_indices] at hi ⊢
      simp only [List.eraseIdx_cons_zero, List.insertIdx_zero] at hi ⊢
      exact .cons (by simpa using hm) hi
  | succ dir ih =>
    intro size hd hm i hi
    match size with
    | [] => simp at hd
    | n :: ns =>
      rw [mem_indices] at hi ⊢
      simp only [List.eraseIdx_cons_succ] at hi
      cases hi with
      | @cons a _ t _ h1 h2 =>
        simp only [List.insertIdx_succ_cons]
        exact .cons h1 (mem_indices.1 (ih ns (by simpa using hd) (by simpa using hm) t (mem_indices.2 h2)))

theorem coefAt_eq (p : P V) (i : List Nat) (hi : i ∈ indices p.order) :
    coefAt p i = p.coefs.getD (flatIndex i p.order) 0 := by
  unfold coefAt
  rw [flat_eq (forall2_lt_iff_inSize.1 (mem_indices.1 hi))]

/-- The layer of coefficients with index `m` in the direction `dir`. -/
def layer (p : P V) (dir m : Nat) : P V :=
  ⟨p.order.eraseIdx dir, (indices (p.order.eraseIdx dir)).map fun i => p.coefs.getD (flatIndex (i.insertIdx dir m) p.order) 0⟩

theorem forall2_lo_up (m : Nat) : ∀ (dir : Nat) (size : List Nat), (∀ n ∈ size, 0 < n) →
    List.Forall₂ (· < ·) ((size.map fun _ => 0).set dir m) (size.set dir (m + 1)) := by
  intro dir
  induction dir with
  | zero =>
    intro size h
    match size with
    | [] => exact .nil
    | n :: ns => exact .cons (by omega) (forall2_replicate_zero fun n hn => h n (by simp [hn]))
  | succ dir ih =>
    intro size h
    match size with
    | [] => exact .nil
    | n :: ns => exact .cons (h n (by simp)) (ih ns fun n hn => h n (by simp [hn]))

theorem set_getD_self {α : Type} (l : List α) (k : Nat) (d : α) : l.set k (l.getD k d) = l := by
  apply List.ext_getElem?
  intro i
  rw [List.getElem?_set]
  by_cases h : k = i
  · subst h
    by_cases hk : k < l.length
    · simp [hk]
    · simp [hk]
  · simp [h]

theorem extractFacet_eq (p : P V) (hpos : ∀ n ∈ p.order, 0 < n) (facet : Nat) (hf : facet < p.order.length * 2) :
    extractFacet p facet = some (layer p (facet / 2) (if facet % 2 = 0 then 0 else p.order.getD (facet / 2) 0 - 1)) := by
  have hd : facet / 2 < p.order.length := by omega
  have hmem : p.order.getD (facet / 2) 0 ∈ p.order := by simp [hd]
  have hp := hpos _ hmem
  unfold extractFacet
  simp only [Ids.facetConstantDir, Ids.facetSide, if_pos hf, Option.bind_eq_bind, Option.bind_some]
  obtain ⟨m, hm⟩ : ∃ m, m = if facet % 2 = 0 then 0 else p.order.getD (facet / 2) 0 - 1 := ⟨_, rfl⟩
  have hr : (if facet % 2 = 0 then (⟨p.order.map fun _ => 0, p.order.set (facet / 2) 1⟩ : Range)
      else ⟨(p.order.map fun _ => 0).set (facet / 2) (p.order.getD (facet / 2) 0 - 1), p.order⟩) =
      ⟨(p.order.map fun _ => 0).set (facet / 2) m, p.order.set (facet / 2) (m + 1)⟩ := by
    by_cases h : facet % 2 = 0
    · rw [if_pos h] at hm ⊢
      subst hm
      congr 1
      apply List.ext_getElem?
      intro i
      rw [List.getElem?_set]
      by_cases h : facet / 2 = i
      · subst h; simp [hd]
      · simp [h]
    · rw [if_neg h] at hm ⊢
      subst hm
      congr 1
      rw [show p.order.getD (facet / 2) 0 - 1 + 1 = p.order.getD (facet / 2) 0 by omega, set_getD_self]
  rw [hr, ← hm, visitAll_box _ (forall2_lo_up m _ _ hpos) (by
    have : p.order ≠ [] := by intro h; rw [h] at hd; simp at hd
    simpa using this)]
  simp only [rangeList_fixed m _ _ hd, List.map_map]
  unfold layer
  congr 2
  apply List.map_congr_left
  intro i hi
  simp only [Function.comp]
  rw [coefAt_eq]
  apply mem_insert_indices m _ _ hd _ i hi
  rw [hm]; split_ifs <;> omega

theorem ts_layer (p : P V) (dir m : Nat) (hd : dir < p.order.length) (hm : m < p.order.getD dir 0)
    (f : List (Nat → K)) (hf : f.length = p.order.length) (h : ∀ k, k < p.order.getD dir 0 →
      f.getD dir (fun _ => 0) k = if k = m then 1 else 0) :
    ts (layer p dir m).order (f.eraseIdx dir) (fun k => (layer p dir m).coefs.getD k 0) =
      ts p.order f (fun k => p.coefs.getD k 0) := by
  have h1 : ts p.order f (fun k => p.coefs.getD k 0) =
      ts p.order (f.set dir (fun k => if k = m then 1 else 0)) (fun k => p.coefs.getD k 0) := by
    apply ts_congr
    intro i hi
    rw [basisProd_congr hf (g := f.set dir (fun k => if k = m then 1 else 0)) (by simp [hf]) _ i hi]
    intro e he k hk
    rw [List.getD_eq_getElem?_getD, List.getD_eq_getElem?_getD, List.getElem?_set]
    by_cases hed : dir = e
    · subst hed
      rw [if_pos rfl, if_pos (by omega), ← List.getD_eq_getElem?_getD, h k hk]; rfl
    · rw [if_neg hed]
  rw [h1, ts_fixed m dir p.order f _ hf hd hm]
  unfold ts layer
  congr 1
  apply List.map_congr_left
  intro i hi
  dsimp only at hi ⊢
  rw [getD_indices_map _ _ _ _ hi]

/-! ### Coefficients of the derivative -/

theorem ts_shift : ∀ (dir : Nat) (size : List Nat) (f : List (Nat → K)) (ψ : Nat → K) (c : Nat → V),
    f.length = size.length → dir < size.length → ψ 0 = 0 →
    (∀ k, ψ (k + 1) = ((k + 1 : Nat) : K) * f.getD dir (fun _ => 0) k) →
    ts size (f.set dir ψ) c = ((indices (size.modify dir (· - 1))).map fun i => basisProd f i •
        (((i.modify dir (· + 1)).getD dir 0 : Nat) : K) • c (flatIndex (i.modify dir (· + 1)) size)).sum := by
  intro dir
  induction dir with
  | zero =>
    intro size f ψ c hf hd h0 h1
    match size, f with
    | [], _ => simp at hd
    | n :: ns, [] => simp at hf
    | n :: ns, φ :: f =>
      simp only [List.set_cons_zero, List.modify_zero_cons, indices]
      rw [ts_cons, sum_map_flatMap]
      unfold ts
      congr 1
      apply List.map_congr_left
      intro t _
      rw [List.map_map, list_sum_range, smul_sum]
      simp only [Function.comp, basisProd, List.modify_zero_cons, flatIndex, List.getD_cons_zero]
      simp only [List.getD_cons_zero] at h1
      cases n with
      | zero => simp
      | succ n =>
        rw [Nat.add_sub_cancel, sum_range_succ', h0, zero_smul, smul_zero, add_zero]
        apply sum_congr rfl
        intro i _
        rw [h1 i, smul_smul, smul_smul]
        congr 1; ring
  | succ dir ih =>
    intro size f ψ c hf hd h0 h1
    match size, f with
    | [], _ => simp at hd
    | n :: ns, [] => simp at hf
    | n :: ns, φ :: f =>
      simp only [List.set_cons_succ, List.modify_succ_cons, indices]
      rw [ts_cons, ih ns f ψ _ (by simpa using hf) (by simpa using hd) h0 (by simpa using h1), sum_map_flatMap]
      congr 1
      apply List.map_congr_left
      intro t _
      rw [List.map_map, list_sum_range, smul_sum, smul_sum]
      apply sum_congr rfl
      intro i _
      simp only [Function.comp, basisProd, List.modify_succ_cons, flatIndex, List.getD_cons_succ]
      simp only [smul_smul]
      congr 1; ring

theorem mem_shift_indices : ∀ (dir : Nat) (size : List Nat), ∀ i ∈ indices (size.modify dir (· - 1)),
    i.modify dir (· + 1) ∈ indices size := by
  intro dir
  induction dir with
  | zero =>
    intro size i hi
    match size with
    | [] => simp [indices] at hi; subst hi; simp [indices]
    | n :: ns =>
      rw [mem_indices] at hi ⊢
      simp only [List.modify_zero_cons] at hi
      cases hi with
      | @cons a _ t _ h1 h2 =>
        simp only [List.modify_zero_cons]
        exact .cons (by omega) h2
  | succ dir ih =>
    intro size i hi
    match size with
    | [] => simp [indices] at hi; subst hi; simp [indices]
    | n :: ns =>
      rw [mem_indices] at hi ⊢
      simp only [List.modify_succ_cons] at hi
      cases hi with
      | @cons a _ t _ h1 h2 =>
        simp only [List.modify_succ_cons]
        exact .cons h1 (mem_indices.1 (ih ns t (mem_indices.2 h2)))

/-- A loop that sets every entry. -/
theorem foldl_set_indices (size : List Nat) (g : List Nat → V) (c : List V) (hc : c.length = listProd size) :
    (indices size).foldl (fun c i => c.set (flatIndex i size) (g i)) c = (indices size).map g := by
  have key : ∀ (L : List (List Nat)) (c : List V), c.length = listProd size → (∀ i ∈ L, i ∈ indices size) → L.Nodup →
      (L.foldl (fun c i => c.set (flatIndex i size) (g i)) c).length = listProd size ∧
      ∀ i ∈ indices size, (L.foldl (fun c i => c.set (flatIndex i size) (g i)) c)[flatIndex i size]? =
        if i ∈ L then some (g i) else c[flatIndex i size]? := by
    intro L
    induction L with
    | nil => intro c hc _ _; simp [hc]
    | cons a L ih =>
      intro c hc hL hn
      rw [List.nodup_cons] at hn
      obtain ⟨h1, h2⟩ := ih (c.set (flatIndex a size) (g a)) (by simpa using hc) (fun i hi => hL i (by simp [hi])) hn.2
      rw [List.foldl_cons]
      refine ⟨h1, ?_⟩
      intro i hi
      rw [h2 i hi]
      by_cases hiL : i ∈ L
      · simp [hiL]
      · rw [if_neg hiL]
        by_cases hia : i = a
        · subst hia
          have := flatIndex_lt' hi
          simp [show flatIndex i size < c.length by omega]
        · have : flatIndex a size ≠ flatIndex i size := fun h => hia (flatIndex_inj (hL a (by simp)) hi h).symm
          rw [List.getElem?_set_ne this, if_neg (by simp [hia, hiL])]
  obtain ⟨h1, h2⟩ := key (indices size) c hc (fun _ h => h) (nodup_indices size)
  apply List.ext_getElem?
  intro k
  by_cases hk : k < listProd size
  · obtain ⟨i, hi, hik⟩ : ∃ i ∈ indices size, flatIndex i size = k := by
      have : k ∈ (indices size).map (fun i => flatIndex i size) := by rw [indices_flat]; simpa using hk
      simpa using this
    rw [← hik, h2 i hi, if_pos hi]
    have := getD_indices_map size g (g i) i hi
    rw [hik] at this ⊢
    have hkl : k < ((indices size).map g).length := by rw [List.length_map, length_indices]; exact hk
    rw [List.getElem?_eq_getElem hkl]
    rw [List.getD_eq_getElem?_getD, List.getElem?_eq_getElem hkl] at this
    simpa using this.symm
  · rw [List.getElem?_eq_none (by omega), List.getElem?_eq_none (by rw [List.length_map, length_indices]; omega)]

end Qugar.Poly
