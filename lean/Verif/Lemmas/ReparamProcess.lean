import Verif.Lemmas.ReparamRef
import Verif.Lemmas.MeshHistory
/-
Lemmas on `process` and `compute_similar_intervals`: which calls of `insert_point_reparam` are made.
-/
namespace Qugar.Reparam
open Roots Mesh Poly
variable {K : Type} [Field K] [LinearOrder K]

theorem collect_some {α β : Type} {l : List α} {f : α → Option (List β)} {r : List β} (h : collect l f = some r) :
    ∃ rs, List.Forall₂ (fun a b => f a = some b) l rs ∧ r = rs.flatten := by
  unfold collect at h
  cases hm : l.mapM f with
  | none => rw [hm] at h; simp at h
  | some rs => rw [hm] at h; cases h; exact ⟨rs, mapM_eq_some f l rs hm, rfl⟩

theorem collect_total {α β : Type} (l : List α) (f : α → Option (List β)) (h : ∀ a ∈ l, ∃ b, f a = some b) :
    ∃ r, collect l f = some r := by
  unfold collect
  suffices ∃ rs, l.mapM f = some rs by
    obtain ⟨rs, hrs⟩ := this
    exact ⟨rs.flatten, by rw [hrs]; rfl⟩
  induction l with
  | nil => exact ⟨[], rfl⟩
  | cons a l ih =>
    obtain ⟨b, hb⟩ := h a (by simp)
    obtain ⟨rs, hrs⟩ := ih fun a ha => h a (by simp [ha])
    exact ⟨b :: rs, by rw [List.mapM_cons, hb, hrs]; rfl⟩

theorem forall2_map_flatten {α β γ : Type} (g : β → γ) (h : α → List γ) {l : List α} {rs : List (List β)} {f : α → Option (List β)}
    (hf : List.Forall₂ (fun a b => f a = some b) l rs) (hg : ∀ a ∈ l, ∀ b, f a = some b → b.map g = h a) :
    rs.flatten.map g = l.flatMap h := by
  induction hf with
  | nil => simp
  | @cons a b l rs hab _ ih =>
    rw [List.flatten_cons, List.map_append, List.flatMap_cons, hg a (by simp) b hab, ih fun a ha => hg a (by simp [ha])]

theorem collect_map {α β γ : Type} (g : β → γ) (h : α → List γ) {l : List α} {f : α → Option (List β)} {r : List β}
    (hr : collect l f = some r) (hg : ∀ a ∈ l, ∀ b, f a = some b → b.map g = h a) : r.map g = l.flatMap h := by
  obtain ⟨rs, h1, rfl⟩ := collect_some hr
  exact forall2_map_flatten g h h1 hg

theorem collect_mem {α β : Type} {l : List α} {f : α → Option (List β)} {r : List β} (hr : collect l f = some r) {e : β} (he : e ∈ r) :
    ∃ a ∈ l, ∃ b, f a = some b ∧ e ∈ b := by
  obtain ⟨rs, h1, rfl⟩ := collect_some hr
  obtain ⟨b, hb, heb⟩ := List.mem_flatten.1 he
  obtain ⟨a, ha, hab⟩ := forall2_mem_right h1 hb
  exact ⟨a, ha, b, hab, heb⟩

/-! ### Intervals similar to the reference ones -/

/-- What the later steps use of intervals. -/
structure IvOk (iv : Intervals K) : Prop where
  mem : ∀ r ∈ iv.roots, 0 ≤ r.1 ∧ r.1 ≤ 1
  sorted : iv.roots.Pairwise (fun a b => a.1 ≤ b.1)
  len : iv.active.length = iv.roots.length - 1

theorem similarRoots_length {E : Env K} {L : Level K} {i : Nat} {refPt p refRoots l : List K}
    (h : similarRoots E L i refPt p refRoots = some l) : l.length = refRoots.length := by
  unfold similarRoots at h
  dsimp only at h
  split at h
  · rename_i hl; cases h; exact hl
  · cases hb : backupDir E L i refPt p refRoots.length with
    | none => rw [hb] at h; simp at h
    | some o =>
      rw [hb] at h
      cases o with
      | some r =>
        cases h
        unfold backupDir at hb
        dsimp only at hb
        split at hb
        · have := List.find?_some (Option.some.inj hb)
          simpa using this
        · simp at hb
      | none =>
        simp only [Option.bind_eq_bind, Option.bind_some] at h
        split at h
        · rename_i r hr
          cases h
          have := List.find?_some hr
          simpa using this
        · cases h; rfl

theorem similarRoots_total (E : Env K) (L : Level K) (i : Nat) (refPt p refRoots : List K) (hp : 0 < p.length)
    (hd : L.baseDir < p.length) : ∃ l, similarRoots E L i refPt p refRoots = some l := by
  unfold similarRoots
  dsimp only
  split
  · exact ⟨_, rfl⟩
  · have : ∃ o, backupDir E L i refPt p refRoots.length = some o := by
      unfold backupDir
      dsimp only
      rw [if_pos (by omega)]
      exact ⟨_, rfl⟩
    obtain ⟨o, ho⟩ := this
    rw [ho]
    cases o with
    | some r => exact ⟨r, rfl⟩
    | none =>
      simp only [Option.bind_eq_bind, Option.bind_some]
      split <;> exact ⟨_, rfl⟩

section
variable [IsStrictOrderedRing K]

theorem endRoots_mem {E : Env K} {L : Level K} {i : Nat} {refPt p refRoots new : List K} (hn : ∀ r ∈ new, 0 ≤ r ∧ r ≤ 1) :
    ∀ r ∈ endRoots E L i refPt p refRoots new, 0 ≤ r ∧ r ≤ 1 := by
  have h0 : (0 : K) ≤ 0 ∧ (0 : K) ≤ 1 := by norm_num
  have h1 : (0 : K) ≤ 1 ∧ (1 : K) ≤ 1 := by norm_num
  intro r hr
  unfold endRoots at hr
  dsimp only at hr
  split_ifs at hr <;>
    try simp only [List.mem_append, List.mem_replicate, List.mem_mergeSort, List.mem_cons, List.not_mem_nil, or_false] at hr
  all_goals first
    | (rcases hr with hr | hr | hr
       · exact hn r hr
       · rw [hr]; exact h0
       · rw [hr]; exact h1)
    | (rcases hr with hr | hr
       · exact hn r hr
       · first
         | (obtain ⟨_, rfl⟩ := hr; first | exact h0 | exact h1)
         | (subst hr; first | exact h0 | exact h1)
         | (rcases hr with rfl | rfl; exact h0; exact h1))
    | exact hn r hr

theorem similarRoots_mem {E : Env K} {L : Level K} (h : RootsOk [L]) {i : Nat} {refPt p refRoots l : List K}
    (hrr : ∀ r ∈ refRoots, 0 ≤ r ∧ r ≤ 1) (hl : similarRoots E L i refPt p refRoots = some l) : ∀ r ∈ l, 0 ≤ r ∧ r ≤ 1 := by
  have hroot : ∀ q r, r ∈ L.phi.roots i q → 0 ≤ r ∧ r ≤ 1 := fun q r hr => h L (by simp) i q r hr
  unfold similarRoots at hl
  dsimp only at hl
  split at hl
  · cases hl
    apply endRoots_mem
    intro r hr
    exact hroot p r (List.mem_filter.1 hr).1
  · cases hb : backupDir E L i refPt p refRoots.length with
    | none => rw [hb] at hl; simp at hl
    | some o =>
      rw [hb] at hl
      cases o with
      | some r =>
        cases hl
        unfold backupDir at hb
        dsimp only at hb
        split at hb
        · have := List.mem_of_find?_eq_some (Option.some.inj hb)
          obtain ⟨v, _, hv⟩ := List.mem_map.1 this
          rw [← hv]
          exact hroot _
        · simp at hb
      | none =>
        simp only [Option.bind_eq_bind, Option.bind_some] at hl
        split at hl
        · rename_i r hr
          cases hl
          have := List.mem_of_find?_eq_some hr
          obtain ⟨v, _, hv⟩ := List.mem_map.1 this
          rw [← hv]
          exact hroot _
        · cases hl; exact hrr

theorem sum_indicator (n k : Nat) (h : k < n) : ((List.range n).map fun i => if i = k then 1 else 0).sum = 1 := by
  induction n with
  | zero => omega
  | succ n ih =>
    rw [List.range_succ, List.map_append, List.sum_append]
    by_cases hk : k = n
    · subst hk
      have : ((List.range k).map fun i => if i = k then 1 else 0) = (List.range k).map fun _ => 0 := by
        apply List.map_congr_left
        intro i hi
        have := List.mem_range.1 hi
        rw [if_neg (by omega)]
      rw [this]
      simp
    · rw [ih (by omega)]
      have : ¬ n = k := fun h => hk h.symm
      simp [this]

/-- The parts of a list of roots. -/
theorem sum_filter_length (n : Nat) : ∀ (l : List (Root K)), (∀ r ∈ l, 0 ≤ r.2 ∧ r.2 < n) →
    ((List.range n).map fun (i : Nat) => ((l.filter fun r => decide (r.2 = (i : Int))).map (·.1)).length).sum = l.length := by
  intro l
  induction l with
  | nil => intro _; simp
  | cons r l ih =>
    intro h
    have hr := h r (by simp)
    obtain ⟨k, hk⟩ : ∃ k : Nat, r.2 = (k : Int) := ⟨r.2.toNat, by omega⟩
    have e : ∀ i : Nat, (((r :: l).filter fun r => decide (r.2 = (i : Int))).map (·.1)).length =
        ((l.filter fun r => decide (r.2 = (i : Int))).map (·.1)).length + (if i = k then 1 else 0) := by
      intro i
      rw [List.filter_cons]
      by_cases hik : i = k
      · subst hik; simp [hk]
      · have hki : k ≠ i := fun h => hik h.symm
        have : ¬ (k : Int) = (i : Int) := by omega
        simp [hk, this, hik]
    simp only [e]
    rw [List.sum_map_add, ih fun r hr => h r (by simp [hr]), List.length_cons]
    congr 1
    have hkn : k < n := by omega
    exact sum_indicator n k hkn

/-- Shape of the adjusted roots: the two ends, and roots of the functions in between. -/
theorem breaks_shape {E : Env K} (ht : 0 ≤ E.tol) (ht1 : E.tol < 1) (hs : IsRootSort E.srt) {L : Level K} (h : RootsOk [L])
    (p : List K) : ∃ mid : List (Root K), breaks E L p = (0, -1) :: mid ++ [(1, -1)] ∧ ∀ r ∈ mid, 0 ≤ r.2 ∧ r.2 < L.phi.count := by
  classical
  obtain ⟨mid, h1, h2, _, _⟩ := C42_adjusted_roots_partial E.tol 0 1 ht (by norm_num) _ _ (hs (allRoots L.phi p))
    (fun r hr => ⟨by linarith [(allRoots_mem h p r hr).1], by linarith [(allRoots_mem h p r hr).2]⟩)
  have e0 : ∃ r ∈ allRoots L.phi p, r.2 = -1 ∧ |r.1 - 0| ≤ E.tol := ⟨(0, -1), by simp [allRoots], rfl, by simpa using ht⟩
  have e1 : ∃ r ∈ allRoots L.phi p, r.2 = -1 ∧ E.tol < |r.1 - 0| ∧ |r.1 - 1| ≤ E.tol :=
    ⟨(1, -1), by simp [allRoots], rfl, by simpa using ht1, by simpa using ht⟩
  rw [if_pos e0, if_pos e1] at h1
  refine ⟨mid, by unfold breaks; rw [h1]; rfl, ?_⟩
  intro r hr
  obtain ⟨a, ha, hra⟩ := forall2_mem_right h2 hr
  rw [hra.1]
  obtain ⟨ha, hna⟩ := List.mem_filter.1 ha
  have ha := (hs (allRoots L.phi p)).1.mem_iff.1 ha
  unfold allRoots at ha
  simp only [List.cons_append, List.nil_append, List.mem_cons, List.mem_flatMap, List.mem_map, List.mem_range] at ha
  rcases ha with rfl | rfl | ⟨i, hi, b, _, rfl⟩
  · exfalso
    simp [ht] at hna
  · exfalso
    simp [ht] at hna
  · simp only
    omega

theorem filter_range_flatMap (f : Nat → List K) (i : Nat) : ∀ n : Nat,
    ((List.range n).flatMap fun (j : Nat) => (f j).map fun r => (r, (j : Int))).filter (fun r => decide (r.2 = (i : Int))) =
      if i < n then (f i).map fun r => (r, (i : Int)) else [] := by
  intro n
  induction n with
  | zero => simp
  | succ n ih =>
    rw [List.range_succ, List.flatMap_append, List.filter_append, ih]
    simp only [List.flatMap_cons, List.flatMap_nil, List.append_nil]
    by_cases h : i = n
    · subst h
      rw [if_neg (by omega), if_pos (by omega), List.nil_append, List.filter_eq_self]
      intro a ha
      obtain ⟨x, _, rfl⟩ := List.mem_map.1 ha
      simp
    · have : ((f n).map fun r => (r, (n : Int))).filter (fun r => decide (r.2 = (i : Int))) = [] := by
        rw [List.filter_eq_nil_iff]
        intro a ha
        obtain ⟨x, _, rfl⟩ := List.mem_map.1 ha
        simp only [decide_eq_true_eq]
        omega
      rw [this, List.append_nil]
      by_cases h2 : i < n
      · rw [if_pos h2, if_pos (by omega)]
      · rw [if_neg h2, if_neg (by omega)]

theorem filter_length_of_ids {R : Root K → Root K → Prop} (hR : ∀ r r', R r r' → r'.2 = r.2) (i : Int) {l l' : List (Root K)}
    (h : List.Forall₂ R l l') : (l'.filter fun r => decide (r.2 = i)).length = (l.filter fun r => decide (r.2 = i)).length := by
  induction h with
  | nil => rfl
  | @cons a b l l' hab _ ih =>
    rw [List.filter_cons, List.filter_cons, hR a b hab]
    split
    · rw [List.length_cons, List.length_cons, ih]
    · exact ih

/-- Each polynomial has as many breaks as roots. -/
theorem breaks_count {E : Env K} (ht : 0 ≤ E.tol) (hs : IsRootSort E.srt) {L : Level K} (h : RootsOk [L])
    (p : List K) (i : Nat) (hi : i < L.phi.count) :
    ((breaks E L p).filter fun r => decide (r.2 = (i : Int))).length = (L.phi.roots i p).length := by
  classical
  obtain ⟨mid, h1, h2, _, _⟩ := C42_adjusted_roots_partial E.tol 0 1 ht (by norm_num) _ _ (hs (allRoots L.phi p))
    (fun r hr => ⟨by linarith [(allRoots_mem h p r hr).1], by linarith [(allRoots_mem h p r hr).2]⟩)
  have hb : breaks E L p = adjust E.tol 0 1 (E.srt (allRoots L.phi p)) := rfl
  have hend : ∀ (c : Prop) [Decidable c] (x : K), (if c then [((x, -1) : Root K)] else []).filter (fun r => decide (r.2 = (i : Int))) = [] := by
    intro c _ x
    split
    · rw [List.filter_eq_nil_iff]
      intro a ha
      rw [List.mem_singleton] at ha
      subst ha
      simp only [decide_eq_true_eq]
      omega
    · rfl
  rw [hb, h1, List.filter_append, List.filter_append, hend, hend, List.nil_append, List.append_nil,
    filter_length_of_ids (fun r r' hrr => hrr.1) (i : Int) h2, List.filter_filter]
  have e : (E.srt (allRoots L.phi p)).filter (fun a => decide (a.2 = (i : Int)) &&
      decide (¬ (a.2 = -1 ∧ (|a.1 - 0| ≤ E.tol ∨ |a.1 - 1| ≤ E.tol)))) = (E.srt (allRoots L.phi p)).filter (fun a => decide (a.2 = (i : Int))) := by
    apply List.filter_congr
    intro a _
    by_cases ha : a.2 = (i : Int)
    · have : a.2 ≠ -1 := by omega
      simp [ha]
    · simp [ha]
  rw [e, ((hs (allRoots L.phi p)).1.filter _).length_eq]
  unfold allRoots
  rw [List.filter_append, filter_range_flatMap (fun j => L.phi.roots j p) i, if_pos hi]
  simp [List.filter_cons]

/-- At `p` every polynomial has as many roots as at `q`, away from the ends. -/
def SteadyAt (E : Env K) (L : Level K) (q p : List K) : Prop := ∀ i, i < L.phi.count →
  (L.phi.roots i p).length = (L.phi.roots i q).length ∧ ∀ r ∈ L.phi.roots i p, E.tol < r ∧ E.tol < 1 - r

theorem similarRoots_steady {E : Env K} {L : Level K} {q p : List K} (h : SteadyAt E L q p) {i : Nat} (hi : i < L.phi.count)
    {refRoots : List K} (hl : refRoots.length = (L.phi.roots i q).length) :
    similarRoots E L i q p refRoots = some (L.phi.roots i p) := by
  have hf : (L.phi.roots i p).filter (fun r => !(Tol.equal E.tol r 0 || Tol.equal E.tol r 1)) = L.phi.roots i p := by
    rw [List.filter_eq_self]
    intro r hr
    obtain ⟨h1, h2⟩ := (h i hi).2 r hr
    have a : ¬ |r - 0| ≤ E.tol := by rw [sub_zero]; exact not_le.2 (lt_of_lt_of_le h1 (le_abs_self r))
    have b : ¬ |r - 1| ≤ E.tol := by
      rw [abs_sub_comm]; exact not_le.2 (lt_of_lt_of_le h2 (le_abs_self _))
    rw [Tol.equal, Tol.equal, decide_eq_false a, decide_eq_false b]
    rfl
  unfold similarRoots
  dsimp only
  rw [hf]
  have he : endRoots E L i q p refRoots (L.phi.roots i p) = L.phi.roots i p := by
    unfold endRoots
    dsimp only
    rw [if_neg]
    rw [hl, (h i hi).1]
    omega
  rw [he, if_pos]
  rw [hl, (h i hi).1]

theorem computeSimilar_spec {E : Env K} (ht : 0 ≤ E.tol) (ht1 : E.tol < 1) (hs : IsRootSort E.srt) {L : Level K} (h : RootsOk [L])
    (q p : List K) (act : List Bool) (hact : act.length = (breaks E L q).length - 1) :
    (∀ iv, computeSimilar E L ⟨q, breaks E L q, act⟩ p = some iv →
      iv.active = act ∧ iv.roots.length = (breaks E L q).length ∧ IvOk iv) ∧
    (0 < p.length → (L.baseDir < p.length ∨ SteadyAt E L q p) → ∃ iv, computeSimilar E L ⟨q, breaks E L q, act⟩ p = some iv) := by
  obtain ⟨mid, hmid, hids⟩ := breaks_shape ht ht1 hs h q
  have hmem := breaks_mem ht hs h q
  have hsort := breaks_sorted ht hs h q
  obtain ⟨rr, hrr⟩ : ∃ rr : Nat → List K, rr = fun i : Nat => ((breaks E L q).filter fun r => decide (r.2 = (i : Int))).map (·.1) := ⟨_, rfl⟩
  have hrrm : ∀ i, ∀ r ∈ rr i, 0 ≤ r ∧ r ≤ 1 := by
    intro i r hr
    rw [hrr] at hr
    obtain ⟨a, ha, rfl⟩ := List.mem_map.1 hr
    exact hmem a (List.mem_filter.1 ha).1
  have hrrsum : ((List.range L.phi.count).map fun i => (rr i).length).sum + 2 = (breaks E L q).length := by
    have e : ∀ i : Nat, rr i = (mid.filter fun r => decide (r.2 = (i : Int))).map (·.1) := by
      intro i
      rw [hrr]
      dsimp only
      rw [hmid]
      simp [List.filter_cons, List.filter_append]
    simp only [e]
    rw [sum_filter_length L.phi.count mid hids, hmid]
    simp
  obtain ⟨f, hf⟩ : ∃ f : Nat → Option (List (Root K)), f = fun (i : Nat) =>
      if (rr i).isEmpty then some [] else (similarRoots E L i q p (rr i)).map fun l => l.map fun r => (r, (i : Int)) := ⟨_, rfl⟩
  have hcs : computeSimilar E L ⟨q, breaks E L q, act⟩ p =
      if (breaks E L q).length = 2 then some ⟨q, breaks E L q, act⟩
      else ((List.range L.phi.count).mapM f).bind fun rs =>
        if (rs.flatten ++ [((0 : K), (-1 : Int)), (1, -1)]).length = (breaks E L q).length then
          some ⟨p, adjust E.tol 0 1 (E.srt (rs.flatten ++ [(0, -1), (1, -1)])), act⟩ else none := by
    rw [hf, hrr]
    rfl
  have hfs : ∀ i l, f i = some l → l.length = (rr i).length ∧ ∀ r ∈ l, 0 ≤ r.1 ∧ r.1 ≤ 1 ∧ r.2 = (i : Int) := by
    intro i l hl
    rw [hf] at hl
    dsimp only at hl
    split at hl
    · rename_i he
      cases hl
      rw [List.isEmpty_iff.1 he]
      simp
    · cases hsr : similarRoots E L i q p (rr i) with
      | none => rw [hsr] at hl; simp at hl
      | some l' =>
        rw [hsr] at hl
        cases hl
        refine ⟨by rw [List.length_map]; exact similarRoots_length hsr, ?_⟩
        intro r hr
        obtain ⟨a, ha, rfl⟩ := List.mem_map.1 hr
        have := similarRoots_mem h (hrrm i) hsr a ha
        exact ⟨this.1, this.2, rfl⟩
  have hlen : ∀ (is : List Nat) (rs : List (List (Root K))), List.Forall₂ (fun a b => f a = some b) is rs →
      rs.flatten.length = (is.map fun i => (rr i).length).sum := by
    intro is rs h2
    induction h2 with
    | nil => simp
    | @cons i l is rs hil _ ih => rw [List.flatten_cons, List.length_append, ih, List.map_cons, List.sum_cons, (hfs i l hil).1]
  rw [hcs]
  constructor
  · intro iv hiv
    split at hiv
    · cases hiv
      exact ⟨rfl, rfl, ⟨hmem, hsort, hact⟩⟩
    · cases hm : (List.range L.phi.count).mapM f with
      | none => rw [hm] at hiv; simp at hiv
      | some rs =>
        rw [hm] at hiv
        simp only [Option.bind_some] at hiv
        split at hiv
        · rename_i hl
          cases hiv
          have h2 := mapM_eq_some f _ rs hm
          have hrs : ∀ r ∈ rs.flatten ++ [((0 : K), (-1 : Int)), (1, -1)], 0 ≤ r.1 ∧ r.1 ≤ 1 := by
            intro r hr
            simp only [List.mem_append, List.mem_cons, List.not_mem_nil, or_false] at hr
            rcases hr with hr | rfl | rfl
            · obtain ⟨l, hl, hrl⟩ := List.mem_flatten.1 hr
              obtain ⟨i, _, hi⟩ := forall2_mem_right h2 hl
              have := (hfs i l hi).2 r hrl
              exact ⟨this.1, this.2.1⟩
            · simp
            · simp
          classical
          obtain ⟨_, _, _, h3, h4⟩ := C42_adjusted_roots_partial E.tol 0 1 ht (by norm_num) _ _ (hs (rs.flatten ++ [(0, -1), (1, -1)]))
            (fun r hr => ⟨by linarith [(hrs r hr).1], by linarith [(hrs r hr).2]⟩)
          have h5 : (adjust E.tol 0 1 (E.srt (rs.flatten ++ [((0 : K), (-1 : Int)), (1, -1)]))).length = (rs.flatten ++ [((0 : K), (-1 : Int)), (1, -1)]).length := by
            refine adjust_length ht ht1 _ _ (hs _) hrs rs.flatten (List.perm_append_comm) ?_
            intro r hr
            obtain ⟨l, hl, hrl⟩ := List.mem_flatten.1 hr
            obtain ⟨i, _, hi⟩ := forall2_mem_right h2 hl
            rw [((hfs i l hi).2 r hrl).2.2]
            omega
          have h6 : (adjust E.tol 0 1 (E.srt (rs.flatten ++ [((0 : K), (-1 : Int)), (1, -1)]))).length = (breaks E L q).length := by
            rw [h5, hl]
          refine ⟨rfl, h6, ⟨h4, h3, ?_⟩⟩
          rw [h6]
          exact hact
        · cases hiv
  · intro hp hd
    split
    · exact ⟨_, rfl⟩
    · have : ∃ rs, (List.range L.phi.count).mapM f = some rs := by
        have key : ∀ l : List Nat, (∀ i ∈ l, i < L.phi.count) → ∃ rs, l.mapM f = some rs := by
          intro l
          induction l with
          | nil => intro _; exact ⟨[], rfl⟩
          | cons i l ih =>
            intro hall
            obtain ⟨rs, hrs⟩ := ih fun j hj => hall j (by simp [hj])
            have : ∃ b, f i = some b := by
              rw [hf]
              dsimp only
              split
              · exact ⟨_, rfl⟩
              · have hi := hall i (by simp)
                obtain ⟨l', hl'⟩ : ∃ l', similarRoots E L i q p (rr i) = some l' := by
                  rcases hd with hd | hd
                  · exact similarRoots_total E L i q p (rr i) hp hd
                  · exact ⟨_, similarRoots_steady hd hi (by rw [hrr, List.length_map]; exact breaks_count ht hs h q i hi)⟩
                rw [hl']
                exact ⟨_, rfl⟩
            obtain ⟨b, hb⟩ := this
            exact ⟨b :: rs, by rw [List.mapM_cons, hb, hrs]; rfl⟩
        exact key _ fun i hi => List.mem_range.1 hi
      obtain ⟨rs, hrs⟩ := this
      rw [hrs]
      have h2 := mapM_eq_some f _ rs hrs
      simp only [Option.bind_some]
      rw [if_pos]
      · exact ⟨_, rfl⟩
      · rw [List.length_append, hlen _ _ h2]
        simpa using hrrsum

end
end Qugar.Reparam
