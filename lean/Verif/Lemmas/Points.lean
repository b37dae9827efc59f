import Verif.Model.Points
import Verif.Spec.Points
import Mathlib.Tactic.Linarith
import Mathlib.Tactic.Ring
import Mathlib.Data.List.Sort
/-
Lemmas for the identification of coincident points.
-/
namespace Qugar.Points
open Spec
variable {K : Type} [Field K] [LinearOrder K] [IsStrictOrderedRing K]

section linked
variable {tol : K} {S T : Nat → Prop} {x : Nat → K} {i j k : Nat}

omit [IsStrictOrderedRing K] in
theorem linked_refl : Linked tol S x i i := Relation.ReflTransGen.refl

omit [IsStrictOrderedRing K] in
theorem linked_trans (h : Linked tol S x i j) (h' : Linked tol S x j k) : Linked tol S x i k := h.trans h'

omit [IsStrictOrderedRing K] in
theorem linked_symm (h : Linked tol S x i j) : Linked tol S x j i := by
  induction h with
  | refl => exact linked_refl
  | tail _ hs ih => exact (Relation.ReflTransGen.single ⟨hs.2.1, hs.1, by rw [abs_sub_comm]; exact hs.2.2⟩).trans ih

omit [IsStrictOrderedRing K] in
theorem linked_mono (hST : ∀ s, S s → T s) (h : Linked tol S x i j) : Linked tol T x i j :=
  Relation.ReflTransGen.mono (fun _ _ h => ⟨hST _ h.1, hST _ h.2.1, h.2.2⟩) _ _ h

omit [IsStrictOrderedRing K] in
theorem linked_mem (hi : S i) (h : Linked tol S x i j) : S j := by
  cases h with
  | refl => exact hi
  | tail _ hs => exact hs.2.1

omit [IsStrictOrderedRing K] in
theorem linked_step (hi : S i) (hj : S j) (h : |x i - x j| ≤ tol) : Linked tol S x i j :=
  Relation.ReflTransGen.single ⟨hi, hj, h⟩

omit [IsStrictOrderedRing K] in
theorem identified_refl {x : Nat → Nat → K} (n : Nat) : ∀ {S : Nat → Prop} {i : Nat}, Identified tol x n S i i := by
  induction n with
  | zero => intro S i; exact linked_refl
  | succ n ih => intro S i; exact ⟨linked_refl, ih⟩

omit [IsStrictOrderedRing K] in
theorem identified_mono {x : Nat → Nat → K} (n : Nat) : ∀ {S T : Nat → Prop} {i j : Nat}, (∀ s, S s → T s) →
    Identified tol x n S i j → Identified tol x n T i j := by
  induction n with
  | zero => intro S T i j h; exact linked_mono h
  | succ n ih => intro S T i j h hi; exact ⟨linked_mono h hi.1, ih (fun s hs => ⟨h s hs.1, linked_mono h hs.2⟩) hi.2⟩

omit [IsStrictOrderedRing K] in
/-- Points equal up to the tolerance in all coordinates are identified. -/
theorem identified_of_close {x : Nat → Nat → K} (n : Nat) : ∀ {S : Nat → Prop} {i j : Nat}, S i → S j →
    (∀ k, k ≤ n → |x k i - x k j| ≤ tol) → Identified tol x n S i j := by
  induction n with
  | zero => intro S i j hi hj h; exact linked_step hi hj (h 0 le_rfl)
  | succ n ih =>
    intro S i j hi hj h
    have hl := linked_step (x := x (n + 1)) hi hj (h (n + 1) le_rfl)
    exact ⟨hl, ih ⟨hi, linked_refl⟩ ⟨hj, hl⟩ fun k hk => h k (by omega)⟩

omit [IsStrictOrderedRing K] in
theorem identified_linked {x : Nat → Nat → K} (n : Nat) : ∀ {S : Nat → Prop} {i j : Nat} (k : Nat), k ≤ n →
    Identified tol x n S i j → Linked tol S (x k) i j := by
  induction n with
  | zero => intro S i j k hk h; obtain rfl : k = 0 := by omega
            exact h
  | succ n ih =>
    intro S i j k hk h
    rcases Nat.lt_or_ge k (n + 1) with hk' | hk'
    · exact linked_mono (fun s hs => hs.1) (ih k (by omega) h.2)
    · obtain rfl : k = n + 1 := by omega
      exact h.1

omit [IsStrictOrderedRing K] in
/-- The identification of points seen through a renumbering. -/
theorem identified_map {x y : Nat → Nat → K} (f : Nat → Nat) (n : Nat) : ∀ {S T : Nat → Prop} {i j : Nat},
    (∀ s, S s → T (f s)) → (∀ s, S s → ∀ k, y k (f s) = x k s) →
    Identified tol x n S i j → Identified tol y n T (f i) (f j) := by
  have hl : ∀ {S T : Nat → Prop} {i j : Nat} (k : Nat), (∀ s, S s → T (f s)) → (∀ s, S s → ∀ k, y k (f s) = x k s) →
      Linked tol S (x k) i j → Linked tol T (y k) (f i) (f j) := by
    intro S T i j k hST hxy h
    induction h with
    | refl => exact linked_refl
    | tail _ hs ih =>
      exact ih.trans (linked_step (hST _ hs.1) (hST _ hs.2.1) (by rw [hxy _ hs.1, hxy _ hs.2.1]; exact hs.2.2))
  induction n with
  | zero => intro S T i j hST hxy h; exact hl 0 hST hxy h
  | succ n ih =>
    intro S T i j hST hxy h
    exact ⟨hl _ hST hxy h.1, ih (fun s hs => ⟨hST s hs.1, hl _ hST hxy hs.2⟩) (fun s hs => hxy s hs.1) h.2⟩
end linked

/-! ### Runs of a sorted list -/

section runs
variable {tol : K} {x : Nat → K}

theorem runs_separated (gs : List (List Nat)) (hne : [] ∉ gs) (hs : gs.flatten.Pairwise fun a b => x a ≤ x b)
    (hc : gs.IsChain fun a b => ∃ ha hb, Tol.equal tol (x (a.getLast ha)) (x (b.head hb)) = false) :
    gs.Pairwise fun g g' => ∀ a ∈ g, ∀ b ∈ g', tol < x b - x a := by
  induction gs with
  | nil => exact List.Pairwise.nil
  | cons g gs ih =>
    rw [List.flatten_cons, List.pairwise_append] at hs
    have hne' : [] ∉ gs := fun h => hne (by simp [h])
    rw [List.pairwise_cons]
    refine ⟨?_, ih hne' hs.2.1 hc.tail⟩
    intro g' hg' a ha b hb
    cases gs with
    | nil => simp at hg'
    | cons g1 gs =>
      rw [List.isChain_cons_cons] at hc
      obtain ⟨h1, h2, h3⟩ := hc.1
      simp only [Tol.equal, decide_eq_false_iff_not, not_le] at h3
      have hab : x (g.getLast h1) ≤ x (g1.head h2) :=
        hs.2.2 _ (List.getLast_mem h1) _ (by rw [List.flatten_cons]; exact List.mem_append_left _ (List.head_mem h2))
      rw [abs_sub_comm, abs_of_nonneg (by linarith)] at h3
      have ha' : x a ≤ x (g.getLast h1) := by
        have hp := hs.1
        rw [← List.dropLast_append_getLast h1, List.pairwise_append] at hp
        rw [← List.dropLast_append_getLast h1] at ha
        rcases List.mem_append.1 ha with h | h
        · exact hp.2.2 a h _ (by simp)
        · rw [List.mem_singleton] at h; rw [h]
      have hb' : x (g1.head h2) ≤ x b := by
        have hp := hs.2.1
        have hbm : b ∈ (g1 :: gs).flatten := List.mem_flatten.2 ⟨g', hg', hb⟩
        obtain ⟨c, g2, rfl⟩ : ∃ c g2, g1 = c :: g2 := ⟨g1.head h2, g1.tail, (List.cons_head_tail h2).symm⟩
        rw [List.head_cons]
        rw [List.flatten_cons, List.cons_append, List.pairwise_cons] at hp
        rw [List.flatten_cons, List.cons_append, List.mem_cons] at hbm
        rcases hbm with h | h
        · rw [h]
        · exact hp.1 b h
      linarith

/-- The runs are the classes of the linked points. -/
theorem mem_run_iff {l : List Nat} (hs : l.Pairwise fun a b => x a ≤ x b) {g : List Nat}
    (hg : g ∈ l.splitBy fun a b => Tol.equal tol (x a) (x b)) {a : Nat} (ha : a ∈ g) (b : Nat) :
    b ∈ g ↔ b ∈ l ∧ Linked tol (· ∈ l) x a b := by
  obtain ⟨gs, hgs⟩ : ∃ gs, gs = l.splitBy fun a b => Tol.equal tol (x a) (x b) := ⟨_, rfl⟩
  obtain ⟨hl, hne, hch, hsep⟩ := List.splitBy_eq_iff.1 hgs.symm
  rw [← hgs] at hg
  have hmem : ∀ c, c ∈ l ↔ ∃ g ∈ gs, c ∈ g := fun c => by rw [hl, List.mem_flatten]
  have hp := runs_separated gs hne (hl ▸ hs) hsep
  have huniq : ∀ g1 ∈ gs, ∀ g2 ∈ gs, ∀ c ∈ g1, ∀ d ∈ g2, |x c - x d| ≤ tol → g1 = g2 := by
    intro g1 h1 g2 h2 c hc d hd hcd
    by_contra hne
    obtain ⟨u, hu, hu1⟩ := List.mem_iff_getElem.1 h1
    obtain ⟨v, hv, hv1⟩ := List.mem_iff_getElem.1 h2
    have hcd' := abs_le.1 hcd
    rcases lt_trichotomy u v with h | h | h
    · have := List.pairwise_iff_getElem.1 hp u v hu hv h c (hu1 ▸ hc) d (hv1 ▸ hd)
      linarith [hcd'.1]
    · subst h; exact hne (hu1.symm.trans hv1)
    · have := List.pairwise_iff_getElem.1 hp v u hv hu h d (hv1 ▸ hd) c (hu1 ▸ hc)
      linarith [hcd'.2]
  have hin : ∀ g1 ∈ gs, ∀ c ∈ g1, c ∈ l := fun g1 h1 c hc => (hmem c).2 ⟨g1, h1, hc⟩
  constructor
  · intro hb
    refine ⟨hin g hg b hb, ?_⟩
    have hlk : ∀ (m : List Nat), (∀ c ∈ m, c ∈ l) → (m.IsChain fun a b => Tol.equal tol (x a) (x b) = true) →
        ∀ c ∈ m, ∀ d ∈ m, Linked tol (· ∈ l) x c d := by
      intro m
      induction m with
      | nil => intro _ _ c hc; simp at hc
      | cons e m ih =>
        intro hm hc
        have hh : ∀ d ∈ m, Linked tol (· ∈ l) x e d := by
          intro d hd
          cases m with
          | nil => simp at hd
          | cons f m =>
            rw [List.isChain_cons_cons] at hc
            have h1 : Linked tol (· ∈ l) x e f :=
              linked_step (hm e (by simp)) (hm f (by simp)) (by simpa [Tol.equal] using hc.1)
            exact linked_trans h1 (ih (fun c hc => hm c (by simp [hc])) hc.2 f (by simp) d hd)
        have ih' := ih (fun c hc => hm c (by simp [hc])) hc.tail
        intro c hc d hd
        rcases List.mem_cons.1 hc with hc' | hc' <;> rcases List.mem_cons.1 hd with hd' | hd'
        · rw [hc', hd']; exact linked_refl
        · rw [hc']; exact hh d hd'
        · rw [hd']; exact linked_symm (hh c hc')
        · exact ih' c hc' d hd'
    exact hlk g (hin g hg) (hch g hg) a ha b hb
  · rintro ⟨-, h⟩
    induction h with
    | refl => exact ha
    | tail _ hst ih =>
      obtain ⟨g2, hg2, hd⟩ := (hmem _).1 hst.2.1
      rw [huniq g hg g2 hg2 _ ih _ hd hst.2.2]
      exact hd

/-- A sorted chain: the first and last points differ by at most `n - 1` tolerances. -/
theorem chain_bound (htol : 0 ≤ tol) (g : List Nat) (hc : g.IsChain fun a b => Tol.equal tol (x a) (x b) = true) :
    ∀ a ∈ g, ∀ b ∈ g, |x a - x b| ≤ ((g.length - 1 : Nat) : K) * tol := by
  induction g with
  | nil => intro a ha; simp at ha
  | cons e m ih =>
    have ih' := ih hc.tail
    have hh : ∀ d ∈ m, |x e - x d| ≤ (m.length : K) * tol := by
      intro d hd
      cases m with
      | nil => simp at hd
      | cons f m =>
        rw [List.isChain_cons_cons] at hc
        have h1 : |x e - x f| ≤ tol := by simpa [Tol.equal] using hc.1
        have h2 := ih' f (by simp) d hd
        have h3 : x e - x d = (x e - x f) + (x f - x d) := by ring
        rw [h3]
        refine (abs_add_le _ _).trans ?_
        simp only [List.length_cons, Nat.add_sub_cancel] at h2
        rw [List.length_cons, Nat.cast_add, Nat.cast_one]
        linarith
    have hmono : ((m.length - 1 : Nat) : K) * tol ≤ (m.length : K) * tol :=
      mul_le_mul_of_nonneg_right (Nat.cast_le.2 (Nat.sub_le _ _)) htol
    intro a ha b hb
    rw [List.length_cons, Nat.add_sub_cancel]
    rcases List.mem_cons.1 ha with ha' | ha' <;> rcases List.mem_cons.1 hb with hb' | hb'
    · rw [ha', hb', sub_self, abs_zero]; positivity
    · rw [ha']; exact hh b hb'
    · rw [hb', abs_sub_comm]; exact hh a ha'
    · exact (ih' a ha' b hb').trans hmono

/-- Linked members of a finite set differ by at most `n - 1` tolerances. -/
theorem linked_bound (htol : 0 ≤ tol) {l : List Nat} (hl : l.Nodup) {i j : Nat} (hi : i ∈ l)
    (h : Linked tol (· ∈ l) x i j) : |x i - x j| ≤ ((l.length - 1 : Nat) : K) * tol := by
  obtain ⟨s, hs, hp⟩ : ∃ s : List Nat, s.Perm l ∧ s.Pairwise fun a b => x a ≤ x b := by
    refine ⟨l.insertionSort fun a b => x a ≤ x b, List.perm_insertionSort _ _, ?_⟩
    have : Std.Total fun a b => x a ≤ x b := ⟨fun a b => le_total _ _⟩
    have : IsTrans Nat fun a b => x a ≤ x b := ⟨fun a b c => le_trans⟩
    exact List.pairwise_insertionSort _ _
  have hset : (fun a => a ∈ l) = fun a => a ∈ s := by funext a; rw [hs.mem_iff]
  rw [hset] at h
  obtain ⟨gs, hgs⟩ : ∃ gs, gs = s.splitBy fun a b => Tol.equal tol (x a) (x b) := ⟨_, rfl⟩
  obtain ⟨hfl, -, hch, -⟩ := List.splitBy_eq_iff.1 hgs.symm
  have his : i ∈ s := hs.mem_iff.2 hi
  rw [hfl, List.mem_flatten] at his
  obtain ⟨g, hg, hig⟩ := his
  have hjg := (mem_run_iff hp (hgs ▸ hg) hig j).2 ⟨linked_mem (hs.mem_iff.2 hi) h, h⟩
  refine (chain_bound htol g (hch g hg) i hig j hjg).trans ?_
  apply mul_le_mul_of_nonneg_right _ htol
  apply Nat.cast_le.2
  have h1 : g.length ≤ s.length := by
    rw [hfl]
    exact (List.sublist_flatten_of_mem hg).length_le
  have := hs.length_eq
  omega
end runs

/-! ### The map of the points -/

/-- What a step on the indices `g` does to the map. -/
structure LocalSpec (g : List Nat) (E : Nat → Nat → Prop) (m m' : List Nat) : Prop where
  len : m'.length = m.length
  outside : ∀ j, j ∉ g → m'.getD j 0 = m.getD j 0
  mem : ∀ i ∈ g, m'.getD i 0 ∈ g
  idem : ∀ i ∈ g, m'.getD (m'.getD i 0) 0 = m'.getD i 0
  same : ∀ i ∈ g, ∀ j ∈ g, (m'.getD i 0 = m'.getD j 0 ↔ E i j)

/-- The map is the identity on `g`. -/
def Fresh (g m : List Nat) : Prop := ∀ i ∈ g, i < m.length ∧ m.getD i 0 = i

theorem localSpec_foldl (f : List Nat → List Nat → List Nat) (E : List Nat → Nat → Nat → Prop) (gs : List (List Nat))
    (hf : ∀ g ∈ gs, ∀ m, Fresh g m → LocalSpec g (E g) m (f m g)) (hnd : gs.flatten.Nodup) :
    ∀ m, Fresh gs.flatten m →
      LocalSpec gs.flatten (fun i j => ∃ g ∈ gs, i ∈ g ∧ j ∈ g ∧ E g i j) m (gs.foldl f m) := by
  induction gs with
  | nil => intro m _; exact ⟨rfl, fun _ _ => rfl, by simp, by simp, by simp⟩
  | cons g gs ih =>
    intro m hm
    rw [List.flatten_cons, List.nodup_append] at hnd
    obtain ⟨n1, n2, n3⟩ := hnd
    have h1 := hf g (by simp) m (fun i hi => hm i (by simp [hi]))
    have hfresh : Fresh gs.flatten (f m g) := by
      intro i hi
      obtain ⟨h2, h3⟩ := hm i (by rw [List.flatten_cons]; exact List.mem_append_right _ hi)
      refine ⟨by rw [h1.len]; exact h2, ?_⟩
      rw [h1.outside i (fun hc => n3 i hc i hi rfl), h3]
    have h2 := ih (fun g' hg' => hf g' (by simp [hg'])) n2 (f m g) hfresh
    rw [List.foldl_cons, List.flatten_cons]
    have hkeep : ∀ i ∈ g, (gs.foldl f (f m g)).getD i 0 = (f m g).getD i 0 := fun i hi =>
      h2.outside i (fun hc => n3 i hi i hc rfl)
    have hdisj : ∀ i ∈ g, ∀ g' ∈ gs, i ∉ g' := fun i hi g' hg' hc =>
      n3 i hi i (List.mem_flatten.2 ⟨g', hg', hc⟩) rfl
    refine ⟨h2.len.trans h1.len, ?_, ?_, ?_, ?_⟩
    · intro j hj
      rw [List.mem_append, not_or] at hj
      rw [h2.outside j hj.2, h1.outside j hj.1]
    · intro i hi
      rw [List.mem_append] at hi ⊢
      rcases hi with hi | hi
      · rw [hkeep i hi]; exact .inl (h1.mem i hi)
      · exact .inr (h2.mem i hi)
    · intro i hi
      rw [List.mem_append] at hi
      rcases hi with hi | hi
      · rw [hkeep i hi, hkeep _ (h1.mem i hi)]; exact h1.idem i hi
      · exact h2.idem i hi
    · intro i hi j hj
      rw [List.mem_append] at hi hj
      rcases hi with hi | hi <;> rcases hj with hj | hj
      · rw [hkeep i hi, hkeep j hj, h1.same i hi j hj]
        constructor
        · exact fun h => ⟨g, by simp, hi, hj, h⟩
        · rintro ⟨g', hg', a, b, c⟩
          rcases List.mem_cons.1 hg' with rfl | hg'
          · exact c
          · exact absurd a (hdisj i hi g' hg')
      · constructor
        · intro h
          have ha := h1.mem i hi
          rw [← hkeep i hi, h] at ha
          exact absurd rfl (n3 _ ha _ (h2.mem j hj))
        · rintro ⟨g', hg', a, b, c⟩
          rcases List.mem_cons.1 hg' with rfl | hg'
          · exact absurd rfl (n3 _ b _ hj)
          · exact absurd a (hdisj i hi g' hg')
      · constructor
        · intro h
          have ha := h1.mem j hj
          rw [← hkeep j hj, ← h] at ha
          exact absurd rfl (n3 _ ha _ (h2.mem i hi))
        · rintro ⟨g', hg', a, b, c⟩
          rcases List.mem_cons.1 hg' with rfl | hg'
          · exact absurd rfl (n3 _ a _ hi)
          · exact absurd b (hdisj j hj g' hg')
      · rw [h2.same i hi j hj]
        constructor
        · rintro ⟨g', hg', r⟩; exact ⟨g', by simp [hg'], r⟩
        · rintro ⟨g', hg', a, b, c⟩
          rcases List.mem_cons.1 hg' with rfl | hg'
          · exact absurd rfl (n3 _ a _ hi)
          · exact ⟨g', hg', a, b, c⟩

theorem localSpec_id (g : List Nat) (E : Nat → Nat → Prop) (m : List Nat) (hm : Fresh g m) (hg : g.length < 2)
    (hE : ∀ i ∈ g, E i i) : LocalSpec g E m m := by
  refine ⟨rfl, fun _ _ => rfl, fun i hi => by rw [(hm i hi).2]; exact hi, fun i hi => by rw [(hm i hi).2, (hm i hi).2], ?_⟩
  intro i hi j hj
  obtain rfl : i = j := by
    match g, hg with
    | [], _ => simp at hi
    | [a], _ => simp at hi hj; rw [hi, hj]
    | _ :: _ :: _, h => simp at h; omega
  simp [hE i hi]

/-- All the indices of the run take the first one as image. -/
theorem localSpec_head (g : List Nat) (m : List Nat) (hm : Fresh g m) (hne : g ≠ []) (hnd : g.Nodup) :
    LocalSpec g (fun _ _ => True) m (g.tail.foldl (fun m i => m.set i (g.headD 0)) m) := by
  obtain ⟨a, t, rfl⟩ := List.exists_cons_of_ne_nil hne
  simp only [List.tail_cons, List.headD_cons]
  have key : ∀ (t m : List Nat), (∀ i ∈ t, i < m.length) →
      (t.foldl (fun m i => m.set i a) m).length = m.length ∧
      ∀ j, (t.foldl (fun m i => m.set i a) m).getD j 0 = if j ∈ t then a else m.getD j 0 := by
    intro t
    induction t with
    | nil => intro m _; simp
    | cons b t ih =>
      intro m hm
      obtain ⟨h1, h2⟩ := ih (m.set b a) (fun i hi => by rw [List.length_set]; exact hm i (by simp [hi]))
      rw [List.foldl_cons]
      refine ⟨by rw [h1, List.length_set], fun j => ?_⟩
      rw [h2 j]
      have hb := hm b (by simp)
      by_cases hj : j ∈ t
      · simp [hj]
      · by_cases hjb : j = b
        · subst hjb; simp [hj, List.getD_eq_getElem?_getD, hb]
        · simp [hj, hjb, List.getD_eq_getElem?_getD, List.getElem?_set_ne (Ne.symm hjb)]
  obtain ⟨h1, h2⟩ := key t m (fun i hi => (hm i (by simp [hi])).1)
  have hall : ∀ i ∈ a :: t, (t.foldl (fun m i => m.set i a) m).getD i 0 = a := by
    intro i hi
    rw [h2 i]
    rcases List.mem_cons.1 hi with rfl | hi
    · rw [(hm i (by simp)).2]; simp
    · simp [hi]
  refine ⟨h1, fun j hj => ?_, fun i hi => by rw [hall i hi]; simp, fun i hi => by rw [hall i hi, hall a (by simp)],
    fun i hi j hj => by rw [hall i hi, hall j hj]; simp⟩
  rw [h2 j, if_neg (fun h => hj (by simp [h]))]

theorem runsLoop_spec (srt : (Nat → K) → List Nat → List Nat) (hsrt : IsSort srt) (points : List (List K)) (tol : K)
    (sub : Nat) (step : List Nat → List Nat → List Nat) (E : List Nat → Nat → Nat → Prop)
    (F : List Nat → Nat → Nat → Prop) (hrefl : ∀ g, ∀ i ∈ g, E g i i) (hF : ∀ idx i, F idx i i)
    (hstep : ∀ g, g ≠ [] → g.Nodup → ∀ m, Fresh g m → LocalSpec g (E g) m (step g m))
    (hEF : ∀ (idx g : List Nat) (i j : Nat), i ∈ g → j ∈ idx →
      (∀ b, b ∈ g ↔ b ∈ idx ∧ Linked tol (· ∈ idx) (coord points sub) i b) → (F idx i j ↔ j ∈ g ∧ E g i j))
    (idx m : List Nat) (hnd : idx.Nodup) (hm : Fresh idx m) :
    LocalSpec idx (F idx) m (runsLoop srt points tol sub step idx m) := by
  unfold runsLoop
  by_cases hlen : idx.length < 2
  · rw [if_pos hlen]
    exact localSpec_id idx _ m hm hlen (fun i _ => hF idx i)
  rw [if_neg hlen]
  obtain ⟨hp, hs⟩ := hsrt (coord points sub) idx
  obtain ⟨l, hl⟩ : ∃ l, l = srt (coord points sub) idx := ⟨_, rfl⟩
  rw [← hl] at hp hs ⊢
  obtain ⟨gs, hgs⟩ : ∃ gs, gs = l.splitBy fun a b => Tol.equal tol (coord points sub a) (coord points sub b) := ⟨_, rfl⟩
  rw [← hgs]
  obtain ⟨hfl, hne, -, -⟩ := List.splitBy_eq_iff.1 hgs.symm
  have hndl : gs.flatten.Nodup := by rw [← hfl]; exact hp.nodup_iff.2 hnd
  have hset : (fun a => a ∈ idx) = fun a => a ∈ l := by funext a; rw [hp.mem_iff]
  have hmem : ∀ a, a ∈ gs.flatten ↔ a ∈ idx := fun a => by rw [← hfl, hp.mem_iff]
  have h := localSpec_foldl (fun pointsMap run => if 2 ≤ run.length then step run pointsMap else pointsMap) E gs
    (fun g hg m hm => by
      by_cases h2 : 2 ≤ g.length
      · rw [if_pos h2]
        exact hstep g (fun h => hne (h ▸ hg)) ((List.nodup_flatten.1 hndl).1 g hg) m hm
      · rw [if_neg h2]
        exact localSpec_id g _ m hm (by omega) (hrefl g)) hndl m
    (fun i hi => hm i ((hmem i).1 hi))
  refine ⟨h.len, fun j hj => h.outside j (fun hc => hj ((hmem j).1 hc)),
    fun i hi => (hmem _).1 (h.mem i ((hmem i).2 hi)), fun i hi => h.idem i ((hmem i).2 hi), fun i hi j hj => ?_⟩
  refine (h.same i ((hmem i).2 hi) j ((hmem j).2 hj)).trans ?_
  obtain ⟨g, hg, hig⟩ := List.mem_flatten.1 ((hmem i).2 hi)
  have hrun : ∀ g' ∈ gs, i ∈ g' → ∀ b, b ∈ g' ↔ b ∈ idx ∧ Linked tol (· ∈ idx) (coord points sub) i b := by
    intro g' hg' hi' b
    rw [mem_run_iff hs (hgs ▸ hg') hi' b, hset, hp.mem_iff]
  constructor
  · rintro ⟨g', hg', a, b, he⟩
    exact (hEF idx g' i j a hj (hrun g' hg' a)).2 ⟨b, he⟩
  · intro hf
    obtain ⟨hjg, he⟩ := (hEF idx g i j hig hj (hrun g hg hig)).1 hf
    exact ⟨g, hg, hig, hjg, he⟩

theorem findSub_spec (srt : (Nat → K) → List Nat → List Nat) (hsrt : IsSort srt) (points : List (List K)) (tol : K)
    (sub : Nat) : ∀ (idx m : List Nat), idx.Nodup → Fresh idx m →
      LocalSpec idx (Identified tol (coord points) sub (· ∈ idx)) m (findSub srt points tol sub idx m) := by
  induction sub with
  | zero =>
    intro idx m hnd hm
    refine runsLoop_spec srt hsrt points tol 0 _ (fun _ _ _ => True)
      (fun idx i j => Identified tol (coord points) 0 (· ∈ idx) i j) (fun _ _ _ => trivial)
      (fun _ _ => identified_refl 0) (fun g hne hnd m hm => localSpec_head g m hm hne hnd) ?_ idx m hnd hm
    intro idx g i j _ hj hrun
    constructor
    · exact fun h => ⟨(hrun j).2 ⟨hj, h⟩, trivial⟩
    · exact fun h => ((hrun j).1 h.1).2
  | succ sub ih =>
    intro idx m hnd hm
    refine runsLoop_spec srt hsrt points tol (sub + 1) _ (fun g i j => Identified tol (coord points) sub (· ∈ g) i j)
      (fun idx i j => Identified tol (coord points) (sub + 1) (· ∈ idx) i j) (fun _ _ _ => identified_refl _)
      (fun _ _ => identified_refl _) (fun g _ hnd m hm => ih g m hnd hm) ?_ idx m hnd hm
    intro idx g i j _ hj hrun
    have hset : (fun s => s ∈ idx ∧ Linked tol (· ∈ idx) (coord points (sub + 1)) i s) = fun s => s ∈ g := by
      funext s; rw [hrun s]
    constructor
    · rintro ⟨h1, h2⟩
      rw [hset] at h2
      exact ⟨(hrun j).2 ⟨hj, h1⟩, h2⟩
    · rintro ⟨h1, h2⟩
      refine ⟨((hrun j).1 h1).2, ?_⟩
      rw [hset]
      exact h2

end Qugar.Points
