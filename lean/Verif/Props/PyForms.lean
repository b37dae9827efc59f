import Verif.Model.PyForms
import Mathlib.Data.List.Induction
/-
C72: forms: integrals over the whole boundary, their subdomains, lists of forms and degrees of quadratures.
-/
namespace Qugar.Py.Forms

/-! ### Proofs: numbering -/

/-- Numbers of the integrals over exterior facets. -/
def nums (l : List Integral) : List Int := l.filterMap number

theorem number_eq {i : Integral} {n : Int} : number i = some n ↔ i.kind = .exterior ∧ i.sid = .num n := by
  unfold number
  split
  · next h1 h2 => simp [h1, h2]
  · next h =>
    constructor
    · simp
    · rintro ⟨h1, h2⟩
      exact absurd h2 (h n h1)

theorem nextId_eq (l : List Integral) : nextId l = (nums l).foldl max (-1) + 1 := rfl

theorem foldl_max_spec (l : List Int) (a : Int) : a ≤ l.foldl max a ∧ (∀ x ∈ l, x ≤ l.foldl max a) ∧
    ∀ b, a ≤ b → (∀ x ∈ l, x ≤ b) → l.foldl max a ≤ b := by
  induction l generalizing a with
  | nil => exact ⟨le_rfl, by simp, fun b hb _ => hb⟩
  | cons y l ih =>
    obtain ⟨h1, h2, h3⟩ := ih (max a y)
    rw [List.foldl_cons]
    refine ⟨le_trans (le_max_left _ _) h1, ?_, ?_⟩
    · intro x hx
      rcases List.mem_cons.1 hx with rfl | hx
      · exact le_trans (le_max_right _ _) h1
      · exact h2 x hx
    · intro b hb hx
      exact h3 b (max_le hb (hx y (List.mem_cons_self ..))) fun x hx' => hx x (List.mem_cons_of_mem _ hx')

theorem nextId_pos (l : List Integral) : 0 ≤ nextId l := by
  rw [nextId_eq]
  have := (foldl_max_spec (nums l) (-1)).1
  omega

theorem lt_nextId {l : List Integral} {i : Integral} (hi : i ∈ l) (hk : i.kind = .exterior) {n : Int} (hn : i.sid = .num n) : n < nextId l := by
  rw [nextId_eq]
  have := (foldl_max_spec (nums l) (-1)).2.1 n (List.mem_filterMap.2 ⟨i, hi, number_eq.2 ⟨hk, hn⟩⟩)
  omega

/-- The modified integrals with the new numbers from `n` on. -/
def renumber : Int → List Integral → List Integral
  | _, [] => []
  | n, i :: is => if isEverywhere i then { i with data := .nothing, sid := .num n, flag := true } :: renumber (n + 1) is else i :: renumber n is

theorem nextId_step (done is : List Integral) {i : Integral} (h : isEverywhere i = true) :
    nextId (done ++ [{ i with data := .nothing, sid := .num (nextId (done ++ i :: is)), flag := true }] ++ is) = nextId (done ++ i :: is) + 1 := by
  have hk : i.kind = .exterior := by
    simp only [isEverywhere, Bool.and_eq_true, decide_eq_true_eq] at h
    exact h.1
  have hN := nextId_pos (done ++ i :: is)
  have e1 : nums (done ++ [{ i with data := .nothing, sid := .num (nextId (done ++ i :: is)), flag := true }] ++ is)
      = nums done ++ (nextId (done ++ i :: is) :: nums is) := by
    simp [nums, List.filterMap_append, number, hk]
  rw [nextId_eq (done ++ [_] ++ is), e1]
  congr 1
  have hx : ∀ x ∈ nums done ++ nums is, x < nextId (done ++ i :: is) := by
    intro x hx
    rw [← nums_append, nums, List.mem_filterMap] at hx
    obtain ⟨j, hj, hjx⟩ := hx
    obtain ⟨hkj, hs⟩ := number_eq.1 hjx
    refine lt_nextId ?_ hkj hs
    rw [List.mem_append] at hj ⊢
    rcases hj with hj | hj
    · exact Or.inl hj
    · exact Or.inr (List.mem_cons_of_mem _ hj)
  obtain ⟨h1, h2, h3⟩ := foldl_max_spec (nums done ++ (nextId (done ++ i :: is) :: nums is)) (-1)
  refine le_antisymm (h3 _ (by omega) ?_) (h2 _ (by simp))
  intro x hx'
  rw [List.mem_append, List.mem_cons] at hx'
  rcases hx' with hx' | hx' | hx'
  · exact le_of_lt (hx x (List.mem_append_left _ hx'))
  · exact le_of_eq hx'
  · exact le_of_lt (hx x (List.mem_append_right _ hx'))
where
  nums_append {a b : List Integral} : nums (a ++ b) = nums a ++ nums b := by simp [nums, List.filterMap_append]

theorem modifyFrom_eq (done is : List Integral) : modifyFrom done is = done ++ renumber (nextId (done ++ is)) is := by
  induction is generalizing done with
  | nil => simp [modifyFrom, renumber]
  | cons i is ih =>
    rw [modifyFrom, renumber]
    by_cases h : isEverywhere i = true
    · rw [if_pos h, if_pos h, ih, nextId_step done is h, List.append_assoc]
      rfl
    · rw [if_neg h, if_neg h, ih, List.append_assoc, List.append_assoc]
      rfl

theorem modify_eq (l : List Integral) : modify l = renumber (nextId l) l := by
  rw [modify, modifyFrom_eq]
  rfl

theorem renumber_length (n : Int) (l : List Integral) : (renumber n l).length = l.length := by
  induction l generalizing n with
  | nil => rfl
  | cons i l ih =>
    rw [renumber]
    split <;> simp [ih]

theorem renumber_get (n : Int) (l : List Integral) (k : Nat) {i : Integral} (hk : l[k]? = some i) :
    (isEverywhere i = false → (renumber n l)[k]? = some i) ∧
    (isEverywhere i = true → (renumber n l)[k]? =
      some { i with data := .nothing, sid := .num (n + ((l.take k).countP isEverywhere : Nat)), flag := true }) := by
  induction l generalizing n k with
  | nil => simp at hk
  | cons j l ih =>
    rw [renumber]
    cases k with
    | zero =>
      simp only [List.getElem?_cons_zero, Option.some.injEq] at hk
      subst hk
      constructor
      · intro h; simp [h]
      · intro h; simp [h]
    | succ k =>
      rw [List.getElem?_cons_succ] at hk
      by_cases hj : isEverywhere j = true
      · simp only [if_pos hj, List.getElem?_cons_succ, List.take_succ_cons, List.countP_cons, hj, if_true]
        have := ih (n + 1) k hk
        rw [show n + ((List.countP isEverywhere (List.take k l) + 1 : Nat) : Int) = n + 1 + (List.countP isEverywhere (List.take k l) : Nat) by
          push_cast; omega]
        exact this
      · simp only [if_neg hj, List.getElem?_cons_succ, List.take_succ_cons, List.countP_cons, Nat.add_zero]
        exact ih n k hk

theorem mem_renumber {n : Int} {l : List Integral} {j : Integral} (h : j ∈ renumber n l) : ∃ (k : Nat) (i : Integral), l[k]? = some i ∧
    (renumber n l)[k]? = some j := by
  obtain ⟨k, hk, rfl⟩ := List.mem_iff_getElem.1 h
  rw [renumber_length] at hk
  exact ⟨k, l[k], by simp, by simp⟩

/-! ### Theorems about integrals -/

/-- C72: in every form, the integrals over the whole boundary get numbers that are larger than those of all the other integrals over
exterior facets, all different, and increasing; nothing but the number, the data and the mark of these integrals is modified, and the
other integrals are not modified. -/
theorem C72_numbers (l : List Integral) :
    (modify l).length = l.length ∧
    (∀ (k : Nat) (i : Integral), l[k]? = some i → isEverywhere i = false → (modify l)[k]? = some i) ∧
    (∀ (k : Nat) (i : Integral), l[k]? = some i → isEverywhere i = true → ∃ n : Int,
      (modify l)[k]? = some { i with data := .nothing, sid := .num n, flag := true } ∧ 0 ≤ n ∧
      ∀ j ∈ l, j.kind = .exterior → ∀ m, j.sid = .num m → m < n) ∧
    ∀ (k k' : Nat) (i i' j j' : Integral) (n n' : Int), k < k' → l[k]? = some i → l[k']? = some i' → isEverywhere i = true → isEverywhere i' = true →
      (modify l)[k]? = some j → (modify l)[k']? = some j' → j.sid = .num n → j'.sid = .num n' → n < n' := by
  rw [modify_eq]
  refine ⟨renumber_length _ _, fun k i hk h => (renumber_get _ _ k hk).1 h, ?_, ?_⟩
  · intro k i hk h
    refine ⟨_, (renumber_get _ _ k hk).2 h, ?_, ?_⟩
    · have := nextId_pos l
      omega
    · intro j hj hkj m hm
      have := lt_nextId hj hkj hm
      omega
  · intro k k' i i' j j' n n' hkk hk hk' h h' hj hj' hn hn'
    rw [(renumber_get _ _ k hk).2 h] at hj
    rw [(renumber_get _ _ k' hk').2 h'] at hj'
    cases hj
    cases hj'
    simp only [Sid.num.injEq] at hn hn'
    subst hn hn'
    have hlt : (l.take k).countP isEverywhere < (l.take k').countP isEverywhere := by
      have hkl : k < l.length := (List.getElem?_eq_some_iff.1 hk).1
      have e : l.take (k + 1) = l.take k ++ [i] := by
        rw [List.take_add_one, hk]
        rfl
      have h1 : (l.take (k + 1)).countP isEverywhere = (l.take k).countP isEverywhere + 1 := by
        rw [e, List.countP_append]
        simp [h]
      have h2 : (l.take (k + 1)).countP isEverywhere ≤ (l.take k').countP isEverywhere := by
        refine List.Sublist.countP_le ?_
        exact (List.take_prefix_take_left (by omega)).sublist
      omega
    omega

/-- C72: with the integrals put back, the form has the original integrals except for the data of the subdomains of the modified ones,
which are lost: they become the id of the subdomain. Compiling the form again gives the same. -/
theorem C72_restored_partial (l : List Integral) :
    (restored l).length = l.length ∧
    (∀ (k : Nat) (i : Integral), l[k]? = some i → ∃ d, (restored l)[k]? = some { i with data := d } ∧
      (isEverywhere i = false → d = i.data) ∧ (isEverywhere i = true → d = .sid i.sid)) ∧
    modify (restored l) = modify l := by
  have hev : ∀ i : Integral, isEverywhere (if isEverywhere i then { i with data := .sid i.sid } else i) = isEverywhere i := by
    intro i
    by_cases h : isEverywhere i = true
    · rw [if_pos h]; rfl
    · rw [if_neg h]
  refine ⟨by simp [restored], ?_, ?_⟩
  · intro k i hk
    by_cases h : isEverywhere i = true
    · exact ⟨.sid i.sid, by simp [restored, hk, h], by simp [h], fun _ => rfl⟩
    · exact ⟨i.data, by simp [restored, hk, h], fun _ => rfl, by simp [h]⟩
  · have hn : nextId (restored l) = nextId l := by
      rw [nextId_eq, nextId_eq]
      congr 2
      rw [nums, nums, restored, List.filterMap_map]
      refine List.filterMap_congr ?_
      intro i _
      rw [Function.comp]
      split <;> rfl
    rw [modify_eq, modify_eq, hn]
    have : ∀ n, renumber n (restored l) = renumber n l := by
      induction l with
      | nil => intro n; rfl
      | cons i l ih =>
        intro n
        have e : restored (i :: l) = (if isEverywhere i then { i with data := .sid i.sid } else i) :: restored l := rfl
        rw [e, renumber, renumber, hev]
        by_cases h : isEverywhere i = true
        · simp only [if_pos h]
          rw [ih (by
            rw [nextId_eq, nextId_eq]
            congr 2
            rw [nums, nums, restored, List.filterMap_map]
            refine List.filterMap_congr ?_
            intro i _
            rw [Function.comp]
            split <;> rfl)]
        · simp only [if_neg h]
          rw [ih (by
            rw [nextId_eq, nextId_eq]
            congr 2
            rw [nums, nums, restored, List.filterMap_map]
            refine List.filterMap_congr ?_
            intro i _
            rw [Function.comp]
            split <;> rfl)]
    exact this _

/-- C72: the data of the subdomains of an integral over the whole boundary (the same object that the other integrals of the measure
have) is not the original after compiling the form. -/
theorem C72_restored_fails (i : Integral) (h : isEverywhere i = true) (t : Nat) (hd : i.data = .tags t) :
    ∃ j, restored [i] = [j] ∧ j.data ≠ i.data := by
  refine ⟨{ i with data := .sid i.sid }, by simp [restored, h], ?_⟩
  rw [hd]
  simp

theorem sorted_map_fst {E : Type} (f : Int → E) (l : List Int) (h : l.Pairwise (· ≤ ·)) :
    (l.map fun s => (s, f s)).Pairwise fun a b => a.1 ≤ b.1 := by
  rw [List.pairwise_map]
  exact h

/-- C72: for every form whose integrals over exterior facets have numbers or are over the whole boundary, if DOLFINx's check of the data
passes, then the subdomains of exterior facets given to DOLFINx are: for the integrals over the whole boundary, their new number with all
the facets of the boundary of the unfitted domain; for the numbered integrals with data, their number with the facets with that tag; no
others, in increasing order, and no number of the first ones is the number of another subdomain. -/
theorem C72_subdomains {E : Type} (entities : Data → Int → E) (boundary : E) (l : List Integral)
    (hflag : ∀ i ∈ l, i.flag = false) (hnum : ∀ i ∈ l, i.kind = .exterior → ∀ ids, i.sid ≠ .tuple ids)
    {r : List (Int × E)} (hr : subdomains entities boundary l .exterior = some r) :
    (r.Pairwise fun a b => a.1 ≤ b.1) ∧
    (∀ (k : Nat) (i j : Integral), l[k]? = some i → (modify l)[k]? = some j → isEverywhere i = true →
      ∃ n, j.sid = .num n ∧ (n, boundary) ∈ r ∧ ∀ e, (n, e) ∈ r → e = boundary) ∧
    (∀ i ∈ l, i.kind = .exterior → isEverywhere i = false → i.data ≠ .nothing → ∀ n, i.sid = .num n → (n, entities i.data n) ∈ r) ∧
    ∀ p ∈ r, (∃ i ∈ l, i.kind = .exterior ∧ isEverywhere i = false ∧ i.data ≠ .nothing ∧ i.sid = .num p.1 ∧ p.2 = entities i.data p.1) ∨
      (p.2 = boundary ∧ ∃ (k : Nat) (i j : Integral), l[k]? = some i ∧ (modify l)[k]? = some j ∧ isEverywhere i = true ∧ j.sid = .num p.1) := by
  have hC := C72_numbers l
  obtain ⟨hlen, hsame, hnew, hinc⟩ := hC
  -- members of the modified form
  have hmem : ∀ j ∈ modify l, (j ∈ l ∧ isEverywhere j = false) ∨ ∃ (k : Nat) (i : Integral) (n : Int), l[k]? = some i ∧ isEverywhere i = true ∧
      (modify l)[k]? = some j ∧ j = { i with data := .nothing, sid := .num n, flag := true } := by
    intro j hj
    obtain ⟨k, hk, rfl⟩ := List.mem_iff_getElem.1 hj
    have hk' : k < l.length := by omega
    by_cases h : isEverywhere l[k] = true
    · right
      obtain ⟨n, h1, h2, h3⟩ := hnew k l[k] (by simp) h
      refine ⟨k, l[k], n, by simp, h, by simp, ?_⟩
      rw [List.getElem?_eq_getElem hk] at h1
      exact Option.some.inj h1
    · left
      have h' : isEverywhere l[k] = false := by simpa using h
      have := hsame k l[k] (by simp) h'
      rw [List.getElem?_eq_getElem hk] at this
      rw [Option.some.inj this]
      exact ⟨by simp, h'⟩
  have hin : ∀ i ∈ l, isEverywhere i = false → i ∈ modify l := by
    intro i hi h
    obtain ⟨k, hk, rfl⟩ := List.mem_iff_getElem.1 hi
    exact List.mem_of_getElem? (hsame k l[k] (by simp) h)
  have hkind : ∀ i, isEverywhere i = true → i.kind = .exterior := by
    intro i h
    simp only [isEverywhere, Bool.and_eq_true, decide_eq_true_eq] at h
    exact h.1
  -- the numbers with data
  have hids : ∀ s, s ∈ subdomainIds (modify l) .exterior ↔
      ∃ i ∈ l, i.kind = .exterior ∧ isEverywhere i = false ∧ i.data ≠ .nothing ∧ i.sid = .num s := by
    intro s
    rw [subdomainIds, List.mem_insertionSort, List.mem_flatMap]
    constructor
    · rintro ⟨j, hj, hs⟩
      rw [List.mem_filter] at hj
      obtain ⟨hj, hj'⟩ := hj
      simp only [Bool.and_eq_true, decide_eq_true_eq] at hj'
      rcases hmem j hj with ⟨h1, h2⟩ | ⟨k, i, n, h1, h2, h3, h4⟩
      · refine ⟨j, h1, hj'.1, h2, hj'.2, ?_⟩
        cases hsid : j.sid with
        | everywhere => simp [isEverywhere, hj'.1, hsid] at h2
        | num m =>
          rw [hsid] at hs
          simp only [idsOf, List.mem_singleton] at hs
          rw [hs]
        | tuple ids => exact absurd hsid (hnum j h1 hj'.1 ids)
      · rw [h4] at hj'
        exact absurd rfl hj'.2
    · rintro ⟨i, hi, h1, h2, h3, h4⟩
      refine ⟨i, List.mem_filter.2 ⟨hin i hi h2, by simp [h1, h3]⟩, ?_⟩
      rw [h4]
      simp [idsOf]
  -- the numbers of the whole boundary
  have hev : ∀ s, s ∈ everywhereIds (modify l) ↔
      ∃ (k : Nat) (i j : Integral), l[k]? = some i ∧ (modify l)[k]? = some j ∧ isEverywhere i = true ∧ j.sid = .num s := by
    intro s
    rw [everywhereIds, List.mem_filterMap]
    constructor
    · rintro ⟨j, hj, hs⟩
      rw [List.mem_filter] at hj
      obtain ⟨hj, hj'⟩ := hj
      simp only [Bool.and_eq_true, decide_eq_true_eq] at hj'
      rcases hmem j hj with ⟨h1, h2⟩ | ⟨k, i, n, h1, h2, h3, h4⟩
      · rw [hflag j h1] at hj'
        exact absurd hj'.2 (by simp)
      · refine ⟨k, i, j, h1, h3, h2, ?_⟩
        exact (number_eq.1 hs).2
    · rintro ⟨k, i, j, h1, h2, h3, h4⟩
      obtain ⟨n, h5, _⟩ := hnew k i h1 h3
      rw [h2] at h5
      have hj := Option.some.inj h5
      refine ⟨j, List.mem_filter.2 ⟨List.mem_of_getElem? h2, ?_⟩, number_eq.2 ⟨by rw [hj]; exact hkind i h3, h4⟩⟩
      rw [hj]
      simp [hkind i h3]
  -- increasing numbers of the whole boundary
  have hevs : (everywhereIds (modify l)).Pairwise (· ≤ ·) := by
    rw [everywhereIds, List.pairwise_filterMap]
    have hpw : (modify l).Pairwise fun a b => (a.flag = true ∧ a.data = .nothing) → (b.flag = true ∧ b.data = .nothing) →
        ∀ n n', a.sid = .num n → b.sid = .num n' → n ≤ n' := by
      rw [List.pairwise_iff_getElem]
      intro k k' hk hk' hkk ha hb n n' hn hn'
      have e1 : (modify l)[k]? = some (modify l)[k] := by simp
      have e2 : (modify l)[k']? = some (modify l)[k'] := by simp
      have ev : ∀ (q : Nat) (hq : q < (modify l).length), (modify l)[q].flag = true → isEverywhere (l[q]'(by omega)) = true := by
        intro q hq hf
        by_contra hc
        have := hsame q (l[q]'(by omega)) (by simp) (by simpa using hc)
        rw [List.getElem?_eq_getElem hq] at this
        rw [Option.some.inj this, hflag _ (by simp)] at hf
        simp at hf
      exact le_of_lt (hinc k k' _ _ _ _ n n' hkk (by simp) (by simp) (ev k hk ha.1) (ev k' hk' hb.1) e1 e2 hn hn')
    refine (List.Pairwise.filter _ hpw).imp_of_mem ?_
    · intro a b ha hb hab n hn n' hn'
      rw [List.mem_filter] at ha hb
      have ha2 := ha.2
      have hb2 := hb.2
      simp only [Bool.and_eq_true, decide_eq_true_eq] at ha2 hb2
      exact hab ⟨ha2.2, ha2.1.1⟩ ⟨hb2.2, hb2.1.1⟩ n n' (number_eq.1 hn).2 (number_eq.1 hn').2
  -- numbers of the whole boundary are larger
  have hlarge : ∀ s ∈ subdomainIds (modify l) .exterior, ∀ s' ∈ everywhereIds (modify l), s < s' := by
    intro s hs s' hs'
    obtain ⟨i, hi, h1, h2, h3, h4⟩ := (hids s).1 hs
    obtain ⟨k, i', j', g1, g2, g3, g4⟩ := (hev s').1 hs'
    obtain ⟨n, f1, f2, f3⟩ := hnew k i' g1 g3
    rw [g2] at f1
    rw [Option.some.inj f1] at g4
    simp only [Sid.num.injEq] at g4
    rw [← g4]
    exact f3 i hi h1 s h4
  -- the result
  unfold subdomains at hr
  simp only at hr
  cases hf : (modify l).filter fun i => decide (i.kind = .exterior) with
  | nil =>
    simp only [hf, Option.some.injEq] at hr
    subst hr
    have hnone : ∀ j ∈ modify l, j.kind ≠ .exterior := by
      intro j hj hk
      have := List.filter_eq_nil_iff.1 hf j hj
      simp [hk] at this
    refine ⟨List.Pairwise.nil, ?_, ?_, by simp⟩
    · intro k i j hk hj h
      obtain ⟨n, h1, _⟩ := hnew k i hk h
      exact absurd (hkind i h) (by
        have := hnone _ (List.mem_of_getElem? h1)
        simpa using this)
    · intro i hi hk h
      exact absurd hk (hnone i (hin i hi h))
  | cons i0 is =>
    simp only [hf] at hr
    split at hr
    · exact absurd hr (by simp)
    · next hall =>
      simp only [if_true, Option.some.injEq] at hr
      have hall' : ∀ j ∈ modify l, j.kind = .exterior → j.data = .nothing ∨ j.data = i0.data := by
        intro j hj hk
        have hj' : j ∈ i0 :: is := by
          rw [← hf]
          exact List.mem_filter.2 ⟨hj, by simp [hk]⟩
        rcases List.mem_cons.1 hj' with rfl | hj'
        · exact Or.inr rfl
        · rw [Bool.not_eq_false, List.all_eq_true] at hall
          simpa using hall j hj'
      have hdom : ∀ p : Int × E, p ∈ integrationDomains entities i0.data (subdomainIds (modify l) .exterior) ↔
          p.1 ∈ subdomainIds (modify l) .exterior ∧ p.2 = entities i0.data p.1 := by
        intro p
        unfold integrationDomains
        by_cases hd : i0.data = .nothing
        · rw [if_pos hd]
          constructor
          · simp
          · rintro ⟨hp, _⟩
            obtain ⟨i, hi, h1, h2, h3, h4⟩ := (hids p.1).1 hp
            rcases hall' i (hin i hi h2) h1 with h | h
            · exact absurd h h3
            · exact absurd (h.trans hd) h3
        · rw [if_neg hd, List.mem_map]
          constructor
          · rintro ⟨s, hs, rfl⟩; exact ⟨hs, rfl⟩
          · rintro ⟨hs, h⟩; exact ⟨p.1, hs, Prod.ext rfl h.symm⟩
      subst hr
      refine ⟨?_, ?_, ?_, ?_⟩
      · rw [List.pairwise_append]
        refine ⟨?_, sorted_map_fst _ _ hevs, ?_⟩
        · unfold integrationDomains
          split
          · exact List.Pairwise.nil
          · exact sorted_map_fst _ _ (List.pairwise_insertionSort _ _)
        · intro a ha b hb
          rw [List.mem_map] at hb
          obtain ⟨s, hs, rfl⟩ := hb
          exact le_of_lt (hlarge _ ((hdom a).1 ha).1 _ hs)
      · intro k i j hk hj h
        obtain ⟨n, h1, h2, h3⟩ := hnew k i hk h
        rw [hj] at h1
        have hs : j.sid = .num n := by rw [Option.some.inj h1]
        have hn : n ∈ everywhereIds (modify l) := (hev n).2 ⟨k, i, j, hk, hj, h, hs⟩
        refine ⟨n, hs, List.mem_append_right _ (List.mem_map.2 ⟨n, hn, rfl⟩), ?_⟩
        intro e he
        rw [List.mem_append] at he
        rcases he with he | he
        · exact absurd (hlarge n ((hdom _).1 he).1 n hn) (lt_irrefl n)
        · obtain ⟨s, _, hse⟩ := List.mem_map.1 he
          exact (Prod.ext_iff.1 hse).2.symm
      · intro i hi hk h hd n hn
        refine List.mem_append_left _ ((hdom _).2 ⟨(hids n).2 ⟨i, hi, hk, h, hd, hn⟩, ?_⟩)
        rcases hall' i (hin i hi h) hk with h' | h'
        · exact absurd h' hd
        · rw [h']
      · intro p hp
        rw [List.mem_append] at hp
        rcases hp with hp | hp
        · left
          obtain ⟨hs, he⟩ := (hdom p).1 hp
          obtain ⟨i, hi, h1, h2, h3, h4⟩ := (hids p.1).1 hs
          refine ⟨i, hi, h1, h2, h3, h4, ?_⟩
          rcases hall' i (hin i hi h2) h1 with h' | h'
          · exact absurd h' h3
          · rw [he, h']
        · right
          obtain ⟨s, hs, rfl⟩ := List.mem_map.1 hp
          exact ⟨rfl, (hev s).1 hs⟩

/-- C72: an integral over the whole boundary before a numbered one, both of the same measure with tags: the check of the data fails; in the
other order it does not. (UFL sorts the integrals of a form.) -/
theorem C72_order_fails {E : Type} (entities : Data → Int → E) (boundary : E) (t r r' : Nat) (n : Int) (hn : 0 ≤ n) :
    subdomains entities boundary [⟨.exterior, .everywhere, .tags t, false, r⟩, ⟨.exterior, .num n, .tags t, false, r'⟩] .exterior = none ∧
    subdomains entities boundary [⟨.exterior, .num n, .tags t, false, r'⟩, ⟨.exterior, .everywhere, .tags t, false, r⟩] .exterior
      = some [(n, entities (.tags t) n), (n + 1, boundary)] := by
  have hne : n ≠ -1 := by omega
  have e1 : max (-1) n = n := by omega
  constructor
  · simp [subdomains, modify, modifyFrom, isEverywhere, hne]
  · simp [subdomains, modify, modifyFrom, isEverywhere, hne, nextId, number, e1, subdomainIds, everywhereIds, integrationDomains, idsOf]
    rfl

/-- C72: numbers inside tuples are not taken into account: the number of the integral over the whole boundary may be one of them. -/
theorem C72_tuple_fails (t r r' : Nat) (ids : List (Option Int)) :
    (modify [⟨.exterior, .tuple ids, .tags t, false, r⟩, ⟨.exterior, .everywhere, .nothing, false, r'⟩]).map (fun i => i.sid)
      = [.tuple ids, .num 0] := by
  simp [modify, modifyFrom, isEverywhere, nextId]
  rfl

/-! ### Lists of forms -/

mutual
theorem flatten_nil : ∀ l : List Output, (∀ o ∈ l, ∀ l', o = .list l' → l' = []) → flatten l = []
  | [], _ => by rw [flatten]
  | .list l' :: os, h => by
    rw [flatten, h (.list l') (List.mem_cons_self ..) l' rfl, flatten, flatten_nil os fun o ho => h o (List.mem_cons_of_mem _ ho)]
    rfl
  | .nothing :: os, h => by rw [flatten, flatten_nil os fun o ho => h o (List.mem_cons_of_mem _ ho)]
  | .compiled _ :: os, h => by rw [flatten, flatten_nil os fun o ho => h o (List.mem_cons_of_mem _ ho)]
end

mutual
theorem createForm_list : ∀ i : Input, ∀ l', createForm i = .list l' → l' = []
  | .empty, l', h => by rw [createForm] at h; cases h
  | .form f, l', h => by rw [createForm] at h; cases h
  | .many l, l', h => by
    rw [createForm] at h
    cases h
    exact flatten_nil _ (createForms_list l)

theorem createForms_list : ∀ l : List Input, ∀ o ∈ createForms l, ∀ l', o = .list l' → l' = []
  | [], o, h, _, _ => by rw [createForms] at h; exact absurd h List.not_mem_nil
  | i :: is, o, h, l', e => by
    rw [createForms, List.mem_cons] at h
    rcases h with rfl | h
    · exact createForm_list i l' e
    · exact createForms_list is o h l' e
end

/-- C72: a form gives its compiled form, an empty form gives `None`. -/
theorem C72_single (f : Nat) : createForm (.form f) = .compiled f ∧ createForm .empty = .nothing := by
  constructor <;> rw [createForm]

/-- C72: a list of forms, however nested and whatever it contains, gives the empty list: all the compiled forms are dropped. -/
theorem C72_lists_fail (l : List Input) : createForm (.many l) = .list [] := by
  have := createForm_list (.many l)
  rw [createForm] at this ⊢
  rw [this _ rfl]

/-! ### Quadratures -/

theorem quadOf_append (l : List QuadData) (q : QuadData) (name : Rule) :
    quadOf (l ++ [q]) name = if q.rule = name then some q else quadOf l name := by
  simp [quadOf, List.foldl_append]

/-- C72: if all the integrals of a form with the same rule (points and weights) have the same degree and kind, every integral finds its
own degree and kind. -/
theorem C72_degrees_partial (l : List QuadData) (h : ∀ q ∈ l, ∀ q' ∈ l, q.rule = q'.rule → q = q') :
    ∀ q ∈ l, quadOf l q.rule = some q := by
  induction l using List.reverseRecOn with
  | nil => simp
  | append_singleton l x ih =>
    intro q hq
    rw [quadOf_append]
    by_cases hx : x.rule = q.rule
    · rw [if_pos hx, h x (by simp) q hq hx]
    · rw [if_neg hx]
      refine ih (fun a ha b hb => h a (by simp [ha]) b (by simp [hb])) q ?_
      rw [List.mem_append] at hq
      rcases hq with hq | hq
      · exact hq
      · simp only [List.mem_singleton] at hq
        exact absurd (by rw [hq]) hx

/-- C72: two integrals over unfitted boundaries, with measures of different degrees, anywhere in a form: the degree of the last one is used
in both. -/
theorem C72_degrees_fail (l l' l'' : List QuadData) (tdim d d' : Nat) (hd : d ≠ d') (hl : ∀ q ∈ l'', q.rule ≠ .boundary tdim) :
    quadOf (l ++ ⟨.boundary tdim, d, true⟩ :: l' ++ ⟨.boundary tdim, d', true⟩ :: l'') (.boundary tdim) = some ⟨.boundary tdim, d', true⟩ ∧
    (⟨.boundary tdim, d', true⟩ : QuadData) ≠ ⟨.boundary tdim, d, true⟩ := by
  refine ⟨?_, by simp [Ne.symm hd]⟩
  induction l'' using List.reverseRecOn with
  | nil => rw [quadOf_append, if_pos rfl]
  | append_singleton l'' x ih =>
    rw [← List.cons_append, ← List.append_assoc, quadOf_append, if_neg (hl x (by simp))]
    exact ih fun q hq => hl q (by simp [hq])

/-! ### Subdomains of integrals -/

/-- C72: the subdomains found for an integral are exactly those with its name, if its name is used in one form and type of integrals only. -/
theorem C72_ids (forms : List (List (List (Int × Nat)))) (name : Nat) (t : List (Int × Nat)) (ht : t ∈ forms.flatten)
    (hne : ∃ p ∈ t, p.2 = name) (huniq : ∀ t' ∈ forms.flatten, (∃ p ∈ t', p.2 = name) → t' = t) (s : Int) :
    s ∈ integralIds forms name ↔ (s, name) ∈ t := by
  have hfind : (forms.flatten.map fun t => (t.filter fun p => p.2 = name).map Prod.fst).find? (fun ids => !ids.isEmpty)
      = some ((t.filter fun p => p.2 = name).map Prod.fst) := by
    cases hf : (forms.flatten.map fun t => (t.filter fun p => p.2 = name).map Prod.fst).find? (fun ids => !ids.isEmpty) with
    | none =>
      rw [List.find?_eq_none] at hf
      have := hf _ (List.mem_map_of_mem ht)
      obtain ⟨p, hp, hpn⟩ := hne
      simp only [Bool.not_eq_true', Bool.not_eq_false, List.isEmpty_iff, List.map_eq_nil_iff, List.filter_eq_nil_iff] at this
      exact absurd (by simpa using hpn) (this p hp)
    | some ids =>
      have h1 := List.find?_some hf
      have h2 := List.mem_of_find?_eq_some hf
      obtain ⟨t', ht', rfl⟩ := List.mem_map.1 h2
      have : t' = t := by
        refine huniq t' ht' ?_
        by_contra hc
        have : t'.filter (fun p => decide (p.2 = name)) = [] := by
          rw [List.filter_eq_nil_iff]
          intro p hp hpn
          exact hc ⟨p, hp, by simpa using hpn⟩
        rw [this] at h1
        simp at h1
      rw [this]
  rw [integralIds, hfind, Option.getD_some, List.mem_map]
  constructor
  · rintro ⟨p, hp, rfl⟩
    rw [List.mem_filter] at hp
    have : p.2 = name := by simpa using hp.2
    rw [← this]
    exact hp.1
  · intro h
    exact ⟨(s, name), List.mem_filter.2 ⟨h, by simp⟩, rfl⟩

/-! ### Examples -/

/-- `f*ds(3) + g*ds + h*ds(degree) + u*dx`. -/
def exampleForm : List Integral :=
  [⟨.exterior, .num 3, .tags 7, false, 0⟩, ⟨.exterior, .everywhere, .tags 7, false, 1⟩, ⟨.exterior, .num (-1), .tags 7, false, 2⟩,
   ⟨.cell, .everywhere, .nothing, false, 3⟩]

example : (modify exampleForm).map (fun i => i.sid) = [.num 3, .num 4, .num 5, .everywhere] := by decide

example : subdomains (fun _ n => [n]) [100] exampleForm .exterior = some [(3, [3]), (4, [100]), (5, [100])] := by decide

example : quadOf [⟨.standard 1, 2, false⟩, ⟨.boundary 2, 6, true⟩, ⟨.boundary 2, 2, true⟩] (.boundary 2) = some ⟨.boundary 2, 2, true⟩ := by decide

example : integralIds [[[(1, 5), (2, 6), (3, 5)], [(1, 7)]]] 5 = [1, 3] := by decide

end Qugar.Py.Forms
