import Verif.Model.PyMesh
import Verif.Props.PyNumbering
import Mathlib.Data.List.Perm.Basic
import Mathlib.Tactic.Ring
/-
Lemmas for C64: arrays, search, merging of nodes.
-/
namespace Qugar.Py

theorem take_ok {α : Type} {a : List α} {idx : List Nat} (h : ∀ i ∈ idx, i < a.length) :
    ∃ r, take a idx = some r ∧ r.length = idx.length ∧ ∀ (k i : Nat), idx[k]? = some i → r[k]? = a[i]? := by
  induction idx with
  | nil => exact ⟨[], rfl, rfl, by simp⟩
  | cons i idx ih =>
    obtain ⟨r, h1, h2, h3⟩ := ih fun j hj => h j (List.mem_cons_of_mem _ hj)
    have hi := h i (List.mem_cons_self ..)
    have h1' : idx.mapM (fun i => a[i]?) = some r := h1
    refine ⟨a[i] :: r, ?_, by simp [h2], ?_⟩
    · unfold take
      rw [List.mapM_cons, h1', List.getElem?_eq_getElem hi]; rfl
    · intro k j hk
      cases k with
      | zero => simp at hk; subst hk; rw [List.getElem?_eq_getElem hi]; rfl
      | succ k => simp at hk ⊢; exact h3 k j hk

theorem take_inv {α : Type} {a : List α} {idx : List Nat} {r : List α} (h : take a idx = some r) : ∀ i ∈ idx, i < a.length := by
  induction idx generalizing r with
  | nil => simp
  | cons i idx ih =>
    unfold take at h
    rw [List.mapM_cons] at h
    cases hi : a[i]? with
    | none => rw [hi] at h; simp at h
    | some x =>
      cases ht : take a idx with
      | none =>
        have ht' : idx.mapM (fun i => a[i]?) = none := ht
        rw [hi, ht'] at h; simp at h
      | some r' =>
        intro j hj
        rcases List.mem_cons.1 hj with rfl | hj
        · exact (List.getElem?_eq_some_iff.1 hi).1
        · exact ih ht j hj

theorem take_spec {α : Type} {a : List α} {idx : List Nat} {r : List α} (h : take a idx = some r) :
    r.length = idx.length ∧ ∀ (k i : Nat), idx[k]? = some i → i < a.length ∧ r[k]? = a[i]? := by
  obtain ⟨r', h1, h2, h3⟩ := take_ok (take_inv h)
  rw [h] at h1
  obtain rfl := Option.some.inj h1
  exact ⟨h2, fun k i hk => ⟨take_inv h i (List.mem_of_getElem? hk), h3 k i hk⟩⟩

theorem take_map {α : Type} {n : Nat} (f : Nat → α) {l : List Nat} (h : ∀ i ∈ l, i < n) :
    take ((List.range n).map f) l = some (l.map f) := by
  refine mapM_some _ _ _ fun i hi => ?_
  simp [h i hi]

theorem mapM_spec {α β : Type} {f : α → Option β} {l : List α} {r : List β} (h : l.mapM f = some r) :
    r.length = l.length ∧ ∀ (k : Nat) a, l[k]? = some a → ∃ b, f a = some b ∧ r[k]? = some b := by
  induction l generalizing r with
  | nil =>
    rw [List.mapM_nil] at h
    obtain rfl := Option.some.inj h
    exact ⟨rfl, by simp⟩
  | cons x l ih =>
    rw [List.mapM_cons] at h
    cases hx : f x with
    | none => rw [hx] at h; simp at h
    | some y =>
      cases ht : l.mapM f with
      | none => rw [hx, ht] at h; simp at h
      | some r' =>
        rw [hx, ht] at h
        obtain rfl := Option.some.inj h
        obtain ⟨h1, h2⟩ := ih ht
        refine ⟨by simp [h1], fun k a hk => ?_⟩
        cases k with
        | zero => simp at hk; subst hk; exact ⟨y, hx, rfl⟩
        | succ k => simp at hk ⊢; exact h2 k a hk

theorem mapM_ok {α β : Type} {f : α → Option β} {l : List α} (h : ∀ a ∈ l, (f a).isSome) : ∃ r, l.mapM f = some r := by
  induction l with
  | nil => exact ⟨[], rfl⟩
  | cons x l ih =>
    obtain ⟨r, hr⟩ := ih fun a ha => h a (List.mem_cons_of_mem _ ha)
    obtain ⟨y, hy⟩ := Option.isSome_iff_exists.1 (h x (List.mem_cons_self ..))
    exact ⟨y :: r, by rw [List.mapM_cons, hy, hr]; rfl⟩

/-- `index` sorts `all`: what `np.argsort` guarantees. -/
def IsArgsort (all : List Int) (index : List Nat) : Prop :=
  index.Perm (List.range all.length) ∧ (index.map fun i => all.getD i 0).Pairwise (· ≤ ·)

theorem takeWhile_length_lt {S : List Int} {v : Int} (hS : S.Pairwise (· ≤ ·)) (hv : v ∈ S) :
    ∃ h : searchSorted S v < S.length, S[searchSorted S v] = v := by
  unfold searchSorted
  induction S with
  | nil => simp at hv
  | cons a S ih =>
    rw [List.pairwise_cons] at hS
    by_cases ha : a < v
    · rw [List.takeWhile_cons_of_pos (by simpa using ha)]
      rcases List.mem_cons.1 hv with rfl | hv
      · exact absurd ha (by omega)
      · obtain ⟨h1, h2⟩ := ih hS.2 hv
        exact ⟨by simpa using h1, by simpa using h2⟩
    · rw [List.takeWhile_cons_of_neg (by simpa using ha)]
      refine ⟨by simp, ?_⟩
      rcases List.mem_cons.1 hv with rfl | hv
      · rfl
      · have := hS.1 v hv
        simp; omega

/-- One value of `_find_in_array`. -/
theorem find_spec {argsort : List Int → List Nat} {values all : List Int} (hs : IsArgsort all (argsort all))
    (hne : all ≠ [] ∨ values = []) :
    ∃ r, findInArray argsort values all = some r ∧ r.length = values.length ∧
      ∀ (k : Nat) v, values[k]? = some v →
        (v ∉ all → r[k]? = some (-1)) ∧ (v ∈ all → ∃ i : Nat, r[k]? = some (i : Int) ∧ all[i]? = some v) := by
  obtain ⟨hp, hsrt⟩ := hs
  unfold findInArray
  generalize argsort all = index at hp hsrt ⊢
  have hlen : index.length = all.length := by rw [hp.length_eq, List.length_range]
  have hlt : ∀ i ∈ index, i < all.length := fun i hi => List.mem_range.1 (hp.mem_iff.1 hi)
  have hst : take all index = some (index.map fun i => all.getD i 0) := by
    refine mapM_some _ _ _ fun i hi => ?_
    rw [List.getElem?_eq_getElem (hlt i hi), List.getD_eq_getElem _ _ (hlt i hi)]
  have hmem : ∀ v, v ∈ all → v ∈ index.map fun i => all.getD i 0 := by
    intro v hv
    obtain ⟨i, hi, rfl⟩ := List.mem_iff_getElem.1 hv
    exact List.mem_map.2 ⟨i, hp.mem_iff.2 (List.mem_range.2 hi), List.getD_eq_getElem _ _ hi⟩
  have hone : ∀ v, all ≠ [] → ∃ i, index[min (searchSorted (index.map fun i => all.getD i 0) v) (index.length - 1)]? = some i ∧
      ∃ a, all[i]? = some a ∧ (v ∈ all → a = v) := by
    intro v hall
    have hpos : 0 < all.length := List.length_pos_iff.2 hall
    have hm : min (searchSorted (index.map fun i => all.getD i 0) v) (index.length - 1) < index.length := by omega
    refine ⟨_, List.getElem?_eq_getElem hm, _, List.getElem?_eq_getElem (hlt _ (List.getElem_mem hm)), fun hv => ?_⟩
    obtain ⟨h1, h2⟩ := takeWhile_length_lt hsrt (hmem v hv)
    have h1' : searchSorted (index.map fun i => all.getD i 0) v < index.length := by simpa using h1
    have e : min (searchSorted (index.map fun i => all.getD i 0) v) (index.length - 1) =
        searchSorted (index.map fun i => all.getD i 0) v := by omega
    rw [List.getElem_map] at h2
    rw [List.getD_eq_getElem _ _ (hlt _ (List.getElem_mem h1'))] at h2
    simpa only [e] using h2
  simp only [hst, Option.bind_some]
  have hok : ∃ r, values.mapM (fun v =>
      (index[min (searchSorted (index.map fun i => all.getD i 0) v) (index.length - 1)]?).bind fun i =>
        (all[i]?).map fun a => if a != v then -1 else (i : Int)) = some r := by
    refine mapM_ok fun v hv => ?_
    obtain ⟨i, h1, a, h2, -⟩ := hone v (hne.resolve_right (List.ne_nil_of_mem hv))
    simp only [h1, Option.bind_some, h2, Option.map_some, Option.isSome_some]
  obtain ⟨r, hr⟩ := hok
  obtain ⟨hr1, hr2⟩ := mapM_spec hr
  refine ⟨r, hr, hr1, fun k v hk => ?_⟩
  obtain ⟨b, hb, hb2⟩ := hr2 k v hk
  obtain ⟨i, h1, a, h2, h3⟩ := hone v (hne.resolve_right (List.ne_nil_of_mem (List.mem_of_getElem? hk)))
  simp only [h1, Option.bind_some, h2, Option.map_some] at hb
  have hb := Option.some.inj hb
  constructor
  · intro hv
    have : a ≠ v := by rintro rfl; exact hv (List.mem_of_getElem? h2)
    rw [if_pos (by simpa using this)] at hb
    rw [hb2, hb]
  · intro hv
    rw [if_neg (by simpa using h3 hv)] at hb
    exact ⟨i, by rw [hb2, hb], by rw [h2, h3 hv]⟩

/-! ### Merging -/

theorem foldl_set_spec (pairs : List (Nat × Nat)) (a : List Nat) (n : Nat) (ha : a.length = n) (j : Nat) (hj : j < n) :
    (pairs.foldl (fun a p => a.set p.2 p.1) a).length = n ∧
    (((pairs.foldl (fun a p => a.set p.2 p.1) a)[j]? = a[j]? ∧ ∀ p ∈ pairs, p.2 ≠ j) ∨
      ∃ i, (i, j) ∈ pairs ∧ (pairs.foldl (fun a p => a.set p.2 p.1) a)[j]? = some i) := by
  induction pairs generalizing a with
  | nil => exact ⟨ha, .inl ⟨rfl, by simp⟩⟩
  | cons p pairs ih =>
    obtain ⟨h1, h2⟩ := ih (a.set p.2 p.1) (by simpa using ha)
    refine ⟨h1, ?_⟩
    rcases h2 with ⟨h2, h3⟩ | ⟨i, h2, h3⟩
    · by_cases hp : p.2 = j
      · right
        refine ⟨p.1, by rw [← hp]; exact List.mem_cons_self .., ?_⟩
        rw [List.foldl_cons, h2, hp, List.getElem?_set_self (by omega)]
      · left
        refine ⟨by rw [List.foldl_cons, h2, List.getElem?_set_ne hp], ?_⟩
        intro q hq
        rcases List.mem_cons.1 hq with rfl | hq
        · exact hp
        · exact h3 q hq
    · exact .inr ⟨i, List.mem_cons_of_mem _ h2, h3⟩

theorem sum_lt {L : List Nat} {f g : Nat → Nat} (h : ∀ x ∈ L, g x ≤ f x) (hne : L.map g ≠ L.map f) :
    (L.map g).sum < (L.map f).sum := by
  induction L with
  | nil => simp at hne
  | cons a L ih =>
    have ha := h a (List.mem_cons_self ..)
    have hL : ∀ x ∈ L, g x ≤ f x := fun x hx => h x (List.mem_cons_of_mem _ hx)
    have hle : (L.map g).sum ≤ (L.map f).sum := by
      clear ih hne h
      induction L with
      | nil => simp
      | cons b L ih =>
        have := hL b (List.mem_cons_self ..)
        have := ih fun x hx => hL x (List.mem_cons_of_mem _ hx)
        simp; omega
    simp only [List.map_cons, List.sum_cons]
    by_cases he : g a = f a
    · have : L.map g ≠ L.map f := by
        intro hc; apply hne; simp [he, hc]
      have := ih hL this
      omega
    · omega

/-- The loop of the merging: `root f j`, when `f` goes down, ends at the fixed points of `f`. -/
theorem converge_spec {n : Nat} (R : Nat → Nat → Prop) (hR : ∀ a b c, R a b → R b c → R a c) (root : Nat → Prop)
    (f : Nat → Nat) (hf : ∀ j, j < n → f j ≤ j ∧ R (f j) j ∧ (f j = j ↔ root j)) (fuel : Nat)
    (hfuel : ((List.range n).map f).sum < fuel) :
    ∃ g : Nat → Nat, converge fuel ((List.range n).map f) = some ((List.range n).map g) ∧
      ∀ j, j < n → g j ≤ j ∧ R (g j) j ∧ (g j = j ↔ root j) ∧ root (g j) := by
  induction fuel generalizing f with
  | zero => omega
  | succ fuel ih =>
    have hlt : ∀ i ∈ (List.range n).map f, i < n := by
      intro i hi
      obtain ⟨j, hj, rfl⟩ := List.mem_map.1 hi
      have hj := List.mem_range.1 hj
      have := (hf j hj).1
      omega
    have ht := take_map f hlt
    rw [List.map_map] at ht
    unfold converge
    rw [ht, Option.bind_some]
    have hff : ∀ j, j < n → (f ∘ f) j ≤ j ∧ R ((f ∘ f) j) j ∧ ((f ∘ f) j = j ↔ root j) := by
      intro j hj
      obtain ⟨h1, h2, h3⟩ := hf j hj
      obtain ⟨k1, k2, k3⟩ := hf (f j) (by omega)
      refine ⟨k1.trans h1, hR _ _ _ k2 h2, ?_⟩
      constructor
      · intro he
        have he' : f (f j) = j := he
        exact h3.1 (by omega)
      · intro hr
        have := h3.2 hr
        show f (f j) = j
        rw [this, this]
    by_cases he : (List.range n).map (f ∘ f) = (List.range n).map f
    · rw [if_pos he]
      refine ⟨f ∘ f, rfl, fun j hj => ⟨(hff j hj).1, (hff j hj).2.1, (hff j hj).2.2, ?_⟩⟩
      have e : ∀ j, j < n → f (f j) = f j := by
        intro j hj
        have : ((List.range n).map (f ∘ f))[j]? = ((List.range n).map f)[j]? := by rw [he]
        simpa [hj] using this
      have hlt' : f j < n := lt_of_le_of_lt (hf j hj).1 hj
      show root (f (f j))
      rw [e j hj]
      exact (hf (f j) hlt').2.2.1 (e j hj)
    · rw [if_neg he]
      refine ih (f ∘ f) hff ?_
      have := sum_lt (L := List.range n) (f := f) (g := f ∘ f) (fun x hx => by
        have h := (hf x (List.mem_range.1 hx)).1
        have := (hf (f x) (by have := List.mem_range.1 hx; omega)).1
        exact this) he
      omega

theorem npUnique_spec (l : List Nat) : (npUnique l).Pairwise (· < ·) ∧ ∀ x, x ∈ npUnique l ↔ x ∈ l := by
  unfold npUnique
  have hs : (l.insertionSort (· ≤ ·)).Pairwise (· ≤ ·) := List.pairwise_insertionSort _ l
  have h1 := hs.sublist (List.dedup_sublist _)
  have h2 : (l.insertionSort (· ≤ ·)).dedup.Nodup := List.nodup_dedup _
  refine ⟨?_, fun x => by rw [List.mem_dedup, (List.perm_insertionSort _ l).mem_iff]⟩
  exact (h1.and h2).imp fun h => by omega

theorem masterToNew_spec {n : Nat} {u : List Nat} {junk : Nat → Nat} (hu : u.Nodup) (hlt : ∀ i ∈ u, i < n) :
    (masterToNew n u junk).length = n ∧ ∀ (k i : Nat), u[k]? = some i → (masterToNew n u junk)[i]? = some k := by
  unfold masterToNew
  have hlen : ((List.range n).map junk).length = n := by simp
  generalize (List.range n).map junk = a at hlen
  have e : u.zipIdx.foldl (fun (a : List Nat) p => a.set p.1 p.2) a =
      (u.zipIdx.map Prod.swap).foldl (fun a p => a.set p.2 p.1) a := by
    rw [List.foldl_map]; rfl
  rw [e]
  by_cases hn : 0 < n
  · refine ⟨(foldl_set_spec _ a n hlen 0 hn).1, fun k i hk => ?_⟩
    have hi := hlt i (List.mem_of_getElem? hk)
    have hmem : (k, i) ∈ u.zipIdx.map Prod.swap := by
      refine List.mem_map.2 ⟨(i, k), ?_, rfl⟩
      rw [List.mem_zipIdx_iff_getElem?]; exact hk
    rcases (foldl_set_spec (u.zipIdx.map Prod.swap) a n hlen i hi).2 with ⟨-, h⟩ | ⟨k', h, h'⟩
    · exact absurd rfl (h _ hmem)
    · rw [h']
      obtain ⟨⟨i', k''⟩, hm, he⟩ := List.mem_map.1 h
      obtain ⟨rfl, rfl⟩ : k'' = k' ∧ i' = i := by simpa [Prod.swap] using he
      rw [List.mem_zipIdx_iff_getElem?] at hm
      have h1 : u[k'']? = some i' := hm
      obtain ⟨hk1, e1⟩ := List.getElem?_eq_some_iff.1 h1
      obtain ⟨hk2, e2⟩ := List.getElem?_eq_some_iff.1 hk
      exact congrArg some ((List.Nodup.getElem_inj_iff hu).1 (e1.trans e2.symm))
  · obtain rfl : n = 0 := by omega
    have : u = [] := by
      cases u with
      | nil => rfl
      | cons i _ => exact absurd (hlt i (List.mem_cons_self ..)) (by omega)
    subst this
    exact ⟨by simpa using hlen, by simp⟩

end Qugar.Py
