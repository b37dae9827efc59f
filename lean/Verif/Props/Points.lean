import Verif.Lemmas.Points
import Mathlib.Tactic.NormNum
/-
Property theorems C37 (identification of coincident points).
-/
namespace Qugar.Points
open Spec
variable {K : Type} [Field K] [LinearOrder K] [IsStrictOrderedRing K]

/-- The map of `find_coincident_points`: representatives. -/
theorem findCoincident_spec (srt : (Nat → K) → List Nat → List Nat) (hsrt : IsSort srt) (dim : Nat)
    (points : List (List K)) (tol : K) :
    (findCoincident srt dim points tol).length = points.length ∧
    (∀ i, i < points.length → (findCoincident srt dim points tol).getD i 0 < points.length ∧
      (findCoincident srt dim points tol).getD ((findCoincident srt dim points tol).getD i 0) 0 =
        (findCoincident srt dim points tol).getD i 0) ∧
    ∀ i, i < points.length → ∀ j, j < points.length →
      ((findCoincident srt dim points tol).getD i 0 = (findCoincident srt dim points tol).getD j 0 ↔
        Identified tol (coord points) (dim - 1) (· < points.length) i j) := by
  have hfresh : Fresh (List.range points.length) (List.range points.length) := by
    intro i hi
    rw [List.mem_range] at hi
    simp [hi]
  have hset : (fun a => a ∈ List.range points.length) = fun a => a < points.length := by funext a; rw [List.mem_range]
  obtain ⟨m, hm⟩ : ∃ m, m = findCoincident srt dim points tol := ⟨_, rfl⟩
  have h : LocalSpec (List.range points.length) (Identified tol (coord points) (dim - 1) (· < points.length))
      (List.range points.length) m := by
    unfold findCoincident at hm
    dsimp only at hm
    by_cases hn : 1 < points.length
    · rw [if_pos hn] at hm
      rw [hm, ← hset]
      exact findSub_spec srt hsrt points tol _ _ _ List.nodup_range hfresh
    · rw [if_neg hn] at hm
      rw [hm]
      exact localSpec_id _ _ _ hfresh (by rw [List.length_range]; omega) (fun i _ => identified_refl _)
  rw [← hm]
  refine ⟨by rw [h.len, List.length_range], fun i hi => ⟨List.mem_range.1 (h.mem i (List.mem_range.2 hi)),
    h.idem i (List.mem_range.2 hi)⟩, fun i hi j hj => h.same i (List.mem_range.2 hi) j (List.mem_range.2 hj)⟩

/-- Positions of the fixed points of the map below `n`. -/
def reps (u : List Nat) (n : Nat) : List Nat := (List.range n).filter fun i => decide (u.getD i 0 = i)

theorem reps_succ (u : List Nat) (n : Nat) :
    reps u (n + 1) = if u.getD n 0 = n then reps u n ++ [n] else reps u n := by
  unfold reps
  rw [List.range_succ, List.filter_append, List.filter_singleton]
  by_cases h : u.getD n 0 = n
  · rw [if_pos h, decide_eq_true h]; rfl
  · rw [if_neg h, decide_eq_false h]; exact List.append_nil _

theorem reps_getD (u : List Nat) {r n : Nat} (hr : r < n) (hu : u.getD r 0 = r) :
    (reps u r).length < (reps u n).length ∧ (reps u n).getD (reps u r).length 0 = r := by
  induction n with
  | zero => omega
  | succ n ih =>
    rw [reps_succ]
    rcases Nat.lt_or_ge r n with h | h
    · obtain ⟨h1, h2⟩ := ih h
      split_ifs
      · refine ⟨by rw [List.length_append]; omega, ?_⟩
        rw [List.getD_eq_getElem?_getD, List.getElem?_append_left h1, ← List.getD_eq_getElem?_getD]
        exact h2
      · exact ⟨h1, h2⟩
    · obtain rfl : r = n := by omega
      rw [if_pos hu]
      refine ⟨by simp, ?_⟩
      simp [List.getD_eq_getElem?_getD]

theorem mem_reps {u : List Nat} {n i : Nat} : i ∈ reps u n ↔ i < n ∧ u.getD i 0 = i := by
  simp [reps]

omit [IsStrictOrderedRing K] [LinearOrder K] [Field K] in
theorem getD_set (l : List Nat) (i j v : Nat) (hi : i < l.length) :
    (l.set i v).getD j 0 = if j = i then v else l.getD j 0 := by
  rw [List.getD_eq_getElem?_getD, List.getElem?_set]
  by_cases h : j = i
  · subst h
    rw [if_pos rfl, if_pos hi, if_pos rfl, Option.getD_some]
  · rw [if_neg (Ne.symm h), if_neg h, List.getD_eq_getElem?_getD]

omit [IsStrictOrderedRing K] [LinearOrder K] in
theorem uniqueLoop_spec (points : List (List K)) (u : List Nat) (k : Nat) (hk : k ≤ points.length) :
    let s := (List.range k).foldl (fun (s : List Nat × Nat × List (List K)) i =>
      if u.getD i 0 = i then (s.1.set i s.2.1, s.2.1 + 1, s.2.2 ++ [points.getD i []]) else s)
      (List.replicate points.length 0, 0, [])
    s.1.length = points.length ∧ s.2.1 = (reps u k).length ∧ s.2.2 = (reps u k).map (points.getD · []) ∧
      ∀ r, r < k → u.getD r 0 = r → s.1.getD r 0 = (reps u r).length := by
  induction k with
  | zero => simp [reps]
  | succ k ih =>
    obtain ⟨h1, h2, h3, h4⟩ := ih (by omega)
    dsimp only at h1 h2 h3 h4 ⊢
    rw [List.range_succ, List.foldl_append, List.foldl_cons, List.foldl_nil]
    generalize (List.range k).foldl (fun (s : List Nat × Nat × List (List K)) i =>
      if u.getD i 0 = i then (s.1.set i s.2.1, s.2.1 + 1, s.2.2 ++ [points.getD i []]) else s)
      (List.replicate points.length 0, 0, []) = s at *
    by_cases h : u.getD k 0 = k
    · rw [if_pos h]
      have hr := reps_succ u k
      rw [if_pos h] at hr
      rw [hr]
      refine ⟨by rw [List.length_set, h1], by simp [h2], by rw [List.map_append, h3]; rfl, fun r hr hu => ?_⟩
      rw [getD_set _ _ _ _ (by rw [h1]; omega)]
      split_ifs with hrk
      · rw [h2, hrk]
      · exact h4 r (by omega) hu
    · rw [if_neg h]
      have hr := reps_succ u k
      rw [if_neg h] at hr
      rw [hr]
      refine ⟨h1, h2, h3, fun r hr hu => h4 r ?_ hu⟩
      rcases Nat.lt_or_ge r k with h' | h'
      · exact h'
      · obtain rfl : r = k := by omega
        exact absurd hu h

theorem mapLoop_spec (u otn : List Nat) (n : Nat) (hlen : otn.length = n)
    (hu : ∀ i, i < n → u.getD i 0 < n ∧ u.getD (u.getD i 0) 0 = u.getD i 0)
    (h0 : ∀ r, r < n → u.getD r 0 = r → otn.getD r 0 = (reps u r).length) (k : Nat) (hk : k ≤ n) :
    let m := (List.range k).foldl (fun otn i => otn.set i (otn.getD (u.getD i 0) 0)) otn
    m.length = n ∧ (∀ i, i < k → m.getD i 0 = (reps u (u.getD i 0)).length) ∧ ∀ i, k ≤ i → m.getD i 0 = otn.getD i 0 := by
  induction k with
  | zero => exact ⟨hlen, fun i hi => absurd hi (by omega), fun _ _ => rfl⟩
  | succ k ih =>
    obtain ⟨h1, h2, h3⟩ := ih (by omega)
    dsimp only at h1 h2 h3 ⊢
    rw [List.range_succ, List.foldl_append, List.foldl_cons, List.foldl_nil]
    generalize (List.range k).foldl (fun otn i => otn.set i (otn.getD (u.getD i 0) 0)) otn = m at *
    obtain ⟨hk1, hk2⟩ := hu k (by omega)
    have hval : m.getD (u.getD k 0) 0 = (reps u (u.getD k 0)).length := by
      rcases Nat.lt_or_ge (u.getD k 0) k with h | h
      · rw [h2 _ h, hk2]
      · rw [h3 _ h, h0 _ hk1 hk2]
    refine ⟨by rw [List.length_set, h1], fun i hi => ?_, fun i hi => ?_⟩
    · rw [getD_set _ _ _ _ (by omega)]
      split_ifs with hik
      · rw [hik, hval]
      · exact h2 i (by omega)
    · rw [getD_set _ _ _ _ (by omega), if_neg (by omega)]
      exact h3 i (by omega)

/-- `make_points_unique` in terms of the map of `find_coincident_points`. -/
theorem makeUnique_eq (srt : (Nat → K) → List Nat → List Nat) (hsrt : IsSort srt) (dim : Nat)
    (points : List (List K)) (tol : K) (u : List Nat) (hu : u = findCoincident srt dim points tol) :
    (makeUnique srt dim points tol).1 = (reps u points.length).map (points.getD · []) ∧
    (makeUnique srt dim points tol).2.length = points.length ∧
    ∀ i, i < points.length → (makeUnique srt dim points tol).2.getD i 0 = (reps u (u.getD i 0)).length := by
  obtain ⟨-, h2, -⟩ := findCoincident_spec srt hsrt dim points tol
  rw [← hu] at h2
  obtain ⟨l1, l2, l3, l4⟩ := uniqueLoop_spec points u points.length le_rfl
  obtain ⟨m1, m2, -⟩ := mapLoop_spec u _ points.length l1 h2 l4 points.length le_rfl
  unfold makeUnique
  dsimp only
  rw [← hu]
  exact ⟨l3, m1, m2⟩

/-- **C37** (soundness): the new points are old points, in the same order; the map from old to new points is onto; two
points have the same image exactly when they are identified; the image of a point differs from it by at most `n - 1`
tolerances in each coordinate. -/
theorem C37_unique_points (srt : (Nat → K) → List Nat → List Nat) (hsrt : IsSort srt) (dim : Nat) (hdim : 0 < dim)
    (points : List (List K)) (tol : K) (htol : 0 ≤ tol) (new : List (List K)) (map : List Nat)
    (h : makeUnique srt dim points tol = (new, map)) :
    map.length = points.length ∧ new.Sublist points ∧
    (∀ i, i < points.length → map.getD i 0 < new.length) ∧
    (∀ k, k < new.length → ∃ i, i < points.length ∧ map.getD i 0 = k ∧ new.getD k [] = points.getD i []) ∧
    (∀ i, i < points.length → ∀ j, j < points.length →
      (map.getD i 0 = map.getD j 0 ↔ Identified tol (coord points) (dim - 1) (· < points.length) i j)) ∧
    ∀ i, i < points.length → ∀ k, k < dim →
      |coord points k i - coord new k (map.getD i 0)| ≤ ((points.length - 1 : Nat) : K) * tol := by
  obtain ⟨u, hu⟩ : ∃ u, u = findCoincident srt dim points tol := ⟨_, rfl⟩
  obtain ⟨q1, q2, q3⟩ := makeUnique_eq srt hsrt dim points tol u hu
  obtain ⟨f1, f2, f3⟩ := findCoincident_spec srt hsrt dim points tol
  rw [← hu] at f1 f2 f3
  rw [h] at q1 q2 q3
  dsimp only at q1 q2 q3
  have hget : ∀ k, k < (reps u points.length).length → new.getD k [] = points.getD ((reps u points.length).getD k 0) [] := by
    intro k hk
    rw [q1, List.getD_eq_getElem?_getD, List.getElem?_map, List.getElem?_eq_getElem hk, Option.map_some, Option.getD_some,
      List.getD_eq_getElem?_getD (l := reps u points.length), List.getElem?_eq_getElem hk, Option.getD_some]
  have hnl : new.length = (reps u points.length).length := by rw [q1, List.length_map]
  have himg : ∀ i, i < points.length → map.getD i 0 < new.length ∧
      (reps u points.length).getD (map.getD i 0) 0 = u.getD i 0 := by
    intro i hi
    obtain ⟨g1, g2⟩ := f2 i hi
    obtain ⟨r1, r2⟩ := reps_getD u g1 g2
    rw [q3 i hi, hnl]
    exact ⟨r1, r2⟩
  refine ⟨q2, ?_, fun i hi => (himg i hi).1, fun k hk => ?_, fun i hi j hj => ?_, fun i hi k hk => ?_⟩
  · have : points = (List.range points.length).map (points.getD · []) := by
      apply List.ext_getElem
      · simp
      · intro i h1 h2; simp [List.getD_eq_getElem?_getD, List.getElem?_eq_getElem h1]
    rw [q1]
    conv_rhs => rw [this]
    exact (List.filter_sublist).map _
  · rw [hnl] at hk
    have hmem := mem_reps.1 (List.getElem_mem hk)
    have hgd : (reps u points.length).getD k 0 = (reps u points.length)[k] := by
      rw [List.getD_eq_getElem?_getD, List.getElem?_eq_getElem hk, Option.getD_some]
    refine ⟨(reps u points.length)[k], hmem.1, ?_, ?_⟩
    · rw [q3 _ hmem.1, hmem.2]
      obtain ⟨r1, r2⟩ := reps_getD u hmem.1 hmem.2
      have hnd : (reps u points.length).Nodup := List.Nodup.filter _ List.nodup_range
      rw [List.getD_eq_getElem?_getD, List.getElem?_eq_getElem r1, Option.getD_some] at r2
      exact (List.Nodup.getElem_inj_iff hnd).1 r2
    · rw [hget k hk, hgd]
  · rw [← f3 i hi j hj]
    constructor
    · intro he
      rw [← (himg i hi).2, ← (himg j hj).2, he]
    · intro he
      rw [q3 i hi, q3 j hj, he]
  · have hid : Identified tol (coord points) (dim - 1) (· < points.length) i (u.getD i 0) :=
      (f3 i hi _ (f2 i hi).1).1 (f2 i hi).2.symm
    have hl := identified_linked (dim - 1) k (by omega) hid
    have hset : (fun a => a < points.length) = fun a => a ∈ List.range points.length := by
      funext a; rw [List.mem_range]
    rw [hset] at hl
    have hb := linked_bound htol List.nodup_range (List.mem_range.2 hi) hl
    rw [List.length_range] at hb
    have : coord new k (map.getD i 0) = coord points k (u.getD i 0) := by
      unfold coord
      rw [hget _ (by rw [← hnl]; exact (himg i hi).1), (himg i hi).2]
    rw [this]
    exact hb

/-- **C37** (completeness): points that coincide up to the tolerance in all coordinates get the same image, and points
with the same image differ by at most `n - 1` tolerances in each coordinate. -/
theorem C37_merged (srt : (Nat → K) → List Nat → List Nat) (hsrt : IsSort srt) (dim : Nat) (hdim : 0 < dim)
    (points : List (List K)) (tol : K) (htol : 0 ≤ tol) (i j : Nat) (hi : i < points.length) (hj : j < points.length) :
    ((∀ k, k < dim → |coord points k i - coord points k j| ≤ tol) →
      (makeUnique srt dim points tol).2.getD i 0 = (makeUnique srt dim points tol).2.getD j 0) ∧
    ((makeUnique srt dim points tol).2.getD i 0 = (makeUnique srt dim points tol).2.getD j 0 →
      ∀ k, k < dim → |coord points k i - coord points k j| ≤ ((points.length - 1 : Nat) : K) * tol) := by
  obtain ⟨-, -, -, -, h, -⟩ := C37_unique_points srt hsrt dim hdim points tol htol _ _ rfl
  constructor
  · intro hc
    exact (h i hi j hj).2 (identified_of_close (dim - 1) hi hj fun k hk => hc k (by omega))
  · intro he k hk
    have hl := identified_linked (dim - 1) k (by omega) ((h i hi j hj).1 he)
    have hset : (fun a => a < points.length) = fun a => a ∈ List.range points.length := by
      funext a; rw [List.mem_range]
    rw [hset] at hl
    have hb := linked_bound htol List.nodup_range (List.mem_range.2 hi) hl
    rwa [List.length_range] at hb

/-- **C37** (order of the sort): the identification does not depend on the sorting algorithm. -/
theorem C37_sort_independent (srt srt' : (Nat → K) → List Nat → List Nat) (hsrt : IsSort srt) (hsrt' : IsSort srt')
    (dim : Nat) (hdim : 0 < dim) (points : List (List K)) (tol : K) (htol : 0 ≤ tol) (i j : Nat) (hi : i < points.length)
    (hj : j < points.length) :
    (makeUnique srt dim points tol).2.getD i 0 = (makeUnique srt dim points tol).2.getD j 0 ↔
      (makeUnique srt' dim points tol).2.getD i 0 = (makeUnique srt' dim points tol).2.getD j 0 := by
  obtain ⟨-, -, -, -, h, -⟩ := C37_unique_points srt hsrt dim hdim points tol htol _ _ rfl
  obtain ⟨-, -, -, -, h', -⟩ := C37_unique_points srt' hsrt' dim hdim points tol htol _ _ rfl
  exact (h i hi j hj).trans (h' i hi j hj).symm

/-- **C37** (idempotence): a second call changes nothing. -/
theorem C37_idempotent (srt srt' : (Nat → K) → List Nat → List Nat) (hsrt : IsSort srt) (hsrt' : IsSort srt') (dim : Nat)
    (points : List (List K)) (tol : K) :
    makeUnique srt' dim (makeUnique srt dim points tol).1 tol =
      ((makeUnique srt dim points tol).1, List.range (makeUnique srt dim points tol).1.length) := by
  obtain ⟨u, hu⟩ : ∃ u, u = findCoincident srt dim points tol := ⟨_, rfl⟩
  obtain ⟨q1, -, -⟩ := makeUnique_eq srt hsrt dim points tol u hu
  obtain ⟨f1, f2, f3⟩ := findCoincident_spec srt hsrt dim points tol
  rw [← hu] at f1 f2 f3
  obtain ⟨new, hnew⟩ : ∃ new, new = (makeUnique srt dim points tol).1 := ⟨_, rfl⟩
  rw [← hnew] at q1 ⊢
  obtain ⟨v, hv⟩ : ∃ v, v = findCoincident srt' dim new tol := ⟨_, rfl⟩
  obtain ⟨p1, p2, p3⟩ := makeUnique_eq srt' hsrt' dim new tol v hv
  obtain ⟨g1, g2, g3⟩ := findCoincident_spec srt' hsrt' dim new tol
  rw [← hv] at g1 g2 g3
  have hnl : new.length = (reps u points.length).length := by rw [q1, List.length_map]
  have hnd : (reps u points.length).Nodup := List.Nodup.filter _ List.nodup_range
  have hrep : ∀ k, k < new.length → (reps u points.length).getD k 0 < points.length ∧
      u.getD ((reps u points.length).getD k 0) 0 = (reps u points.length).getD k 0 := by
    intro k hk
    rw [hnl] at hk
    have hmem := mem_reps.1 (List.getElem_mem hk)
    rwa [List.getD_eq_getElem?_getD, List.getElem?_eq_getElem hk, Option.getD_some]
  have hfix : ∀ k, k < new.length → v.getD k 0 = k := by
    intro k hk
    obtain ⟨h1, h2⟩ := g2 k hk
    have hid := (g3 _ h1 k hk).1 h2
    have hid' := identified_map (y := coord points) (T := (· < points.length))
      (fun s => (reps u points.length).getD s 0) (dim - 1) (fun s hs => (hrep s hs).1)
      (fun s hs c => by
        unfold coord
        rw [hnl] at hs
        rw [q1, List.getD_eq_getElem?_getD (l := List.map _ _), List.getElem?_map, List.getElem?_eq_getElem hs,
          Option.map_some, Option.getD_some, List.getD_eq_getElem?_getD (l := reps u points.length),
          List.getElem?_eq_getElem hs, Option.getD_some]) hid
    have he := (f3 _ (hrep _ h1).1 _ (hrep k hk).1).2 hid'
    rw [(hrep _ h1).2, (hrep k hk).2] at he
    rw [hnl] at h1 hk
    have e : ∀ s (hs : s < (reps u points.length).length), (reps u points.length).getD s 0 = (reps u points.length)[s] := by
      intro s hs
      rw [List.getD_eq_getElem?_getD, List.getElem?_eq_getElem hs, Option.getD_some]
    exact (List.Nodup.getElem_inj_iff hnd).1 ((e _ h1).symm.trans (he.trans (e _ hk)))
  have hreps : ∀ n, n ≤ new.length → reps v n = List.range n := by
    intro n
    induction n with
    | zero => intro _; rfl
    | succ n ih =>
      intro hn
      rw [reps_succ, if_pos (hfix n (by omega)), ih (by omega), List.range_succ]
  ext1
  · dsimp only
    rw [p1, hreps _ le_rfl]
    apply List.ext_getElem
    · simp
    · intro i h1 h2; simp [List.getD_eq_getElem?_getD, List.getElem?_eq_getElem h2]
  · dsimp only
    apply List.ext_getElem
    · rw [p2, List.length_range]
    · intro i h1 h2
      rw [p2] at h1
      have := p3 i h1
      rw [hfix i h1, hreps i (by omega), List.length_range, List.getD_eq_getElem?_getD, List.getElem?_eq_getElem (by omega),
        Option.getD_some] at this
      rw [this, List.getElem_range]

/-- Concrete case (non-vacuity): insertion sort is a sort; a chain of three points is merged although its ends are two
tolerances apart, and a fourth point is kept. -/
theorem insertionSort_isSort : IsSort (fun (key : Nat → K) l => l.insertionSort fun a b => key a ≤ key b) := by
  intro key l
  have : Std.Total fun a b => key a ≤ key b := ⟨fun a b => le_total _ _⟩
  have : IsTrans Nat fun a b => key a ≤ key b := ⟨fun a b c => le_trans⟩
  exact ⟨List.perm_insertionSort _ _, List.pairwise_insertionSort _ _⟩

example : makeUnique (fun (key : Nat → ℚ) l => l.insertionSort fun a b => key a ≤ key b) 2
    [[2, 0], [0, 0], [1, 0], [5, 5]] 1 = ([[0, 0], [5, 5]], [0, 0, 0, 1]) := by decide +kernel

end Qugar.Points
