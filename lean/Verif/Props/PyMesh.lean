import Verif.Lemmas.PyMesh
import Verif.Props.PyTpIndex
import Mathlib.Logic.Relation
import Mathlib.Tactic.Linarith
import Mathlib.Algebra.Order.Ring.Rat
/-
Property theorems C64 (original and DOLFINx numberings of cells and nodes, merging of coincident nodes, faces of
tensor-product meshes: python/qugar/mesh/mesh.py and tp_mesh.py).
-/
namespace Qugar.Py
open Spec Spec.Cell TS

/-- **C64** (search): for every sorting permutation, the result has one entry per value: a position of the value in the
array, or -1 when it is not there. -/
theorem C64_find {argsort : List Int → List Nat} (hs : ∀ l, IsArgsort l (argsort l)) (values all : List Int)
    (hne : all ≠ [] ∨ values = []) :
    ∃ r, findInArray argsort values all = some r ∧ r.length = values.length ∧
      ∀ (k : Nat) v, values[k]? = some v →
        (v ∉ all → r[k]? = some (-1)) ∧ (v ∈ all → ∃ i : Nat, r[k]? = some (i : Int) ∧ all[i]? = some v) :=
  find_spec (hs all) hne

/-- **C64** fails for empty arrays (a process with no cells): instead of -1 for all the values, an exception. -/
theorem C64_find_empty_fails {argsort : List Int → List Nat} (hs : ∀ l, IsArgsort l (argsort l)) (v : Int) (vs : List Int) :
    findInArray argsort (v :: vs) [] = none := by
  have h : argsort [] = [] := by simpa using (hs []).1
  unfold findInArray
  rw [h]
  simp [take, searchSorted, List.mapM_cons]

/-- The insertion sort of the positions is an `argsort`: the hypotheses on `argsort` can be met. -/
theorem argsort_exists : ∃ argsort : List Int → List Nat, ∀ l, IsArgsort l (argsort l) := by
  refine ⟨fun l => (List.range l.length).mergeSort fun i j => decide (l.getD i 0 ≤ l.getD j 0), fun l => ⟨?_, ?_⟩⟩
  · exact List.mergeSort_perm _ _
  · rw [List.pairwise_map]
    have := List.pairwise_mergeSort (le := fun i j : Nat => decide (l.getD i 0 ≤ l.getD j 0))
      (fun a b c h1 h2 => by simp only [decide_eq_true_eq] at *; omega)
      (fun a b => by simp only [Bool.or_eq_true, decide_eq_true_eq]; omega) (List.range l.length)
    exact this.imp fun h => by simpa only [decide_eq_true_eq] using h

/-! ### Merging -/

/-- The pairs of close points: what `KDTree.query_pairs` returns, in any order. -/
def ClosePairs {P : Type} (near : P → P → Prop) (nodes : List P) (pairs : List (Nat × Nat)) : Prop :=
  ∀ i j, (i, j) ∈ pairs ↔ i < j ∧ ∃ x y, nodes[i]? = some x ∧ nodes[j]? = some y ∧ near x y

/-- **C64** (merging): the nodes kept are nodes of the mesh, in their order, no two of them close; the map from old to new
nodes gives every node one it is connected to by close nodes, and a kept node itself; the cells keep their shape, with the
nodes renumbered by that map. -/
theorem C64_merge {P : Type} (near : P → P → Prop) (nodes : List P) (conn : List (List Nat)) (pairs : List (Nat × Nat))
    (junk : Nat → Nat) (hp : ClosePairs near nodes pairs) (hc : ∀ row ∈ conn, ∀ i ∈ row, i < nodes.length) (fuel : Nat)
    (hfuel : nodes.length * nodes.length < fuel) :
    ∃ (newNodes : List P) (newConn : List (List Nat)) (oldToNew kept : List Nat), mergePoints fuel nodes conn pairs junk = some (newNodes, newConn, oldToNew) ∧
      kept.Pairwise (· < ·) ∧ kept.length = newNodes.length ∧
      (∀ (k i : Nat), kept[k]? = some i → ∃ x, nodes[i]? = some x ∧ newNodes[k]? = some x ∧ oldToNew[i]? = some k) ∧
      newNodes.Pairwise (fun x y => ¬ near x y) ∧
      oldToNew.length = nodes.length ∧
      (∀ (i : Nat) x, nodes[i]? = some x → ∃ (k : Nat) (y : P), oldToNew[i]? = some k ∧ newNodes[k]? = some y ∧
        Relation.ReflTransGen (fun a b => a ∈ nodes ∧ b ∈ nodes ∧ near a b) y x) ∧
      newConn.length = conn.length ∧
      ∀ (e : Nat) row, conn[e]? = some row → ∃ row', newConn[e]? = some row' ∧ row'.length = row.length ∧
        ∀ (j i : Nat), row[j]? = some i → row'[j]? = oldToNew[i]? := by
  -- the first assignment
  have hs : ∀ j, j < nodes.length → (slaveToMaster nodes.length pairs).length = nodes.length ∧
      (((slaveToMaster nodes.length pairs)[j]? = (List.range nodes.length)[j]? ∧ ∀ p ∈ pairs, p.2 ≠ j) ∨
        ∃ i, (i, j) ∈ pairs ∧ (slaveToMaster nodes.length pairs)[j]? = some i) := fun j hj =>
    foldl_set_spec pairs (List.range nodes.length) nodes.length (by simp) j hj
  have hlen : (slaveToMaster nodes.length pairs).length = nodes.length := by
    by_cases h0 : 0 < nodes.length
    · exact (hs 0 h0).1
    · unfold slaveToMaster
      have : ∀ (l : List (Nat × Nat)) (a : List Nat), (l.foldl (fun a p => a.set p.2 p.1) a).length = a.length := by
        intro l
        induction l with
        | nil => intro a; rfl
        | cons p l ih => intro a; rw [List.foldl_cons, ih]; simp
      rw [this]; simp
  generalize hS : slaveToMaster nodes.length pairs = S at hs hlen
  have eS : S = (List.range nodes.length).map fun i => S.getD i 0 := by
    refine List.ext_getElem (by simp [hlen]) fun k h1 h2 => ?_
    simp [h1]
  -- the loop
  obtain ⟨g, hg1, hg2⟩ := converge_spec (n := nodes.length)
    (fun a b => ∃ x y, nodes[a]? = some x ∧ nodes[b]? = some y ∧
      Relation.ReflTransGen (fun a b => a ∈ nodes ∧ b ∈ nodes ∧ near a b) x y)
    (by rintro a b c ⟨x, y, h1, h2, h3⟩ ⟨y', z, h4, h5, h6⟩
        rw [h2] at h4; obtain rfl := Option.some.inj h4
        exact ⟨x, z, h1, h5, h3.trans h6⟩)
    (fun j => ∀ p ∈ pairs, p.2 ≠ j) (fun i => S.getD i 0)
    (by intro j hj
        have hjS : j < S.length := by omega
        have hx := List.getElem?_eq_getElem hj
        rcases (hs j hj).2 with ⟨h1, h2⟩ | ⟨i, h1, h2⟩
        · rw [List.getElem?_range hj, List.getElem?_eq_getElem hjS] at h1
          have h1 := Option.some.inj h1
          simp only [List.getD_eq_getElem _ _ hjS, h1]
          exact ⟨le_refl _, ⟨_, _, hx, hx, .refl⟩, ⟨fun _ => h2, fun _ => trivial⟩⟩
        · rw [List.getElem?_eq_getElem hjS] at h2
          have h2 := Option.some.inj h2
          simp only [List.getD_eq_getElem _ _ hjS, h2]
          obtain ⟨hij, x, y, hxi, hyj, hn⟩ := (hp i j).1 h1
          refine ⟨hij.le, ⟨x, y, hxi, hyj, .single ⟨List.mem_of_getElem? hxi, List.mem_of_getElem? hyj, hn⟩⟩, ?_, ?_⟩
          · intro h; omega
          · intro h; exact absurd rfl (h _ h1))
    fuel (by
      refine lt_of_le_of_lt ?_ hfuel
      have : ∀ x ∈ (List.range nodes.length).map (fun i => S.getD i 0), x ≤ nodes.length := by
        intro x hx
        obtain ⟨j, hj, rfl⟩ := List.mem_map.1 hx
        have hj := List.mem_range.1 hj
        have hjS : j < S.length := by omega
        rcases (hs j hj).2 with ⟨h1, h2⟩ | ⟨i, h1, h2⟩
        · rw [List.getElem?_range hj, List.getElem?_eq_getElem hjS] at h1
          simp only [List.getD_eq_getElem _ _ hjS, Option.some.inj h1]; omega
        · rw [List.getElem?_eq_getElem hjS] at h2
          simp only [List.getD_eq_getElem _ _ hjS, Option.some.inj h2]
          have := ((hp i j).1 h1).1
          omega
      have := List.sum_le_card_nsmul _ _ this
      simpa using this)
  rw [← eS] at hg1
  have hglt : ∀ j, j < nodes.length → g j < nodes.length := fun j hj => lt_of_le_of_lt (hg2 j hj).1 hj
  -- the kept nodes
  obtain ⟨hu1, hu2⟩ := npUnique_spec ((List.range nodes.length).map g)
  have hult : ∀ i ∈ npUnique ((List.range nodes.length).map g), i < nodes.length := by
    intro i hi
    obtain ⟨j, hj, rfl⟩ := List.mem_map.1 ((hu2 i).1 hi)
    exact hglt j (List.mem_range.1 hj)
  have hroot : ∀ i ∈ npUnique ((List.range nodes.length).map g), (∀ p ∈ pairs, p.2 ≠ i) ∧ g i = i := by
    intro i hi
    obtain ⟨j, hj, rfl⟩ := List.mem_map.1 ((hu2 i).1 hi)
    have hj := List.mem_range.1 hj
    exact ⟨(hg2 j hj).2.2.2, (hg2 (g j) (hglt j hj)).2.2.1.2 (hg2 j hj).2.2.2⟩
  obtain ⟨hm1, hm2⟩ := masterToNew_spec (junk := junk) (hu1.imp (fun h => Nat.ne_of_lt h)) hult
  obtain ⟨o2n, ho1, ho2, ho3⟩ := take_ok (a := masterToNew nodes.length (npUnique ((List.range nodes.length).map g)) junk)
    (idx := (List.range nodes.length).map g) (by
      intro i hi
      obtain ⟨j, hj, rfl⟩ := List.mem_map.1 hi
      rw [hm1]; exact hglt j (List.mem_range.1 hj))
  obtain ⟨newNodes, hn1, hn2, hn3⟩ := take_ok (a := nodes) (idx := npUnique ((List.range nodes.length).map g)) hult
  have ho2' : o2n.length = nodes.length := by rw [ho2]; simp
  have hrow : ∀ row ∈ conn, (take o2n row).isSome := by
    intro row hr
    obtain ⟨r, h, -, -⟩ := take_ok (a := o2n) (idx := row) (by rw [ho2']; exact hc row hr)
    rw [h]; rfl
  obtain ⟨newConn, hN⟩ := mapM_ok hrow
  obtain ⟨hN1, hN2⟩ := mapM_spec hN
  have hmap : ∀ i, i < nodes.length → ∃ k : Nat, o2n[i]? = some k ∧
      (npUnique ((List.range nodes.length).map g))[k]? = some (g i) := by
    intro i hi
    have hgi : g i ∈ npUnique ((List.range nodes.length).map g) :=
      (hu2 _).2 (List.mem_map.2 ⟨i, List.mem_range.2 hi, rfl⟩)
    obtain ⟨k, hk, he⟩ := List.mem_iff_getElem.1 hgi
    have hk' : (npUnique ((List.range nodes.length).map g))[k]? = some (g i) := by
      rw [List.getElem?_eq_getElem hk, he]
    refine ⟨k, ?_, hk'⟩
    rw [ho3 i (g i) (by simp [hi]), hm2 k (g i) hk']
  refine ⟨newNodes, newConn, o2n, npUnique ((List.range nodes.length).map g), ?_, hu1, hn2.symm, ?_, ?_, ho2', ?_, hN1, ?_⟩
  · unfold mergePoints
    rw [hS, hg1]
    simp only [Option.bind_some]
    rw [ho1, Option.bind_some, hn1, Option.bind_some, hN, Option.map_some]
  · intro k i hk
    have hi := hult i (List.mem_of_getElem? hk)
    refine ⟨nodes[i], List.getElem?_eq_getElem hi, by rw [hn3 k i hk, List.getElem?_eq_getElem hi], ?_⟩
    rw [ho3 i (g i) (by simp [hi]), (hroot i (List.mem_of_getElem? hk)).2, hm2 k i hk]
  · rw [List.pairwise_iff_getElem]
    intro a b ha hb hab hnear
    have ha' : a < (npUnique ((List.range nodes.length).map g)).length := by omega
    have hb' : b < (npUnique ((List.range nodes.length).map g)).length := by omega
    have e1 := hn3 a _ (List.getElem?_eq_getElem ha')
    have e2 := hn3 b _ (List.getElem?_eq_getElem hb')
    rw [List.getElem?_eq_getElem ha] at e1
    rw [List.getElem?_eq_getElem hb] at e2
    have hlt := List.pairwise_iff_getElem.1 hu1 a b ha' hb' hab
    exact (hroot _ (List.getElem_mem hb')).1 _ ((hp _ _).2 ⟨hlt, _, _, e1.symm, e2.symm, hnear⟩) rfl
  · intro i x hx
    have hi : i < nodes.length := (List.getElem?_eq_some_iff.1 hx).1
    obtain ⟨k, h1, h2⟩ := hmap i hi
    obtain ⟨y, x', hy, hx', hch⟩ := (hg2 i hi).2.1
    rw [hx] at hx'
    obtain rfl := Option.some.inj hx'
    exact ⟨k, y, h1, by rw [hn3 k _ h2, hy], hch⟩
  · intro e row he
    obtain ⟨row', h1, h2⟩ := hN2 e row he
    obtain ⟨h3, h4⟩ := take_spec h1
    exact ⟨row', h2, h3, fun j i hj => (h4 j i hj).2⟩

/-- **C64** (merging): when closeness is transitive among the nodes (repeated nodes, separated clusters), exactly the close
nodes are merged, and every node is replaced by itself or by a close one. -/
theorem C64_merge_exact {P : Type} (near : P → P → Prop) (nodes : List P) (conn : List (List Nat)) (pairs : List (Nat × Nat))
    (junk : Nat → Nat) (hp : ClosePairs near nodes pairs) (hc : ∀ row ∈ conn, ∀ i ∈ row, i < nodes.length) (fuel : Nat)
    (hfuel : nodes.length * nodes.length < fuel) (hrefl : ∀ x, near x x)
    (hsymm : ∀ x y, near x y → near y x)
    (htrans : ∀ x ∈ nodes, ∀ y ∈ nodes, ∀ z ∈ nodes, near x y → near y z → near x z) :
    ∃ newNodes newConn oldToNew, mergePoints fuel nodes conn pairs junk = some (newNodes, newConn, oldToNew) ∧
      (∀ (i : Nat) x, nodes[i]? = some x → ∃ (k : Nat) (y : P), oldToNew[i]? = some k ∧ newNodes[k]? = some y ∧ (y = x ∨ near y x)) ∧
      ∀ (i j : Nat) x y, nodes[i]? = some x → nodes[j]? = some y → i ≠ j → (near x y ↔ oldToNew[i]? = oldToNew[j]?) := by
  obtain ⟨newNodes, newConn, o2n, kept, h1, h2, h2', h3, h4, h5, h6, -, -⟩ := C64_merge near nodes conn pairs junk hp hc fuel hfuel
  have hflat : ∀ x y, Relation.ReflTransGen (fun a b => a ∈ nodes ∧ b ∈ nodes ∧ near a b) x y → x = y ∨ (x ∈ nodes ∧ y ∈ nodes ∧ near x y) := by
    intro x y h
    induction h with
    | refl => exact .inl rfl
    | tail h1 h2 ih =>
      rcases ih with rfl | ⟨hx, hb, hn⟩
      · exact .inr h2
      · exact .inr ⟨hx, h2.2.1, htrans _ hx _ hb _ h2.2.1 hn h2.2.2⟩
  have hrep : ∀ (i : Nat) x, nodes[i]? = some x → ∃ (k : Nat) (y : P), o2n[i]? = some k ∧ newNodes[k]? = some y ∧
      (y = x ∨ (y ∈ nodes ∧ x ∈ nodes ∧ near y x)) := by
    intro i x hx
    obtain ⟨k, y, a, b, c⟩ := h6 i x hx
    exact ⟨k, y, a, b, hflat _ _ c⟩
  refine ⟨newNodes, newConn, o2n, h1, ?_, ?_⟩
  · intro i x hx
    obtain ⟨k, y, a, b, c⟩ := hrep i x hx
    exact ⟨k, y, a, b, c.imp id fun h => h.2.2⟩
  · intro i j x y hx hy hij
    obtain ⟨k, u, a1, b1, c1⟩ := hrep i x hx
    obtain ⟨l, v, a2, b2, c2⟩ := hrep j y hy
    have hxm := List.mem_of_getElem? hx
    have hym := List.mem_of_getElem? hy
    constructor
    · intro hn
      rw [a1, a2]
      by_contra hkl
      have hkl : k ≠ l := fun h => hkl (by rw [h])
      have huv : near u v := by
        rcases c1 with rfl | ⟨hu, -, h⟩
        · rcases c2 with rfl | ⟨hv, -, h'⟩
          · exact hn
          · exact htrans _ hxm _ hym _ hv hn (hsymm _ _ h')
        · rcases c2 with rfl | ⟨hv, -, h'⟩
          · exact htrans _ hu _ hxm _ hym h hn
          · exact htrans _ hu _ hym _ hv (htrans _ hu _ hxm _ hym h hn) (hsymm _ _ h')
      obtain ⟨hk, ek⟩ := List.getElem?_eq_some_iff.1 b1
      obtain ⟨hl, el⟩ := List.getElem?_eq_some_iff.1 b2
      have hpw := List.pairwise_iff_getElem.1 h4
      rcases Nat.lt_or_gt_of_ne hkl with h | h
      · exact hpw k l hk hl h (by rw [ek, el]; exact huv)
      · exact hpw l k hl hk h (by rw [ek, el]; exact hsymm _ _ huv)
    · intro he
      rw [a1, a2] at he
      obtain rfl := Option.some.inj he
      rw [b1] at b2
      obtain rfl := Option.some.inj b2
      rcases c1 with e1 | ⟨hu, -, h⟩
      · rcases c2 with e2 | ⟨hv, -, h'⟩
        · subst e1; subst e2; exact hrefl _
        · subst e1; exact h'
      · rcases c2 with e2 | ⟨hv, -, h'⟩
        · subst e2; exact hsymm _ _ h
        · exact htrans _ hxm _ hu _ hym (hsymm _ _ h) h'

/-- Distance between rational numbers at most 1. -/
def near1 (x y : ℚ) : Prop := |x - y| ≤ 1

/-- **C64** (merging): close nodes may be kept apart, and which ones depends on the order of the pairs: the nodes 0, 2 and 1
with tolerance 1. -/
theorem C64_close_nodes_kept_apart :
    ClosePairs near1 [0, 2, 1] [(0, 2), (1, 2)] ∧ ClosePairs near1 [0, 2, 1] [(1, 2), (0, 2)] ∧
    (∃ r, mergePoints 10 [(0 : ℚ), 2, 1] [[0, 1, 2]] [(0, 2), (1, 2)] (fun _ => 7) = some r ∧ r.2.2 = [0, 1, 1]) ∧
    ∃ r, mergePoints 10 [(0 : ℚ), 2, 1] [[0, 1, 2]] [(1, 2), (0, 2)] (fun _ => 7) = some r ∧ r.2.2 = [0, 1, 0] := by
  have key : ∀ i j, (i, j) ∈ [(0, 2), (1, 2)] ↔ i < j ∧ ∃ x y, [(0 : ℚ), 2, 1][i]? = some x ∧ [(0 : ℚ), 2, 1][j]? = some y ∧ near1 x y := by
    have h01 : ¬ near1 0 2 := by unfold near1; norm_num
    have h02 : near1 0 1 := by unfold near1; norm_num
    have h12 : near1 2 1 := by unfold near1; norm_num
    intro i j
    match i, j with
    | 0, 0 => simp
    | 0, 1 => simp [h01]
    | 0, 2 => simp [h02]
    | 1, 0 => simp
    | 1, 1 => simp
    | 1, 2 => simp [h12]
    | 2, 0 => simp
    | 2, 1 => simp
    | 2, 2 => simp
    | i + 3, j => simp
    | 0, j + 3 => simp
    | 1, j + 3 => simp
    | 2, j + 3 => simp
  refine ⟨key, fun i j => Iff.trans ?_ (key i j), ⟨_, rfl, by decide +kernel⟩, ⟨_, rfl, by decide +kernel⟩⟩
  simp only [List.mem_cons, List.not_mem_nil, or_false]
  exact or_comm

/-- C64 non-vacuity: three nodes, the last one close to the second one. -/
example : ClosePairs near1 [0, 2, 3] [(1, 2)] ∧ (∀ row ∈ [[0, 1], [0, 2]], ∀ i ∈ row, i < [(0 : ℚ), 2, 3].length) ∧
    mergePoints 10 [(0 : ℚ), 2, 3] [[0, 1], [0, 2]] [(1, 2)] (fun _ => 7) = some ([0, 2], [[0, 1], [0, 1]], [0, 1, 1]) := by
  refine ⟨?_, by decide, by decide +kernel⟩
  have h01 : ¬ near1 0 2 := by unfold near1; norm_num
  have h02 : ¬ near1 0 3 := by unfold near1; norm_num
  have h12 : near1 2 3 := by unfold near1; norm_num
  intro i j
  match i, j with
  | 0, 0 => simp
  | 0, 1 => simp [h01]
  | 0, 2 => simp [h02]
  | 1, 0 => simp
  | 1, 1 => simp
  | 1, 2 => simp [h12]
  | 2, 0 => simp
  | 2, 1 => simp
  | 2, 2 => simp
  | i + 3, j => simp
  | 0, j + 3 => simp
  | 1, j + 3 => simp
  | 2, j + 3 => simp

/-! ### Numberings of cells -/

theorem getElem?_map_ofNat (l : List Nat) (i v : Nat) : (l.map Int.ofNat)[i]? = some (Int.ofNat v) ↔ l[i]? = some v := by
  rw [List.getElem?_map]
  cases h : l[i]? with
  | none => simp
  | some x => simp

theorem mem_map_ofNat (l : List Nat) (v : Int) : v ∈ l.map Int.ofNat ↔ ∃ n ∈ l, Int.ofNat n = v := List.mem_map

/-- The original number of a local cell. -/
def PyMesh.OrigCell (m : PyMesh) (l v : Nat) : Prop := m.origCells [l] = some [v]

theorem origCell_iff (m : PyMesh) (l v : Nat) : m.OrigCell l v ↔ ∃ o, m.cellIndex[l]? = some o ∧
    match m.active with
    | some a => a[o]? = some v
    | none => o = v := by
  unfold PyMesh.OrigCell PyMesh.origCells take
  cases h : m.cellIndex[l]? with
  | none => simp [h]
  | some o =>
    cases ha : m.active with
    | none => simp [h]
    | some a =>
      cases h' : a[o]? with
      | none => simp [h, h']
      | some w => simp [h, h']

/-- What is assumed of a mesh: the active cells are different, DOLFINx reports different existing cells and there is at
least one cell, active and in the process. -/
structure PyMesh.Ok (m : PyMesh) (nRows : Nat) : Prop where
  cells_nodup : m.cellIndex.Nodup
  cells_lt : ∀ i ∈ m.cellIndex, i < nRows
  cells_ne : m.cellIndex ≠ []
  active : ∀ a, m.active = some a → a.Nodup ∧ a.length = nRows

/-- **C64** (cells): every list of original numbers is translated: for each one, the local number of the only local cell with
that original number, or -1 if there is none (cells not active or in other processes). -/
theorem C64_cells_from_original {argsort : List Int → List Nat} (hs : ∀ l, IsArgsort l (argsort l)) (m : PyMesh) {nRows : Nat}
    (hm : m.Ok nRows) (orig : List Nat) :
    ∃ r, m.dlfCells argsort (orig.map Int.ofNat) = some r ∧ r.length = orig.length ∧
      ∀ (k v : Nat), orig[k]? = some v →
        (r[k]? = some (-1) ∧ ∀ l, ¬ m.OrigCell l v) ∨
        ∃ l : Nat, r[k]? = some (l : Int) ∧ m.OrigCell l v ∧ ∀ l', m.OrigCell l' v → l' = l := by
  have hpos : 0 < nRows := by
    obtain ⟨i, hi⟩ := List.exists_mem_of_ne_nil _ hm.cells_ne
    have := hm.cells_lt i hi
    omega
  have hne : m.cellIndex.map Int.ofNat ≠ [] := by simpa using hm.cells_ne
  have inj : ∀ (l l' o : Nat), m.cellIndex[l]? = some o → m.cellIndex[l']? = some o → l = l' := by
    intro l l' o h h'
    obtain ⟨h1, e1⟩ := List.getElem?_eq_some_iff.1 h
    obtain ⟨h2, e2⟩ := List.getElem?_eq_some_iff.1 h'
    exact (List.Nodup.getElem_inj_iff hm.cells_nodup).1 (e1.trans e2.symm)
  unfold PyMesh.dlfCells
  cases ha : m.active with
  | none =>
    simp only [Option.bind_some]
    obtain ⟨r, h1, h2, h3⟩ := find_spec (values := orig.map Int.ofNat) (hs (m.cellIndex.map Int.ofNat)) (.inl hne)
    refine ⟨r, h1, by simpa using h2, fun k v hk => ?_⟩
    obtain ⟨h4, h5⟩ := h3 k (Int.ofNat v) ((getElem?_map_ofNat _ _ _).2 hk)
    simp only [origCell_iff, ha]
    by_cases hv : Int.ofNat v ∈ m.cellIndex.map Int.ofNat
    · right
      obtain ⟨l, a, b⟩ := h5 hv
      have b := (getElem?_map_ofNat _ _ _).1 b
      refine ⟨l, a, ⟨v, b, rfl⟩, ?_⟩
      rintro l' ⟨o, c, rfl⟩
      exact inj _ _ _ c b
    · left
      refine ⟨h4 hv, ?_⟩
      rintro l ⟨o, c, rfl⟩
      exact hv ((mem_map_ofNat _ _).2 ⟨o, List.mem_of_getElem? c, rfl⟩)
  | some act =>
    obtain ⟨hnd, hlen⟩ := hm.active act ha
    have hact : act.map Int.ofNat ≠ [] := by
      intro h
      have : act.length = 0 := by simpa using congrArg List.length h
      omega
    obtain ⟨q, g1, g2, g3⟩ := find_spec (values := orig.map Int.ofNat) (hs (act.map Int.ofNat)) (.inl hact)
    simp only [g1, Option.bind_some]
    obtain ⟨r, h1, h2, h3⟩ := find_spec (values := q) (hs (m.cellIndex.map Int.ofNat)) (.inl hne)
    refine ⟨r, h1, by rw [h2, g2]; simp, fun k v hk => ?_⟩
    simp only [origCell_iff, ha]
    obtain ⟨g4, g5⟩ := g3 k (Int.ofNat v) ((getElem?_map_ofNat _ _ _).2 hk)
    by_cases hv : Int.ofNat v ∈ act.map Int.ofNat
    · obtain ⟨p, a, b⟩ := g5 hv
      have b := (getElem?_map_ofNat _ _ _).1 b
      obtain ⟨h4, h5⟩ := h3 k (Int.ofNat p) a
      have uniq : ∀ o, act[o]? = some v → o = p := by
        intro o ho
        obtain ⟨h1, e1⟩ := List.getElem?_eq_some_iff.1 ho
        obtain ⟨h2, e2⟩ := List.getElem?_eq_some_iff.1 b
        exact (List.Nodup.getElem_inj_iff hnd).1 (e1.trans e2.symm)
      by_cases hp : Int.ofNat p ∈ m.cellIndex.map Int.ofNat
      · right
        obtain ⟨l, c, d⟩ := h5 hp
        have d := (getElem?_map_ofNat _ _ _).1 d
        refine ⟨l, c, ⟨p, d, b⟩, ?_⟩
        rintro l' ⟨o, e, f⟩
        obtain rfl := uniq o f
        exact inj _ _ _ e d
      · left
        refine ⟨h4 hp, ?_⟩
        rintro l ⟨o, e, f⟩
        obtain rfl := uniq o f
        exact hp ((mem_map_ofNat _ _).2 ⟨o, List.mem_of_getElem? e, rfl⟩)
    · left
      have hm1 : (-1 : Int) ∉ m.cellIndex.map Int.ofNat := by
        intro h
        obtain ⟨n, -, h⟩ := (mem_map_ofNat _ _).1 h
        have : (0 : Int) ≤ Int.ofNat n := Int.natCast_nonneg n
        omega
      refine ⟨(h3 k (-1) (g4 hv)).1 hm1, ?_⟩
      rintro l ⟨o, -, f⟩
      exact hv ((mem_map_ofNat _ _).2 ⟨v, List.mem_of_getElem? f, rfl⟩)

/-- **C64** (cells): every list of local cells has original numbers, and they are translated back to the same cells. -/
theorem C64_cells_round_trip {argsort : List Int → List Nat} (hs : ∀ l, IsArgsort l (argsort l)) (m : PyMesh) {nRows : Nat}
    (hm : m.Ok nRows) (dlf : List Nat) (hd : ∀ l ∈ dlf, l < m.cellIndex.length) :
    ∃ orig, m.origCells dlf = some orig ∧ m.dlfCells argsort (orig.map Int.ofNat) = some (dlf.map Int.ofNat) := by
  obtain ⟨o, h1, h2, h3⟩ := take_ok (a := m.cellIndex) (idx := dlf) hd
  have hex : ∃ orig, m.origCells dlf = some orig ∧ orig.length = dlf.length ∧
      ∀ (k l : Nat), dlf[k]? = some l → ∃ v, orig[k]? = some v ∧ m.OrigCell l v := by
    unfold PyMesh.origCells
    rw [h1]
    simp only [Option.bind_some, origCell_iff]
    have hk : ∀ (k l : Nat), dlf[k]? = some l → ∃ i, o[k]? = some i ∧ m.cellIndex[l]? = some i ∧ i < nRows := by
      intro k l h
      have := h3 k l h
      have hl := hd l (List.mem_of_getElem? h)
      rw [List.getElem?_eq_getElem hl] at this
      exact ⟨_, this, List.getElem?_eq_getElem hl, hm.cells_lt _ (List.getElem_mem hl)⟩
    cases ha : m.active with
    | none =>
      refine ⟨o, rfl, h2, fun k l h => ?_⟩
      obtain ⟨i, a, b, -⟩ := hk k l h
      exact ⟨i, a, i, b, rfl⟩
    | some act =>
      obtain ⟨hnd, hlen⟩ := hm.active act ha
      obtain ⟨r, g1, g2, g3⟩ := take_ok (a := act) (idx := o) (by
        intro i hi
        obtain ⟨k, hk', rfl⟩ := List.mem_iff_getElem.1 hi
        obtain ⟨j, a, -, c⟩ := hk k (dlf[k]'(by omega)) (List.getElem?_eq_getElem _)
        rw [List.getElem?_eq_getElem hk'] at a
        rw [Option.some.inj a, hlen]
        exact c)
      refine ⟨r, g1, by omega, fun k l h => ?_⟩
      obtain ⟨i, a, b, c⟩ := hk k l h
      have := g3 k i a
      have hi : i < act.length := by omega
      rw [List.getElem?_eq_getElem hi] at this
      exact ⟨_, this, i, b, List.getElem?_eq_getElem hi⟩
  obtain ⟨orig, e1, e2, e3⟩ := hex
  refine ⟨orig, e1, ?_⟩
  obtain ⟨r, f1, f2, f3⟩ := C64_cells_from_original hs m hm orig
  rw [f1]
  refine congrArg some (List.ext_getElem? fun k => ?_)
  cases hk : dlf[k]? with
  | none =>
    rw [List.getElem?_map, hk]
    have : r.length ≤ k := by rw [f2, e2]; exact List.getElem?_eq_none_iff.1 hk
    rw [List.getElem?_eq_none this]; rfl
  | some l =>
    obtain ⟨v, a, b⟩ := e3 k l hk
    rw [List.getElem?_map, hk]
    rcases f3 k v a with ⟨-, h⟩ | ⟨l', h, -, h'⟩
    · exact absurd b (h l)
    · rw [h, h' l b]; rfl

/-- **C64** (cells): on the process that creates the mesh, the row given to DOLFINx for a local cell is the row of the
original connectivity at the original number of that cell. -/
theorem C64_cells_rows {P : Type} (fuel : Nat) (nodes : List P) (conn : List (List Nat)) (active : Option (List Nat)) (junk : Nat → Nat)
    (m : PyMesh) (hm : m.active = storedActive active conn) (passed : List P × List (List Nat) × List Nat)
    (hp : passedMesh fuel nodes conn active none junk = some passed) (l v : Nat) (h : m.OrigCell l v)
    (hv : v < conn.length) :
    ∃ o row, m.cellIndex[l]? = some o ∧ passed.2.1[o]? = some row ∧ conn[v]? = some row := by
  rw [origCell_iff, hm] at h
  obtain ⟨o, h1, h2⟩ := h
  unfold passedMesh at hp
  refine ⟨o, conn[v], h1, ?_, List.getElem?_eq_getElem hv⟩
  cases hsA : storedActive active conn with
  | none =>
    rw [hsA] at hp h2
    obtain rfl := Option.some.inj hp
    simp only at h2
    subst h2
    exact List.getElem?_eq_getElem hv
  | some a =>
    rw [hsA] at hp h2
    simp only at h2 hp
    cases ht : take conn a with
    | none => rw [ht] at hp; simp at hp
    | some rows =>
      rw [ht] at hp
      simp only [Option.bind_some] at hp
      obtain rfl := Option.some.inj hp
      have := ((take_spec ht).2 o v h2).2
      simp only
      rw [this, List.getElem?_eq_getElem hv]

/-! ### Numberings of nodes -/

/-- **C64** (nodes): every list of local nodes has original numbers, and they are translated back to the same nodes, also
when nodes were merged (`mergedMap` reaches every node given to DOLFINx, see `C64_merge`). -/
theorem C64_nodes_round_trip {argsort : List Int → List Nat} (hs : ∀ l, IsArgsort l (argsort l)) (m : PyMesh)
    (hnd : m.nodeIndex.Nodup) (hne : m.nodeIndex ≠ []) (hmerged : m.mergedMap ≠ [] → ∀ i ∈ m.nodeIndex, i ∈ m.mergedMap)
    (dlf : List Nat) (hd : ∀ l ∈ dlf, l < m.nodeIndex.length) :
    ∃ orig : List Nat, m.origNodes argsort dlf = some (orig.map Int.ofNat) ∧ m.dlfNodes argsort orig = some (dlf.map Int.ofNat) := by
  obtain ⟨o, h1, h2, h3⟩ := take_ok (a := m.nodeIndex) (idx := dlf) hd
  have hk : ∀ (k l : Nat), dlf[k]? = some l → ∃ i, o[k]? = some i ∧ m.nodeIndex[l]? = some i := by
    intro k l h
    have := h3 k l h
    have hl := hd l (List.mem_of_getElem? h)
    rw [List.getElem?_eq_getElem hl] at this
    exact ⟨_, this, List.getElem?_eq_getElem hl⟩
  have hback : findInArray argsort (o.map Int.ofNat) (m.nodeIndex.map Int.ofNat) = some (dlf.map Int.ofNat) := by
    obtain ⟨r, e1, e2, e3⟩ := find_spec (values := o.map Int.ofNat) (hs (m.nodeIndex.map Int.ofNat)) (.inl (by simpa using hne))
    rw [e1]
    refine congrArg some (List.ext_getElem? fun k => ?_)
    cases hd' : dlf[k]? with
    | none =>
      rw [List.getElem?_map, hd']
      have : r.length ≤ k := by rw [e2, List.length_map, h2]; exact List.getElem?_eq_none_iff.1 hd'
      rw [List.getElem?_eq_none this]; rfl
    | some l =>
      obtain ⟨i, a, b⟩ := hk k l hd'
      obtain ⟨j, c, d⟩ := (e3 k (Int.ofNat i) ((getElem?_map_ofNat _ _ _).2 a)).2
        ((mem_map_ofNat _ _).2 ⟨i, List.mem_of_getElem? b, rfl⟩)
      have d := (getElem?_map_ofNat _ _ _).1 d
      obtain ⟨x1, y1⟩ := List.getElem?_eq_some_iff.1 b
      obtain ⟨x2, y2⟩ := List.getElem?_eq_some_iff.1 d
      have : l = j := (List.Nodup.getElem_inj_iff hnd).1 (y1.trans y2.symm)
      rw [List.getElem?_map, hd', c, this]; rfl
  unfold PyMesh.origNodes PyMesh.dlfNodes
  rw [h1, Option.bind_some]
  by_cases hmm : 0 < m.mergedMap.length
  · rw [if_pos hmm]
    have hm' : m.mergedMap ≠ [] := List.length_pos_iff.1 hmm
    obtain ⟨r, e1, e2, e3⟩ := find_spec (values := o.map Int.ofNat) (hs (m.mergedMap.map Int.ofNat)) (.inl (by simpa using hm'))
    have hfound : ∀ (k i : Nat), o[k]? = some i → ∃ j : Nat, r[k]? = some (Int.ofNat j) ∧ m.mergedMap[j]? = some i := by
      intro k i hki
      have him : i ∈ m.nodeIndex := by
        have hklt : k < dlf.length := by rw [← h2]; exact (List.getElem?_eq_some_iff.1 hki).1
        obtain ⟨i', a, b⟩ := hk k _ (List.getElem?_eq_getElem hklt)
        rw [hki] at a
        obtain rfl := Option.some.inj a
        exact List.mem_of_getElem? b
      obtain ⟨j, c, d⟩ := (e3 k (Int.ofNat i) ((getElem?_map_ofNat _ _ _).2 hki)).2
        ((mem_map_ofNat _ _).2 ⟨i, hmerged hm' i him, rfl⟩)
      exact ⟨j, c, (getElem?_map_ofNat _ _ _).1 d⟩
    refine ⟨r.map Int.toNat, ?_, ?_⟩
    · rw [e1]
      refine congrArg some (List.ext_getElem? fun k => ?_)
      rw [List.map_map, List.getElem?_map]
      cases hr : r[k]? with
      | none => rfl
      | some x =>
        have hklt : k < o.length := by
          have := (List.getElem?_eq_some_iff.1 hr).1
          rw [e2, List.length_map] at this
          exact this
        obtain ⟨j, c, -⟩ := hfound k _ (List.getElem?_eq_getElem hklt)
        rw [hr] at c
        obtain rfl := Option.some.inj c
        rfl
    · rw [if_pos hmm]
      have : take m.mergedMap (r.map Int.toNat) = some o := by
        have hlt : ∀ j ∈ r.map Int.toNat, j < m.mergedMap.length := by
          intro j hj
          obtain ⟨k, hkr, rfl⟩ := List.mem_iff_getElem.1 hj
          have hkr' : k < r.length := by simpa using hkr
          have hklt : k < o.length := by rw [e2, List.length_map] at hkr'; exact hkr'
          obtain ⟨j, c, d⟩ := hfound k _ (List.getElem?_eq_getElem hklt)
          rw [List.getElem?_eq_getElem hkr'] at c
          rw [List.getElem_map, Option.some.inj c]
          exact (List.getElem?_eq_some_iff.1 d).1
        obtain ⟨o', f1, f2, f3⟩ := take_ok hlt
        rw [f1]
        refine congrArg some (List.ext_getElem? fun k => ?_)
        cases hko : o[k]? with
        | none =>
          have := List.getElem?_eq_none_iff.1 hko
          exact List.getElem?_eq_none (by rw [f2, List.length_map, e2, List.length_map]; exact this)
        | some i =>
          obtain ⟨j, c, d⟩ := hfound k i hko
          rw [f3 k j (by rw [List.getElem?_map, c]; rfl), d]
      rw [this, Option.bind_some]
      exact hback
  · rw [if_neg hmm]
    exact ⟨o, rfl, by rw [if_neg hmm, Option.bind_some]; exact hback⟩

/-- **C64** (nodes): every list of original nodes is translated: for each one, the local number of the node it was merged
into (itself without merging), or -1 when that node is not in the process. -/
theorem C64_nodes_from_original {argsort : List Int → List Nat} (hs : ∀ l, IsArgsort l (argsort l)) (m : PyMesh)
    (hne : m.nodeIndex ≠ []) (orig : List Nat) (ho : m.mergedMap ≠ [] → ∀ i ∈ orig, i < m.mergedMap.length) :
    ∃ r, m.dlfNodes argsort orig = some r ∧ r.length = orig.length ∧
      ∀ (k v : Nat), orig[k]? = some v → ∃ w, (if m.mergedMap = [] then w = v else m.mergedMap[v]? = some w) ∧
        ((w ∉ m.nodeIndex ∧ r[k]? = some (-1)) ∨ ∃ l : Nat, r[k]? = some (l : Int) ∧ m.nodeIndex[l]? = some w) := by
  have hstep : ∀ q : List Nat, ∃ r, findInArray argsort (q.map Int.ofNat) (m.nodeIndex.map Int.ofNat) = some r ∧
      r.length = q.length ∧ ∀ (k w : Nat), q[k]? = some w →
        ((w ∉ m.nodeIndex ∧ r[k]? = some (-1)) ∨ ∃ l : Nat, r[k]? = some (l : Int) ∧ m.nodeIndex[l]? = some w) := by
    intro q
    obtain ⟨r, e1, e2, e3⟩ := find_spec (values := q.map Int.ofNat) (hs (m.nodeIndex.map Int.ofNat)) (.inl (by simpa using hne))
    refine ⟨r, e1, by simpa using e2, fun k w hk => ?_⟩
    obtain ⟨e4, e5⟩ := e3 k (Int.ofNat w) ((getElem?_map_ofNat _ _ _).2 hk)
    by_cases hw : w ∈ m.nodeIndex
    · obtain ⟨l, a, b⟩ := e5 ((mem_map_ofNat _ _).2 ⟨w, hw, rfl⟩)
      exact .inr ⟨l, a, (getElem?_map_ofNat _ _ _).1 b⟩
    · refine .inl ⟨hw, e4 fun h => ?_⟩
      obtain ⟨n, hn, e⟩ := (mem_map_ofNat _ _).1 h
      have : n = w := by simpa using e
      exact hw (this ▸ hn)
  unfold PyMesh.dlfNodes
  by_cases hmm : m.mergedMap = []
  · simp only [hmm, List.length_nil, Nat.lt_irrefl, if_false, if_true, Option.bind_some]
    obtain ⟨r, e1, e2, e3⟩ := hstep orig
    exact ⟨r, e1, e2, fun k v hk => ⟨v, rfl, e3 k v hk⟩⟩
  · obtain ⟨q, f1, f2, f3⟩ := take_ok (ho hmm)
    rw [if_pos (List.length_pos_iff.2 hmm), f1, Option.bind_some]
    obtain ⟨r, e1, e2, e3⟩ := hstep q
    refine ⟨r, e1, by omega, fun k v hk => ?_⟩
    have hv := ho hmm v (List.mem_of_getElem? hk)
    have := f3 k v hk
    rw [List.getElem?_eq_getElem hv] at this
    exact ⟨_, by rw [if_neg hmm, List.getElem?_eq_getElem hv], e3 k _ this⟩

/-! ### Several processes -/

/-- The data of the mesh in another process than the one that creates it: the connectivity is empty there and nodes are not
merged. mesh.py:362-385. -/
def otherRank (active : Option (List Nat)) (cellIndex nodeIndex : List Nat) : PyMesh :=
  { active := storedActive active [], mergedMap := [], cellIndex := cellIndex, nodeIndex := nodeIndex }

/-- **C64** fails in other processes: with the active cells [1, 0] of a mesh of two cells, the first process gives DOLFINx the
cells in their order and forgets the active cells; a second process that has the second cell (row 1, original number 1)
reports the original number 0. With two nodes merged, a second process reports the number of the node after merging. -/
theorem C64_other_processes_fail :
    (∃ passed, passedMesh 9 [(0 : ℚ), 1, 2] [[0, 1], [1, 2]] (some [1, 0]) none (fun _ => 7) = some passed ∧
      passed.2.1[1]? = some [1, 2] ∧ (otherRank (some [1, 0]) [1] []).OrigCell 0 0) ∧
    ∃ passed, passedMesh 99 [(0 : ℚ), 1, 1, 2] [[0, 1], [2, 3]] none (some [(1, 2)]) (fun _ => 7) = some passed ∧
      passed.2.2 = [0, 1, 1, 2] ∧ passed.1 = [0, 1, 2] ∧
      ∀ argsort, (otherRank none [] [2]).origNodes argsort [0] = some [2] := by
  refine ⟨⟨_, rfl, by decide +kernel, by unfold PyMesh.OrigCell; decide +kernel⟩, _, rfl, by decide +kernel, by decide +kernel, ?_⟩
  intro argsort
  rfl

/-! ### Faces of tensor-product meshes -/

/-- **C64** (faces): the local cells that touch a face of the tensor-product mesh, in increasing order. -/
theorem C64_face_cells {argsort : List Int → List Nat} (hs : ∀ l, IsArgsort l (argsort l)) (m : PyMesh) {nRows : Nat}
    (hm : m.Ok nRows) (nCells : List Nat) (hn : Sizes 1 nCells) (f : Nat) (hf : f < 2 * nCells.length) :
    ∃ r : List Nat, faceCells argsort m nCells f = some (r.map Int.ofNat) ∧ r.Pairwise (· ≤ ·) ∧
      ∀ l, l ∈ r ↔ ∃ t, OnLexFacet nCells f t ∧ m.OrigCell l (flatIndex t nCells) := by
  obtain ⟨lex, h1, h2⟩ := C62_face nCells hn f hf
  obtain ⟨r, g1, g2, g3⟩ := C64_cells_from_original hs m hm lex
  have hmem : ∀ x : Int, x ∈ r → 0 ≤ x → ∃ l : Nat, x = Int.ofNat l ∧ ∃ v ∈ lex, m.OrigCell l v := by
    intro x hx hx0
    obtain ⟨k, hk, rfl⟩ := List.mem_iff_getElem.1 hx
    have hkl : k < lex.length := by omega
    rcases g3 k _ (List.getElem?_eq_getElem hkl) with ⟨h, -⟩ | ⟨l, h, h', -⟩
    · rw [List.getElem?_eq_getElem hk] at h
      have := Option.some.inj h
      omega
    · rw [List.getElem?_eq_getElem hk] at h
      exact ⟨l, Option.some.inj h, _, List.getElem_mem hkl, h'⟩
  have hmem' : ∀ (l v : Nat), v ∈ lex → m.OrigCell l v → (l : Int) ∈ r := by
    intro l v hv ho
    obtain ⟨k, hk, rfl⟩ := List.mem_iff_getElem.1 hv
    rcases g3 k _ (List.getElem?_eq_getElem hk) with ⟨-, h⟩ | ⟨l', h, -, h'⟩
    · exact absurd ho (h l)
    · rw [h' l ho]
      exact List.mem_of_getElem? h
  let S := (r.filter (0 ≤ ·)).insertionSort (· ≤ ·)
  have hSmem : ∀ x, x ∈ S ↔ x ∈ r ∧ 0 ≤ x := by
    intro x
    show x ∈ (r.filter (0 ≤ ·)).insertionSort _ ↔ _
    rw [(List.perm_insertionSort _ _).mem_iff, List.mem_filter]
    simp
  have hSsort : S.Pairwise (· ≤ ·) := List.pairwise_insertionSort _ _
  have hSnat : (S.map Int.toNat).map Int.ofNat = S := by
    rw [List.map_map]
    conv_rhs => rw [← List.map_id S]
    refine List.map_congr_left fun x hx => ?_
    have := ((hSmem x).1 hx).2
    simp only [Function.comp_apply, id]
    exact Int.toNat_of_nonneg this
  refine ⟨S.map Int.toNat, ?_, ?_, ?_⟩
  · unfold faceCells
    rw [h1, Option.bind_some, g1, Option.map_some, hSnat]
  · rw [List.pairwise_map]
    exact hSsort.imp fun h => Int.toNat_le_toNat h
  · intro l
    constructor
    · intro hl
      obtain ⟨x, hx, rfl⟩ := List.mem_map.1 hl
      obtain ⟨hx1, hx2⟩ := (hSmem x).1 hx
      obtain ⟨l, rfl, v, hv, ho⟩ := hmem x hx1 hx2
      obtain ⟨t, ht, rfl⟩ := (h2.2 v).1 hv
      exact ⟨t, ht, ho⟩
    · rintro ⟨t, ht, ho⟩
      have hv := (h2.2 _).2 ⟨t, ht, rfl⟩
      have := hmem' l _ hv ho
      exact List.mem_map.2 ⟨(l : Int), (hSmem _).2 ⟨this, Int.natCast_nonneg l⟩, by simp⟩

/-- Facet `g` of the basix cell is on its (lexicographical) side `f`. -/
def SideFacet (dim g f : Nat) : Prop :=
  ∃ p, ((basix dim).facets dim)[g]? = some p ∧ lexFacetCorners (basix dim) f = spanned (basix dim) dim p

theorem sideFacet_last {dim f : Nat} (h1 : 1 ≤ dim) (h3 : dim ≤ 3) (hf : f < 2 * dim) (hlast : dim = 1 ∨ f + 1 = 2 * dim) (g : Nat) :
    SideFacet dim g f ↔ g = f := by
  have hg : ∀ dim, 1 ≤ dim → dim ≤ 3 → ((basix dim).facets dim).length = 2 * dim := by decide
  constructor
  · rintro ⟨p, hp, he⟩
    have hgl : g < 2 * dim := by rw [← hg dim h1 h3]; exact (List.getElem?_eq_some_iff.1 hp).1
    have : ∀ dim, 1 ≤ dim → dim ≤ 3 → ∀ f, f < 2 * dim → (dim = 1 ∨ f + 1 = 2 * dim) → ∀ g, g < 2 * dim →
        (((basix dim).facets dim)[g]?.any fun p => decide (lexFacetCorners (basix dim) f = spanned (basix dim) dim p)) = true →
        g = f := by
      intro dim h1 h3
      rcases dims h1 h3 with rfl | rfl | rfl <;> decide
    refine this dim h1 h3 f hf hlast g hgl ?_
    rw [hp]; simpa using he
  · rintro rfl
    have : ∀ dim, 1 ≤ dim → dim ≤ 3 → ∀ f, f < 2 * dim → (dim = 1 ∨ f + 1 = 2 * dim) →
        (((basix dim).facets dim)[f]?.any fun p => decide (lexFacetCorners (basix dim) f = spanned (basix dim) dim p)) = true := by
      intro dim h1 h3
      rcases dims h1 h3 with rfl | rfl | rfl <;> decide
    have := this dim h1 h3 g hf hlast
    cases hp : ((basix dim).facets dim)[g]? with
    | none => rw [hp] at this; simp at this
    | some p => rw [hp] at this; exact ⟨p, hp, by simpa using this⟩

/-- **C64** (faces): the facets on a face of the mesh, for meshes of segments and for the last face in 2D and 3D. The full
statement is for all the faces: see `C64_face_facets_fail`. -/
theorem C64_face_facets_partial {argsort : List Int → List Nat} (hs : ∀ l, IsArgsort l (argsort l)) (m : PyMesh) {nRows : Nat}
    (hm : m.Ok nRows) (nCells : List Nat) (hn : Sizes 1 nCells) (f : Nat) (hf : f < 2 * nCells.length)
    (cellFacets : List (List Nat)) (hlen : cellFacets.length = m.cellIndex.length)
    (hrow : ∀ row ∈ cellFacets, row.length = 2 * nCells.length)
    (hlast : nCells.length = 1 ∨ f + 1 = 2 * nCells.length) :
    ∃ r, faceFacets argsort m nCells cellFacets f = some r ∧ r.Pairwise (· < ·) ∧
      ∀ x, x ∈ r ↔ ∃ (l g : Nat) (t : List Nat) (row : List Nat), OnLexFacet nCells f t ∧ m.OrigCell l (flatIndex t nCells) ∧
        SideFacet nCells.length g f ∧ cellFacets[l]? = some row ∧ row[g]? = some x := by
  obtain ⟨cells, h1, -, h3⟩ := C64_face_cells hs m hm nCells hn f hf
  have hl : ∀ l ∈ cells, l < cellFacets.length := by
    intro l hl
    obtain ⟨t, -, ho⟩ := (h3 l).1 hl
    obtain ⟨o, ho, -⟩ := (origCell_iff _ _ _).1 ho
    rw [hlen]; exact (List.getElem?_eq_some_iff.1 ho).1
  have hval : (cells.map Int.ofNat).mapM (fun c : Int => (cellFacets[c.toNat]?).bind fun row => row[f]?) =
      some (cells.map fun l => (cellFacets.getD l []).getD f 0) := by
    rw [List.mapM_map]
    refine mapM_some _ _ _ fun l hlm => ?_
    have hl' := hl l hlm
    have hr := hrow _ (List.getElem_mem hl')
    simp only [Function.comp_apply, Int.ofNat_eq_natCast, Int.toNat_natCast]
    rw [List.getElem?_eq_getElem hl', Option.bind_some, List.getD_eq_getElem _ [] hl', List.getElem?_eq_getElem (by omega),
      List.getD_eq_getElem _ 0 (by omega)]
  obtain ⟨u1, u2⟩ := npUnique_spec (cells.map fun l => (cellFacets.getD l []).getD f 0)
  refine ⟨_, by unfold faceFacets; rw [h1, Option.bind_some, hval, Option.map_some], u1, fun x => ?_⟩
  rw [u2]
  constructor
  · intro hx
    obtain ⟨l, hlm, rfl⟩ := List.mem_map.1 hx
    obtain ⟨t, ht, ho⟩ := (h3 l).1 hlm
    have hl' := hl l hlm
    have hr := hrow _ (List.getElem_mem hl')
    refine ⟨l, f, t, cellFacets[l], ht, ho, (sideFacet_last hn.1 hn.2.1 hf hlast f).2 rfl, List.getElem?_eq_getElem hl', ?_⟩
    rw [List.getElem?_eq_getElem (by omega), List.getD_eq_getElem _ [] hl', List.getD_eq_getElem _ 0 (by omega)]
  · rintro ⟨l, g, t, row, ht, ho, hg, hrw, hx⟩
    obtain rfl := (sideFacet_last hn.1 hn.2.1 hf hlast g).1 hg
    have hlm := (h3 l).2 ⟨t, ht, ho⟩
    refine List.mem_map.2 ⟨l, hlm, ?_⟩
    simp [List.getD_eq_getElem?_getD, hrw, hx]

/-- **C64** fails for the facets of the other faces: for a single quadrilateral or hexahedron, however its facets are numbered
(different numbers), the facet reported for face `f` is not the one on side `f`. -/
theorem C64_face_facets_fail {argsort : List Int → List Nat} (hs : ∀ l, IsArgsort l (argsort l)) (dim f : Nat)
    (hdim : dim = 2 ∨ dim = 3) (hf : f + 1 < 2 * dim) (row : List Nat) (hrow : row.length = 2 * dim) (hnd : row.Nodup) :
    ∃ x, faceFacets argsort ⟨none, [], [0], []⟩ (List.replicate dim 1) [row] f = some [x] ∧
      ∀ g, SideFacet dim g f → row[g]? ≠ some x := by
  have hface : Py.face (List.replicate dim 1) f true = some [0] := by
    have : ∀ dim, dim < 4 → 2 ≤ dim → ∀ f, f < 2 * dim → Py.face (List.replicate dim 1) f true = some [0] := by decide
    exact this dim (by omega) (by omega) f (by omega)
  have hcells : faceCells argsort ⟨none, [], [0], []⟩ (List.replicate dim 1) f = some [0] := by
    unfold faceCells PyMesh.dlfCells
    rw [hface]
    simp only [Option.bind_some]
    obtain ⟨r, e1, e2, e3⟩ := find_spec (values := [(0 : Int)]) (hs [(0 : Int)]) (.inl (by simp))
    have : findInArray argsort (List.map Int.ofNat [0]) (List.map Int.ofNat [0]) = some [0] := by
      show findInArray argsort [(0 : Int)] [(0 : Int)] = some [0]
      rw [e1]
      obtain ⟨i, a, b⟩ := (e3 0 0 rfl).2 (by simp)
      have hi : i = 0 := by
        have := (List.getElem?_eq_some_iff.1 b).1
        simpa using this
      subst hi
      match r, e2, a with
      | [y], _, a => simp at a; simp [a]
    rw [this]
    rfl
  have hfr : f < row.length := by omega
  refine ⟨row[f], ?_, ?_⟩
  · unfold faceFacets
    rw [hcells]
    simp [List.mapM_cons, hfr, npUnique]
  · rintro g ⟨p, hp, he⟩ hg
    obtain ⟨hgl, hgv⟩ := List.getElem?_eq_some_iff.1 hg
    have hgf : g = f := (List.Nodup.getElem_inj_iff hnd).1 hgv
    subst hgf
    have : ∀ dim, dim < 4 → 2 ≤ dim → ∀ f, f < 2 * dim → f + 1 < 2 * dim →
        (((basix dim).facets dim)[f]?.any fun p => decide (lexFacetCorners (basix dim) f = spanned (basix dim) dim p)) = false := by
      decide
    have := this dim (by omega) (by omega) g (by omega) hf
    rw [hp] at this
    simp at this
    exact this he

/-- C64 non-vacuity: a mesh of 2 x 1 quadrilaterals, renumbered by DOLFINx; the second one has the facets 4, 3, 5, 6. -/
example : PyMesh.Ok ⟨none, [], [1, 0], [5, 3, 4, 0, 1, 2]⟩ 2 ∧ PyMesh.OrigCell ⟨none, [], [1, 0], [5, 3, 4, 0, 1, 2]⟩ 0 1 ∧
    PyMesh.Ok ⟨some [4, 2], [], [1], []⟩ 2 ∧ PyMesh.OrigCell ⟨some [4, 2], [], [1], []⟩ 0 2 :=
  ⟨⟨by decide, by decide, by decide, by intro a h; simp at h⟩, by unfold PyMesh.OrigCell; decide,
    ⟨by decide, by decide, by decide, by intro a h; simp at h; subst h; decide⟩, by unfold PyMesh.OrigCell; decide⟩

end Qugar.Py
