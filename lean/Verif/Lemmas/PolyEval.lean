import Verif.Model.Poly
import Verif.Lemmas.TensorSum
import Mathlib.Tactic.Module
/-
Generic lemmas about the recursive evaluation of tensor-product polynomials.
-/
namespace Qugar.Poly
open Spec TS Finset

variable {K V : Type} [Field K] [AddCommGroup V] [Module K V]

/-- The recursion shared by `horner` and `casteljau`. -/
def evalRec (L : Nat → K → List V → V) : List (Nat × K) → List V → V × List V
  | [], c => (c.headD 0, c.tail)
  | (n, x) :: ds, c => let (beta, c') := readBlocks (evalRec L ds) n c; (L n x beta, c')

theorem horner_eq (ds : List (Nat × K)) : ∀ c : List V, horner ds c = evalRec (fun _ x => hornerLoop x) ds c := by
  induction ds with
  | nil => intro c; rfl
  | cons d ds ih =>
    intro c
    obtain ⟨n, x⟩ := d
    have : horner (V := V) ds = evalRec (fun _ x => hornerLoop x) ds := funext ih
    simp only [horner, evalRec, this]

theorem casteljau_eq (ds : List (Nat × K)) : ∀ c : List V,
    casteljau ds c = evalRec (fun n x => casteljauLoop x n) ds c := by
  induction ds with
  | nil => intro c; rfl
  | cons d ds ih =>
    intro c
    obtain ⟨n, x⟩ := d
    have : casteljau (V := V) ds = evalRec (fun n x => casteljauLoop x n) ds := funext ih
    simp only [casteljau, evalRec, this]

/-- The recursion shared by `hornerDer` and `casteljauDer`. -/
def derRec (L : Nat → K → List (List V) → List V) : List (Nat × K) → List V → List V × List V
  | [], c => ([c.headD 0], c.tail)
  | (n, x) :: ds, c => let (beta, c') := readBlocks (derRec L ds) n c; (L n x beta, c')

theorem hornerDer_eq (ds : List (Nat × K)) : ∀ c : List V, hornerDer ds c = derRec hornerDerLoop ds c := by
  induction ds with
  | nil => intro c; rfl
  | cons d ds ih =>
    intro c
    obtain ⟨n, x⟩ := d
    have : hornerDer (V := V) ds = derRec hornerDerLoop ds := funext ih
    simp only [hornerDer, derRec, this]

theorem casteljauDer_eq (ds : List (Nat × K)) : ∀ c : List V, casteljauDer ds c = derRec casteljauDerLoop ds c := by
  induction ds with
  | nil => intro c; rfl
  | cons d ds ih =>
    intro c
    obtain ⟨n, x⟩ := d
    have : casteljauDer (V := V) ds = derRec casteljauDerLoop ds := funext ih
    simp only [casteljauDer, derRec, this]

theorem readBlocks_eq {W : Type} (f : List V → W × List V) (g : List V → W) (B : Nat)
    (h : ∀ c, f c = (g c, c.drop B)) (n : Nat) : ∀ c : List V,
    readBlocks f n c = ((List.range n).map (fun i => g (c.drop (B * i))), c.drop (B * n)) := by
  induction n with
  | zero => intro c; simp [readBlocks]
  | succ n ih =>
    intro c
    simp only [readBlocks, h, ih]
    rw [List.range_succ_eq_map, List.map_cons, List.map_map]
    simp only [Nat.mul_zero, List.drop_zero, Prod.mk.injEq, List.cons.injEq, true_and, List.drop_drop]
    refine ⟨?_, by congr 1; ring⟩
    apply List.map_congr_left
    intro i _
    simp only [Function.comp]
    congr 2
    rw [Nat.succ_eq_add_one]; ring

theorem listProd_append (a b : List Nat) : listProd (a ++ b) = listProd a * listProd b := by
  induction a with
  | nil => simp [listProd]
  | cons x a ih => simp only [List.cons_append, listProd, ih]; ring

theorem headD_eq_getD (c : List V) : c.headD 0 = c.getD 0 0 := by cases c <;> rfl

theorem getD_drop' {α : Type} (c : List α) (m k : Nat) (d : α) : (c.drop m).getD k d = c.getD (k + m) d := by
  rw [List.getD_eq_getElem?_getD, List.getD_eq_getElem?_getD, List.getElem?_drop, Nat.add_comm]

theorem getD_map_range {α : Type} (n : Nat) (f : Nat → α) (k : Nat) (d : α) (hk : k < n) :
    ((List.range n).map f).getD k d = f k := by
  rw [List.getD_eq_getElem?_getD]; simp [hk]

/-- The basis functions `b order coordinate index` per direction. -/
def fam (b : Nat → K → Nat → K) (size : List Nat) (x : List K) : List (Nat → K) := List.zipWith b size x

theorem evalRec_eq (L : Nat → K → List V → V) (b : Nat → K → Nat → K)
    (hL : ∀ n x (beta : List V), 0 < n → beta.length = n → L n x beta = ∑ i ∈ range n, b n x i • beta.getD i 0)
    (ds : List (Nat × K)) (hpos : ∀ d ∈ ds, 0 < d.1) : ∀ c : List V,
    evalRec L ds c = (ts (ds.reverse.map (·.1)) (fam b (ds.reverse.map (·.1)) (ds.reverse.map (·.2))) (fun k => c.getD k 0),
      c.drop (listProd (ds.reverse.map (·.1)))) := by
  induction ds with
  | nil => intro c; simp [evalRec, listProd]; cases c <;> rfl
  | cons d ds ih =>
    intro c
    obtain ⟨n, x⟩ := d
    have hn : 0 < n := hpos (n, x) (by simp)
    simp only [evalRec]
    rw [readBlocks_eq _ _ _ (ih fun d hd => hpos d (by simp [hd]))]
    simp only [List.reverse_cons, List.map_append, List.map_cons, List.map_nil]
    rw [hL n x _ hn (by simp)]
    have hl : (ds.reverse.map (·.1)).length = (ds.reverse.map (·.2)).length := by simp
    have hf : fam b (ds.reverse.map (·.1) ++ [n]) (ds.reverse.map (·.2) ++ [x]) =
        fam b (ds.reverse.map (·.1)) (ds.reverse.map (·.2)) ++ [b n x] := by
      unfold fam
      rw [List.zipWith_append hl]; rfl
    rw [hf, ts_append _ _ _ _ (by simp [fam])]
    rw [listProd_append]
    simp only [Prod.mk.injEq, listProd, mul_one, and_true]
    apply sum_congr rfl
    intro i hi
    rw [mem_range] at hi
    rw [getD_map_range _ _ _ _ hi]
    simp only [getD_drop']

theorem zip_reverse_map {order : List Nat} {x : List K} (h : x.length = order.length) :
    ((order.zip x).reverse.reverse.map (·.1)) = order ∧ ((order.zip x).reverse.reverse.map (·.2)) = x := by
  rw [List.reverse_reverse]
  refine ⟨?_, ?_⟩
  · rw [List.map_fst_zip]; omega
  · rw [List.map_snd_zip]; omega

/-- The basis with the direction `d` replaced. -/
def famSet (b b' : Nat → K → Nat → K) (size : List Nat) (x : List K) (d : Nat) : List (Nat → K) :=
  (fam b size x).set d (b' (size.getD d 0) (x.getD d 0))

/-- Value and partial derivatives. -/
def valDers (b b' : Nat → K → Nat → K) (size : List Nat) (x : List K) (c : Nat → V) : List V :=
  ts size (fam b size x) c :: (List.range size.length).map fun d => ts size (famSet b b' size x d) c

theorem valDers_length (b b' : Nat → K → Nat → K) (size : List Nat) (x : List K) (c : Nat → V) :
    (valDers b b' size x c).length = size.length + 1 := by simp [valDers]

theorem derRec_eq (L : Nat → K → List (List V) → List V) (b b' : Nat → K → Nat → K) (ok : Nat → Prop)
    (hL : ∀ n x m (beta : List (List V)), ok n → beta.length = n → (∀ v ∈ beta, v.length = m + 1) →
      L n x beta = (List.range (m + 1)).map (fun k => ∑ i ∈ range n, b n x i • (beta.getD i []).getD k 0) ++
        [∑ i ∈ range n, b' n x i • (beta.getD i []).getD 0 0])
    (ds : List (Nat × K)) (hpos : ∀ d ∈ ds, ok d.1) : ∀ c : List V,
    derRec L ds c = (valDers b b' (ds.reverse.map (·.1)) (ds.reverse.map (·.2)) (fun k => c.getD k 0),
      c.drop (listProd (ds.reverse.map (·.1)))) := by
  induction ds with
  | nil => intro c; simp [derRec, listProd, valDers]; cases c <;> rfl
  | cons d ds ih =>
    intro c
    obtain ⟨n, x⟩ := d
    have hn : ok n := hpos (n, x) (by simp)
    simp only [derRec]
    rw [readBlocks_eq _ _ _ (ih fun d hd => hpos d (by simp [hd]))]
    simp only [List.reverse_cons, List.map_append, List.map_cons, List.map_nil]
    obtain ⟨ns, hns⟩ : ∃ ns, ns = ds.reverse.map (·.1) := ⟨_, rfl⟩
    obtain ⟨xs, hxs⟩ : ∃ xs, xs = ds.reverse.map (·.2) := ⟨_, rfl⟩
    rw [← hns, ← hxs]
    have hl : ns.length = xs.length := by rw [hns, hxs]; simp
    rw [hL n x ns.length _ hn (by simp) (by
      intro v hv
      obtain ⟨i, _, rfl⟩ := List.mem_map.1 hv
      exact valDers_length ..)]
    have hf : fam b (ns ++ [n]) (xs ++ [x]) = fam b ns xs ++ [b n x] := by
      unfold fam
      rw [List.zipWith_append hl]; rfl
    have hfl : (fam b ns xs).length = ns.length := by simp [fam, hl]
    rw [listProd_append]
    simp only [Prod.mk.injEq, listProd, mul_one, and_true]
    rw [show valDers b b' (ns ++ [n]) (xs ++ [x]) (fun k => c.getD k 0) =
      ts (ns ++ [n]) (fam b (ns ++ [n]) (xs ++ [x])) (fun k => c.getD k 0) ::
        (List.range (ns ++ [n]).length).map fun d => ts (ns ++ [n]) (famSet b b' (ns ++ [n]) (xs ++ [x]) d)
          (fun k => c.getD k 0) from rfl]
    have hlen : (ns ++ [n]).length = ns.length + 1 := by simp
    rw [hlen, show (List.range (ns.length + 1)).map (fun d => ts (ns ++ [n]) (famSet b b' (ns ++ [n]) (xs ++ [x]) d)
        (fun k => c.getD k 0)) = (List.range ns.length ++ [ns.length]).map (fun d => ts (ns ++ [n])
        (famSet b b' (ns ++ [n]) (xs ++ [x]) d) (fun k => c.getD k 0)) by rw [List.range_succ], List.map_append,
      List.map_cons, List.map_nil, List.range_succ_eq_map, List.map_cons, List.map_map, List.cons_append]
    have hblock : ∀ i ∈ range n, ((List.range n).map fun i => valDers b b' ns xs (fun k => (c.drop (listProd ns * i)).getD k 0)).getD i [] =
        valDers b b' ns xs (fun k => c.getD (k + listProd ns * i) 0) := by
      intro i hi
      rw [getD_map_range _ _ _ _ (mem_range.1 hi)]
      simp only [getD_drop']
    congr 1
    · rw [hf, ts_append _ _ _ _ hfl]
      apply sum_congr rfl
      intro i hi
      rw [hblock i hi]
      rfl
    · congr 1
      · apply List.map_congr_left
        intro d hd
        rw [List.mem_range] at hd
        have h2 : famSet b b' (ns ++ [n]) (xs ++ [x]) d = famSet b b' ns xs d ++ [b n x] := by
          unfold famSet
          rw [hf, List.set_append_left _ _ (by rw [hfl]; exact hd)]
          congr 3
          · rw [List.getD_append _ _ _ _ hd]
          · rw [List.getD_append _ _ _ _ (by omega)]
        rw [h2, ts_append _ _ _ _ (by simp [famSet, fam, hl])]
        apply sum_congr rfl
        intro i hi
        rw [hblock i hi]
        congr 1
        simp only [valDers, Nat.succ_eq_add_one, List.getD_cons_succ]
        rw [getD_map_range _ _ _ _ hd]
      · have h2 : famSet b b' (ns ++ [n]) (xs ++ [x]) ns.length = fam b ns xs ++ [b' n x] := by
          unfold famSet
          rw [hf, List.set_append_right _ _ (by omega), hfl]
          simp [hl]
        rw [h2, ts_append _ _ _ _ hfl]
        congr 1
        apply sum_congr rfl
        intro i hi
        rw [hblock i hi]
        rfl

end Qugar.Poly
