import Verif.Lemmas.FacetQuadrature
/-
Helper lemmas for unfitted boundary rules.
-/
namespace Qugar
open Spec
variable {K : Type} [Field K] [LinearOrder K]

/-- The effect of appending a block. -/
def UnfQuad.push (q : UnfQuad K) (b : List (UNode K)) : UnfQuad K :=
  { q with points := q.points ++ b.map (·.1), weights := q.weights ++ b.map (·.2.1),
           normals := q.normals ++ b.map (·.2.2), nPts := q.nPts ++ [(b.length : Int)] }

theorem UStored.push {bs : List (List (UNode K))} {n : List Int} {p : List (List K)} {w : List K}
    {m : List (List K)} (h : UStored bs n p w m) (b : List (UNode K)) :
    UStored (bs ++ [b]) (n ++ [(b.length : Int)]) (p ++ b.map (·.1)) (w ++ b.map (·.2.1)) (m ++ b.map (·.2.2)) := by
  obtain ⟨h1, h2, h3, h4⟩ := h
  refine ⟨by simp [h1], by simp [h2], by simp [h3], by simp [h4]⟩

theorem UStored.lengths {bs : List (List (UNode K))} {n : List Int} {p : List (List K)} {w : List K}
    {m : List (List K)} (h : UStored bs n p w m) :
    p.length = w.length ∧ p.length = m.length ∧ n.sum = p.length ∧ n.length = bs.length := by
  obtain ⟨rfl, rfl, rfl, rfl⟩ := h
  refine ⟨?_, ?_, ?_, by simp⟩
  · induction bs with
    | nil => rfl
    | cons b bs ih => simp only [List.map_cons, List.flatten_cons, List.length_append, List.length_map, ih]
  · induction bs with
    | nil => rfl
    | cons b bs ih => simp only [List.map_cons, List.flatten_cons, List.length_append, List.length_map, ih]
  · induction bs with
    | nil => rfl
    | cons b bs ih =>
      simp only [List.map_cons, List.flatten_cons, List.length_append, List.length_map, List.sum_cons, ih]
      push_cast; ring

/-- The mapped node of the general surface rule. -/
def unfNode (o : QOracle K) (dom : Box K) (x : Node K) : UNode K :=
  let m := List.zipWith (· * ·) ((o.grad x.1).map (· / o.norm (o.grad x.1))) (Box.lengths dom)
  (Box.scaleTo01 dom x.1, x.2 * o.norm m / Box.volume dom, m.map (· / o.norm m))

/-- The mapped node of the polynomial surface rule. -/
def unfNodeBzr (o : QOracle K) (dom : Box K) (x : Node K) : UNode K :=
  (x.1.reverse, x.2, ((o.bzrGrad dom x.1).map (· / o.norm (o.bzrGrad dom x.1))).reverse)

theorem foldl_evalUnf (o : QOracle K) (dom : Box K) (l : List (Node K)) (q : UnfQuad K) :
    l.foldl (evalUnf o dom) q = { q with
      points := q.points ++ (l.map (unfNode o dom)).map (·.1),
      weights := q.weights ++ (l.map (unfNode o dom)).map (·.2.1),
      normals := q.normals ++ (l.map (unfNode o dom)).map (·.2.2) } := by
  induction l generalizing q with
  | nil => simp
  | cons a l ih => rw [List.foldl_cons, ih]; simp [evalUnf, unfNode]

theorem foldl_evalUnfBzr (o : QOracle K) (dom : Box K) (l : List (Node K)) (q : UnfQuad K) :
    l.foldl (evalUnfBzr o dom) q = { q with
      points := q.points ++ (l.map (unfNodeBzr o dom)).map (·.1),
      weights := q.weights ++ (l.map (unfNodeBzr o dom)).map (·.2.1),
      normals := q.normals ++ (l.map (unfNodeBzr o dom)).map (·.2.2) } := by
  induction l generalizing q with
  | nil => simp
  | cons a l ih => rw [List.foldl_cons, ih]; simp [evalUnfBzr, unfNodeBzr]

theorem algoimUnf_eq (o : QOracle K) (dom : Box K) (n : Nat) (q : UnfQuad K) :
    algoimUnf o dom n q = q.push (cutSurfaceRule o dom n) := by
  unfold algoimUnf cutSurfaceRule UnfQuad.push
  by_cases h : o.isBezier = true
  · simp only [h, if_true, foldl_evalUnfBzr, List.length_append, List.length_map]
    push_cast
    simp only [add_sub_cancel_left]
    rfl
  · have h' : o.isBezier = false := by simpa using h
    simp only [h', Bool.false_eq_true, if_false, foldl_evalUnf, List.length_append, List.length_map]
    push_cast
    simp only [add_sub_cancel_left]
    rfl

theorem getD_push_map {α β : Type} (l : List β) (b : List α) (π : α → β) (e : β) (j : Nat) (hj : j < b.length)
    (k : Nat) (hk : k = l.length) : (l ++ b.map π).getD (k + j) e = π (b[j]'hj) := by
  subst hk
  rw [List.getD_eq_getElem?_getD, List.getElem?_append_right (by omega), Nat.add_sub_cancel_left, List.getElem?_map,
    List.getElem?_eq_getElem hj]
  rfl

theorem eraseUnf_push (q : UnfQuad K) (b : List (UNode K)) (hl : q.points.length = q.weights.length)
    (hn : q.points.length = q.normals.length) (T : List K → List K → Bool) :
    eraseUnf ((lastIds (q.push b).nPts (q.push b).points.length).filter fun i =>
        T ((q.push b).points.getD i []) ((q.push b).normals.getD i [])) (q.push b) =
      q.push (b.filter fun x => !T x.1 x.2.2) := by
  let pre : List (UNode K) := q.points.map fun p => (p, 0, [])
  have hz : q.points.length = pre.length := by simp [pre]
  have hC : ∀ j (hj : j < b.length),
      (fun i => T ((q.push b).points.getD i []) ((q.push b).normals.getD i [])) (pre.length + j) =
        (fun x : UNode K => T x.1 x.2.2) (b[j]'hj) := by
    intro j hj
    dsimp only
    have e1 := getD_push_map q.points b (fun x : UNode K => x.1) [] j hj pre.length hz.symm
    have e2 := getD_push_map q.normals b (fun x : UNode K => x.2.2) [] j hj pre.length (by rw [← hz, hn])
    rw [← e1, ← e2]
    rfl
  have hids : lastIds (q.push b).nPts (q.push b).points.length =
      (List.range b.length).map fun i => (pre ++ b).length - b.length + i :=
    lastIds_push q.nPts pre b _ (by simp [UnfQuad.push, pre])
  rw [hids]
  have h1 := erasePoints_block pre b (fun x : UNode K => T x.1 x.2.2)
    (fun i => T ((q.push b).points.getD i []) ((q.push b).normals.getD i [])) (fun x => x.1) q.points hz hC
  have h2 := erasePoints_block pre b (fun x : UNode K => T x.1 x.2.2)
    (fun i => T ((q.push b).points.getD i []) ((q.push b).normals.getD i [])) (fun x => x.2.1) q.weights
    (by rw [← hz, hl]) hC
  have h4 := erasePoints_block pre b (fun x : UNode K => T x.1 x.2.2)
    (fun i => T ((q.push b).points.getD i []) ((q.push b).normals.getD i [])) (fun x => x.2.2) q.normals
    (by rw [← hz, hn]) hC
  have h3 := purge_ids_length pre b (fun x : UNode K => T x.1 x.2.2)
    (fun i => T ((q.push b).points.getD i []) ((q.push b).normals.getD i [])) hC
  have e1 : (q.push b).points = q.points ++ b.map (·.1) := rfl
  have e2 : (q.push b).weights = q.weights ++ b.map (·.2.1) := rfl
  have e4 : (q.push b).normals = q.normals ++ b.map (·.2.2) := rfl
  unfold eraseUnf
  rw [h3]
  rw [← e1] at h1
  rw [← e2] at h2
  rw [← e4] at h4
  rw [h1, h2, h4]
  have hle : (b.filter fun x : UNode K => !T x.1 x.2.2).length ≤ b.length := List.length_filter_le _ _
  unfold UnfQuad.push backSub
  simp only [List.dropLast_concat, List.getLastD_concat]
  congr 3
  push_cast [Nat.cast_sub hle]
  ring

theorem purgeUnfTest_eq (o : QOracle K) (dom : Box K) (f : Nat) (x : UNode K) :
    purgeUnfTest o dom f x.1 x.2.2 = decide (OnFacet o dom f x) := by
  rw [Bool.eq_iff_iff, decide_eq_true_iff]
  have hc : (facetCoord f : K) = if f % 2 = 0 then 0 else 1 := rfl
  unfold purgeUnfTest OnFacet
  rw [hc]
  simp only [Tol.equal, Tol.smallerThan, Tol.greaterThan, Tol.isZero]
  by_cases h1 : |x.1.getD (f / 2) 0 - (if f % 2 = 0 then 0 else 1)| ≤ o.tol
  · by_cases h2 : o.tol < 1 - |x.2.2.getD (f / 2) 0|
    · simp only [h1, decide_true, Bool.not_true, Bool.false_eq_true, if_false, gt_iff_lt, h2, if_true, true_and]
      constructor
      · intro h; exact absurd h (by simp)
      · rintro ⟨h3, _⟩; exact absurd h2 (not_lt.2 h3)
    · simp only [h1, decide_true, Bool.not_true, Bool.false_eq_true, if_false, gt_iff_lt, h2, decide_false,
        decide_eq_true_eq, not_lt.1 h2, true_and]
  · simp [h1]

theorem purgeUnfLoop_spec (o : QOracle K) (g : Grid K) (d : Dom) (c : Nat) (dom : Box K)
    (hdom : g.cellDomain c = some dom) (q : UnfQuad K) (hl : q.points.length = q.weights.length)
    (hn : q.points.length = q.normals.length) (fs : List Nat) (b : List (UNode K)) (q' : UnfQuad K)
    (h : purgeUnfLoop o g d c fs (q.push b) = some q') :
    q' = q.push (b.filter fun x => decide (∀ f ∈ fs, d.hasUnfFacet c f = some true → ¬ OnFacet o dom f x)) ∧
    ∀ f ∈ fs, ∃ u, d.hasUnfFacet c f = some u := by
  induction fs generalizing b with
  | nil =>
    simp only [purgeUnfLoop, Option.some.injEq] at h
    subst h
    simp
  | cons f fs ih =>
    rw [purgeUnfLoop] at h
    obtain ⟨unf, h1, h⟩ := Option.bind_eq_some_iff.1 h
    obtain ⟨q1, h2, h⟩ := Option.bind_eq_some_iff.1 h
    have hq1 : q1 = q.push (b.filter fun x => decide (d.hasUnfFacet c f = some true → ¬ OnFacet o dom f x)) := by
      cases unf
      · simp only [Bool.false_eq_true, if_false, Option.some.injEq] at h2
        rw [← h2]
        simp [h1]
      · simp only [if_true] at h2
        unfold purgeUnf at h2
        rw [h1] at h2
        simp only [Option.bind_some, Bool.not_true, Bool.false_and, Bool.false_eq_true, if_false] at h2
        obtain ⟨ext, _, h2⟩ := Option.bind_eq_some_iff.1 h2
        rw [hdom] at h2
        simp only [Option.map_some, Option.some.injEq] at h2
        rw [← h2, eraseUnf_push q b hl hn]
        congr 1
        apply List.filter_congr
        intro x _
        rw [purgeUnfTest_eq]
        simp [h1]
    subst hq1
    obtain ⟨r1, r2⟩ := ih _ h
    refine ⟨?_, ?_⟩
    · rw [r1, List.filter_filter]
      congr 1
      apply List.filter_congr
      intro x _
      rw [Bool.eq_iff_iff]
      simp only [Bool.and_eq_true, decide_eq_true_eq, List.forall_mem_cons]
      tauto
    · intro f' hf'
      rcases List.mem_cons.1 hf' with rfl | hf'
      · exact ⟨unf, h1⟩
      · exact r2 f' hf'

/-- The node of a facet rule as a node of the unfitted boundary rule. -/
def facetUNode (dim f : Nat) (x : Node K) : UNode K :=
  (x.1.insertIdx (f / 2) (if f % 2 = 0 then 0 else 1), x.2,
    (List.replicate dim (0 : K)).set (f / 2) (if f % 2 = 0 then -1 else 1))

theorem foldl_addUnfPoint (dim f : Nat) (r : List (Node K)) (q : UnfQuad K) (b : List (UNode K)) :
    r.foldl (addUnfPoint dim f) (q.push b) = q.push (b ++ r.map (facetUNode dim f)) := by
  induction r generalizing b with
  | nil => simp
  | cons x r ih =>
    have : addUnfPoint dim f (q.push b) x = q.push (b ++ [facetUNode dim f x]) := by
      unfold addUnfPoint UnfQuad.push backInc facetUNode facetCoord
      simp only [List.dropLast_concat, List.getLastD_concat, List.map_append, List.map_cons, List.map_nil,
        List.append_assoc, List.length_append, List.length_cons, List.length_nil]
      push_cast
      rfl
    rw [List.foldl_cons, this, ih]
    simp

theorem addUnfBdry_spec (debug : Bool) (t : QuadType K) (o : QOracle K) (g : Grid K) (d : Dom) (n c f : Nat)
    (ch : Cache K) (hg : g.length = 2 ∨ g.length = 3) (hc : CacheOk t ch) (q : UnfQuad K) (b : List (UNode K))
    (x : Cache K × UnfQuad K) (hunf : d.hasUnfFacet c f = some true)
    (h : addUnfBdry debug t o g d n c f ch (q.push b) = some x) :
    CacheOk t x.1 ∧ ∃ r, IsFacetRule t o g d n c f false true r ∧
      x.2 = q.push (b ++ r.map (facetUNode g.length f)) := by
  unfold addUnfBdry at h
  rw [hunf] at h
  simp only [Option.bind_some, if_true] at h
  obtain ⟨y, h1, rfl⟩ := Option.map_eq_some_iff.1 h
  obtain ⟨r1, r, r2, r3⟩ := facetQuad_spec debug t o g d n c f false true ch hg hc _ rfl y h1
  refine ⟨r1, r, r2, ?_⟩
  rw [r3]
  have e : ((FacetsQuad.push (⟨[], [], [], [], []⟩ : FacetsQuad K) r).points.zip
      (FacetsQuad.push (⟨[], [], [], [], []⟩ : FacetsQuad K) r).weights).take
      ((FacetsQuad.push (⟨[], [], [], [], []⟩ : FacetsQuad K) r).nPts.getLastD 0).toNat = r := by
    simp only [FacetsQuad.push, List.nil_append, List.getLastD_cons, List.getLastD_nil, Int.toNat_natCast]
    rw [List.zip_map', List.take_of_length_le (by simp)]
    simp
  rw [e]
  exact foldl_addUnfPoint _ _ _ _ _

theorem addUnfLoop_spec (debug : Bool) (t : QuadType K) (o : QOracle K) (g : Grid K) (d : Dom) (n c : Nat)
    (exclExt : Bool) (hg : g.length = 2 ∨ g.length = 3) (q : UnfQuad K) (fs : List Nat) (ch : Cache K)
    (hc : CacheOk t ch) (b : List (UNode K)) (x : Cache K × UnfQuad K)
    (h : addUnfLoop debug t o g d n c exclExt fs ch (q.push b) = some x) :
    CacheOk t x.1 ∧ ∃ facets : List (List (UNode K)), x.2 = q.push (b ++ facets.flatten) ∧
      List.Forall₂ (fun f blk =>
        if d.hasUnfFacet c f = some true ∧ (exclExt = true → g.onBoundary c f = some false) then
          ∃ r, IsFacetRule t o g d n c f false true r ∧ blk = r.map (facetUNode g.length f)
        else blk = []) fs facets := by
  induction fs generalizing ch b with
  | nil =>
    simp only [addUnfLoop, Option.some.injEq] at h
    subst h
    exact ⟨hc, [], by simp, List.Forall₂.nil⟩
  | cons f fs ih =>
    rw [addUnfLoop] at h
    obtain ⟨unf, h1, h⟩ := Option.bind_eq_some_iff.1 h
    obtain ⟨y, h2, h⟩ := Option.bind_eq_some_iff.1 h
    have key : CacheOk t y.1 ∧ ∃ blk : List (UNode K), y.2 = q.push (b ++ blk) ∧
        if d.hasUnfFacet c f = some true ∧ (exclExt = true → g.onBoundary c f = some false) then
          ∃ r, IsFacetRule t o g d n c f false true r ∧ blk = r.map (facetUNode g.length f)
        else blk = [] := by
      cases unf
      · simp only [Bool.false_eq_true, if_false, Option.some.injEq] at h2
        subst h2
        exact ⟨hc, [], by simp, by rw [if_neg (by simp [h1])]⟩
      · simp only [if_true] at h2
        obtain ⟨skip, h3, h4⟩ := Option.bind_eq_some_iff.1 h2
        cases skip
        · simp only [Bool.false_eq_true, if_false] at h4
          obtain ⟨r1, r, r2, r3⟩ := addUnfBdry_spec debug t o g d n c f ch hg hc q b y h1 h4
          refine ⟨r1, _, r3, ?_⟩
          have hb : exclExt = true → g.onBoundary c f = some false := by
            intro he
            rw [he] at h3
            simpa using h3
          rw [if_pos ⟨h1, hb⟩]
          exact ⟨r, r2, rfl⟩
        · simp only [if_true, Option.some.injEq] at h4
          subst h4
          refine ⟨hc, [], by simp, ?_⟩
          rw [if_neg]
          rintro ⟨_, he⟩
          cases exclExt
          · simp at h3
          · simp only [if_true] at h3
            rw [he rfl] at h3
            simp at h3
    obtain ⟨k1, blk, k2, k3⟩ := key
    rw [k2] at h
    obtain ⟨r1, facets, r2, r3⟩ := ih y.1 k1 (b ++ blk) h
    exact ⟨r1, blk :: facets, by rw [r2]; simp, List.Forall₂.cons k3 r3⟩

theorem unfQuad_spec (debug : Bool) (t : QuadType K) (o : QOracle K) (g : Grid K) (d : Dom) (n : Nat)
    (incl exclExt : Bool) (c : Nat) (ch : Cache K) (hg : g.length = 2 ∨ g.length = 3) (hc : CacheOk t ch)
    (q : UnfQuad K) (hl : q.points.length = q.weights.length) (hn : q.points.length = q.normals.length)
    (x : Cache K × UnfQuad K) (h : unfQuad debug t o g d n incl exclExt c ch q = some x) :
    CacheOk t x.1 ∧ ∃ b, IsUnfRule t o g d n incl exclExt c b ∧ x.2 = q.push b := by
  have hzero : ({ q with nPts := q.nPts ++ [0] } : UnfQuad K) = q.push [] := by simp [UnfQuad.push]
  unfold unfQuad at h
  split at h
  · obtain ⟨w, h1, h⟩ := Option.bind_eq_some_iff.1 h
    cases w
    · simp only [Bool.not_false, if_true, Option.some.injEq] at h
      subst h
      exact ⟨hc, [], Or.inl ⟨h1, rfl⟩, hzero⟩
    · simp only [Bool.not_true, Bool.false_eq_true, if_false] at h
      obtain ⟨cut, h2, h⟩ := Option.bind_eq_some_iff.1 h
      obtain ⟨q1, h3, h⟩ := Option.bind_eq_some_iff.1 h
      have key : ∃ inner : List (UNode K), q1 = q.push inner ∧
          ((d.isCutCell c = some false ∧ inner = []) ∨
           (d.isCutCell c = some true ∧ ∃ dom, g.cellDomain c = some dom ∧
            inner = (cutSurfaceRule o dom n).filter fun x =>
              decide (∀ f < g.length * 2, d.hasUnfFacet c f = some true → ¬ OnFacet o dom f x))) := by
        cases cut
        · simp only [Bool.false_eq_true, if_false, Option.some.injEq] at h3
          exact ⟨[], by rw [← h3]; exact hzero, Or.inl ⟨h2, rfl⟩⟩
        · simp only [if_true] at h3
          obtain ⟨dom, h4, h5⟩ := Option.bind_eq_some_iff.1 h3
          rw [algoimUnf_eq] at h5
          obtain ⟨r1, _⟩ := purgeUnfLoop_spec o g d c dom h4 q hl hn _ _ q1 h5
          refine ⟨_, r1, Or.inr ⟨h2, dom, h4, ?_⟩⟩
          apply List.filter_congr
          intro x _
          simp only [List.mem_range]
      obtain ⟨inner, rfl, k2⟩ := key
      cases incl
      · simp only [Bool.false_eq_true, if_false, Option.some.injEq] at h
        subst h
        refine ⟨hc, inner, Or.inr ⟨h1, inner, List.replicate (g.length * 2) [], by simp, k2, by simp, ?_⟩, rfl⟩
        intro f hf
        rw [if_neg (by simp)]
        simp
      · simp only [if_true] at h
        obtain ⟨r1, facets, r2, r3⟩ := addUnfLoop_spec debug t o g d n c exclExt hg q _ ch hc inner x h
        have hlen := r3.length_eq
        rw [List.length_range] at hlen
        refine ⟨r1, _, Or.inr ⟨h1, inner, facets, rfl, k2, hlen.symm, ?_⟩, r2⟩
        intro f hf
        have := List.forall₂_iff_get.1 r3
        have hh := this.2 f (by simp; omega) hf
        simp only [List.get_eq_getElem, List.getElem_range] at hh
        by_cases hcond : d.hasUnfFacet c f = some true ∧ (exclExt = true → g.onBoundary c f = some false)
        · rw [if_pos hcond] at hh
          rw [if_pos ⟨rfl, hcond⟩]
          exact hh
        · rw [if_neg hcond] at hh
          rw [if_neg (by tauto)]
          exact hh
  · simp at h

theorem unfLoop_spec (debug : Bool) (t : QuadType K) (o : QOracle K) (g : Grid K) (d : Dom) (n : Nat)
    (incl exclExt : Bool) (hg : g.length = 2 ∨ g.length = 3) (cs : List Nat) (ch : Cache K)
    (hc : CacheOk t ch) (q : UnfQuad K) (bs : List (List (UNode K)))
    (hq : UStored bs q.nPts q.points q.weights q.normals)
    (x : Cache K × UnfQuad K) (h : unfLoop debug t o g d n incl exclExt cs ch q = some x) :
    CacheOk t x.1 ∧ ∃ bs', List.Forall₂ (IsUnfRule t o g d n incl exclExt) cs bs' ∧
      UStored (bs ++ bs') x.2.nPts x.2.points x.2.weights x.2.normals ∧ x.2.cells = q.cells := by
  induction cs generalizing ch q bs with
  | nil =>
    simp only [unfLoop, Option.some.injEq] at h
    subst h
    exact ⟨hc, [], List.Forall₂.nil, by simpa using hq, rfl⟩
  | cons c cs ih =>
    rw [unfLoop] at h
    obtain ⟨y, h1, h2⟩ := Option.bind_eq_some_iff.1 h
    obtain ⟨l1, l2, _, _⟩ := UStored.lengths hq
    obtain ⟨hc', b, hb, hy⟩ := unfQuad_spec debug t o g d n incl exclExt c ch hg hc q l1 l2 y h1
    have hst : UStored (bs ++ [b]) y.2.nPts y.2.points y.2.weights y.2.normals := by
      rw [hy]; exact UStored.push hq b
    obtain ⟨r1, bs', r2, r3, r4⟩ := ih y.1 hc' y.2 (bs ++ [b]) hst h2
    refine ⟨r1, b :: bs', List.Forall₂.cons hb r2, ?_, by rw [r4, hy]; rfl⟩
    rw [show bs ++ b :: bs' = bs ++ [b] ++ bs' by simp]
    exact r3

end Qugar
