import Verif.Lemmas.GeneralState
import Verif.Lemmas.MeshHistory
/-
The constructors succeed, and append whole cells.
-/
namespace Qugar.General
open Roots Mesh Poly Reparam Spec TS
variable {K : Type} [Field K] [LinearOrder K]

theorem pdirs_false : ∀ (Ls : List (Level K)), pdirs false Ls = Ls.map (·.dir)
  | [] => rfl
  | L :: Ls => by rw [pdirs, pdirs_false Ls]; simp

theorem mem_pdirs_true : ∀ (Ls : List (Level K)) (T : Level K), Ls.getLast? = some T → (Ls.map (·.dir)).Nodup → ∀ k,
    k ∈ pdirs true Ls ↔ k ∈ Ls.map (·.dir) ∧ k ≠ T.dir
  | [], T, h, _ => by simp at h
  | [L], T, h, _ => by
    simp only [List.getLast?_singleton, Option.some.injEq] at h
    subst h
    intro k
    simp [pdirs]
  | L :: L' :: Ls, T, h, hn => by
    intro k
    rw [List.getLast?_cons_cons] at h
    rw [List.map_cons, List.nodup_cons] at hn
    rw [pdirs]
    simp only [List.isEmpty_cons, Bool.false_and, Bool.false_eq_true, if_false]
    show k ∈ L.dir :: pdirs true (L' :: Ls) ↔ k ∈ L.dir :: (L' :: Ls).map (·.dir) ∧ k ≠ T.dir
    rw [List.mem_cons, mem_pdirs_true (L' :: Ls) T h hn.2 k, List.mem_cons]
    constructor
    · rintro (rfl | h')
      · refine ⟨Or.inl rfl, ?_⟩
        intro he
        apply hn.1
        rw [he]
        exact List.mem_map.2 ⟨T, List.mem_of_getLast? h, rfl⟩
      · exact ⟨Or.inr h'.1, h'.2⟩
    · rintro ⟨rfl | h', h2⟩
      · exact Or.inl rfl
      · exact Or.inr ⟨h', h2⟩

variable [IsStrictOrderedRing K]

/-- Parameters of the whole reparameterization: `n` is the range, `d` the dimension of the mesh. -/
structure Par (E : Env K) (F : Fn K) (n d : Nat) (fc : Option Nat) : Prop where
  roots : RootsOk F
  tol0 : 0 ≤ E.tol
  tol1 : E.tol < 1
  sort : IsRootSort E.srt
  order : 1 < E.order
  node : ∀ j, j < E.order → 0 ≤ node E j ∧ node E j ≤ 1
  range : n = 2 ∨ n = 3
  dim : d = n - (if E.S = true ∨ fc.isSome = true then 1 else 0)
  surf : E.S = true → fc = none

/-- The direction that is removed from the indices. -/
def erOf (E : Env K) (fc : Option Nat) (T : Level K) : Option Nat := if E.S then some T.dir else fc

/-- The points inserted over a list of base points. -/
theorem fine_base {E : Env K} {F : Fn K} {n d : Nat} {fc : Option Nat} (hp : Par E F n d fc) {B : Box K} {free : List Bool}
    {Ps : List (Level K)} {dim : Nat} (h : St E n fc B free Ps dim) (hne : Ps ≠ []) {ι : Type} (is : List ι) (idx : ι → List Nat) (x : ι → List K)
    {A : Nat → Bool} (hA : ∀ k, k < n → A k = free.getD k false) (hA' : ∀ k, n ≤ k → A k = false)
    (hb : BaseIdx n E.order A (is.map idx)) (hx : ∀ i ∈ is, (x i).length = n ∧ ∀ k, k < n → free.getD k false = true → InAt B (x i) k)
    (q : List K) :
    ∃ Ms evs, computeRef E F Ps q (List.replicate n 0) (Ps.map fun _ => []) = some Ms ∧
      collect is (fun i => process E F Ps Ms (x i) (List.replicate n 0) (idx i)) = some evs ∧ Fine E.cheb d n E.order B (evs.map .ins) := by
  obtain ⟨T, hT⟩ : ∃ T, Ps.getLast? = some T := ⟨Ps.getLast hne, List.getLast?_eq_some_getLast hne⟩
  have hTm : T ∈ Ps := List.mem_of_getLast? hT
  have hlen : (List.replicate n 0).length = n := by simp
  obtain ⟨Ms, m1, m2, -, -⟩ := computeRef_total E F hp.roots Ps (Ps.map fun _ => []) q (List.replicate n 0) hne h.chain.levels
    (by rw [hlen]; exact h.chain.dirs) (fresh_empty _ _)
  obtain ⟨t1, t2, t3⟩ := h.top T hT
  have her : erDir E.S T = erOf E fc T := by
    unfold erOf
    cases hS : E.S with
    | true => simp [erDir]
    | false => simpa using t1
  obtain ⟨evs, e1, e2, e3⟩ := collect_keys (l := is) (f := fun i => process E F Ps Ms (x i) (List.replicate n 0) (idx i))
    (g := fun e : Event K => (e.cell, e.pt)) (h := fun c : List Nat × List Nat => (c.1, er (erOf E fc T) c.2))
    (k := fun i => keys E F Ps q (List.replicate n 0) (idx i)) (Q := fun e => e.point.length = n ∧ ∀ k, k < n → InAt B e.point k) (by
      intro i hi
      obtain ⟨x1, x2⟩ := hx i hi
      obtain ⟨evs, v1, v2, v3⟩ := process_spec E F hp.roots n B hp.node Ps Ms q (x i) (List.replicate n 0) (idx i)
        ((List.range n).filter fun k => free.getD k false) T hT h.chain x1 (by
          intro k hk
          rw [List.mem_filter, List.mem_range] at hk
          exact x2 k hk.1 hk.2) m2
      refine ⟨evs, v1, by rw [v2, her], ?_⟩
      intro e he
      refine ⟨(v3 e he).1, ?_⟩
      intro k hk
      refine (v3 e he).2 k hk ?_
      by_cases c : free.getD k false = true
      · exact Or.inl (List.mem_filter.2 ⟨List.mem_range.2 hk, c⟩)
      · by_cases c2 : k ∈ Ps.map (·.dir)
        · exact Or.inr (Or.inl c2)
        · have hfc : some k = fc := by
            by_contra h'
            exact c ((h.iff k hk).2 ⟨c2, h'⟩)
          refine Or.inr (Or.inr ⟨?_, t2.2 (by rw [← hfc]; rfl), t3 k hfc⟩)
          cases hS : E.S with
          | false => rfl
          | true => have := hp.surf hS; rw [← hfc] at this; simp at this)
  refine ⟨Ms, evs, m1, e1, ?_⟩
  have hen : ∀ k, some k = erOf E fc T → k < n := by
    intro k hk
    unfold erOf at hk
    split at hk
    · simp only [Option.some.injEq] at hk; rw [hk]; exact h.chain.dirs.2 T hTm
    · exact h.fcl k hk
  have hdim : n - (if (erOf E fc T).isSome then 1 else 0) = d := by
    rw [hp.dim]
    unfold erOf
    cases hS : E.S with
    | true => simp
    | false => simp
  obtain ⟨a1, a2⟩ := all_keys E F hne h.chain.dirs q hlen (e := erOf E fc T) hb (by
      intro L hL
      have hLn := h.chain.dirs.2 L hL
      rw [hA _ hLn]
      by_contra hc
      exact ((h.iff L.dir hLn).1 (by simpa using hc)).1 (List.mem_map.2 ⟨L, hL, rfl⟩)) (by
      intro k hk
      rw [hA k hk, h.iff k hk]
      unfold erOf
      cases hS : E.S with
      | true =>
        have hfc := hp.surf hS
        rw [mem_pdirs_true Ps T hT h.chain.dirs.1 k, hfc]
        simp only [if_true, ne_eq, Option.some.injEq]
        constructor
        · rintro (h' | h')
          · rintro rfl
            exact h'.1 (List.mem_map.2 ⟨T, hTm, rfl⟩)
          · exact h'.2
        · intro h'
          by_cases c : k ∈ Ps.map (·.dir)
          · exact Or.inr ⟨c, h'⟩
          · exact Or.inl ⟨c, by simp⟩
      | false =>
        rw [pdirs_false]
        simp only [Bool.false_eq_true, if_false]
        constructor
        · rintro (h' | h')
          · exact h'.2
          · obtain ⟨L, hL, rfl⟩ := List.mem_map.1 h'
            exact h.off L hL
        · intro h'
          by_cases c : k ∈ Ps.map (·.dir)
          · exact Or.inr c
          · exact Or.inl ⟨c, h'⟩) hen
  rw [hdim] at a2
  have hfl : (is.flatMap fun i => keys E F Ps q (List.replicate n 0) (idx i)) = (is.map idx).flatMap (keys E F Ps q (List.replicate n 0)) := by
    rw [List.flatMap_map]
  rw [hfl] at e2
  rw [← e2] at a1 a2
  exact fine_events E.cheb hp.order (cells_nodup E F Ps q _ (by rw [hlen]; exact h.chain.dirs)) a1 a2 e3

theorem getD_map_range' {α : Type} (n : Nat) (f : Nat → α) (a : α) (k : Nat) (hk : k < n) : ((List.range n).map f).getD k a = f k := by
  rw [List.getD_eq_getElem _ _ (by simpa using hk), List.getElem_map, List.getElem_range]

theorem interpolate_in {E : Env K} {F : Fn K} {n d : Nat} {fc : Option Nat} (hp : Par E F n d fc) {B box : Box K} (hbox : SubBox n box B) {k j : Nat}
    (hk : k < n) (hj : j < E.order) : (B.getD k (0, 0)).1 ≤ interpolate E box j k ∧ interpolate E box j k ≤ (B.getD k (0, 0)).2 := by
  obtain ⟨b1, b2, b3⟩ := hbox.2 k hk
  have := mem_between (a := sideAt box 0 k) (b := sideAt box 1 k) ⟨le_refl _, b2⟩ ⟨b2, le_refl _⟩ (hp.node j hj)
  have e : interpolate E box j k = sideAt box 0 k + (sideAt box 1 k - sideAt box 0 k) * node E j := rfl
  rw [e]
  exact ⟨le_trans b1 this.1, le_trans this.2 b3⟩

/-- The base case. -/
theorem fine_baseActions {E : Env K} {F : Fn K} {n d : Nat} {fc : Option Nat} (hp : Par E F n d fc) {B box : Box K} (hbox : SubBox n box B)
    {free : List Bool} {Ps : List (Level K)} {dim : Nat} (h : St E n fc B free Ps dim) (hne : Ps ≠ []) (hd : 0 < dim) :
    ∃ acts, baseActions E F free dim box Ps = some acts ∧ Fine E.cheb d n E.order B acts := by
  have ho := hp.order
  have hidx := base_spread free E.order
  rw [h.len, h.cnt] at hidx
  unfold baseActions
  dsimp only
  rw [h.len, visitAll_ofUpper (by simp; omega) (fun n hn => by rw [List.eq_of_mem_replicate hn]; omega)]
  obtain ⟨Ms, evs, m1, m2, m3⟩ := fine_base hp h hne (indices (List.replicate dim E.order)) (spread free 0)
    (fun t => (List.range n).map fun d => if free.getD d false then interpolate E box ((spread free 0 t).getD d 0) d else E.u)
    (fun k _ => rfl) (fun k hk => by rw [List.getD_eq_default _ _ (by rw [h.len]; exact hk)]) hidx (by
      intro t ht
      refine ⟨by simp, ?_⟩
      intro k hk hf
      have hlt := ((hidx.2 _).1 (List.mem_map.2 ⟨t, ht, rfl⟩)).2.1 k hk hf
      unfold InAt
      have e : vat ((List.range n).map fun d => if free.getD d false then interpolate E box ((spread free 0 t).getD d 0) d else E.u) k =
          interpolate E box ((spread free 0 t).getD k 0) k := by
        unfold vat
        rw [getD_map_range' _ _ _ _ hk, if_pos hf]
      rw [e]
      exact interpolate_in hp hbox hk hlt)
    ((List.range n).map fun d => if free.getD d false then midAt box d else E.u)
  rw [m1]
  simp only [Option.bind_eq_bind, Option.bind_some]
  rw [m2]
  exact ⟨_, rfl, m3⟩

/-- The line. -/
theorem fine_lineActions {E : Env K} {F : Fn K} {n d : Nat} {fc : Option Nat} (hp : Par E F n d fc) {B : Box K}
    {free : List Bool} {Ls : List (Level K)} (h : St E n fc B free Ls 0) (hne : Ls ≠ []) :
    ∃ acts, lineActions E F n Ls = some acts ∧ Fine E.cheb d n E.order B acts := by
  unfold lineActions
  have hf : ∀ k, free.getD k false = false := by
    intro k
    by_cases hk : k < free.length
    · rw [List.getD_eq_getElem _ _ hk]
      by_contra hc
      have : true ∈ free := by
        have := List.getElem_mem hk
        rw [show free[k] = true by simpa using hc] at this
        exact this
      have := List.count_pos_iff.2 this
      have := h.cnt
      omega
    · rw [List.getD_eq_default _ _ (by omega)]
  obtain ⟨Ms, evs, m1, m2, m3⟩ := fine_base hp h hne [()] (fun _ => List.replicate n 0)
    (fun _ => List.replicate n 0) (A := fun _ => false) (fun k _ => (hf k).symm) (fun _ _ => rfl) (by simpa using base_zero n E.order) (by
      intro i _
      refine ⟨by simp, ?_⟩
      intro k hk hf'
      rw [hf k] at hf'
      simp at hf') (List.replicate n 0)
  rw [m1]
  simp only [Option.bind_eq_bind, Option.bind_some]
  have : process E F Ls Ms (List.replicate n 0) (List.replicate n 0) (List.replicate n 0) = some evs := by
    unfold collect at m2
    rw [List.mapM_cons, List.mapM_nil] at m2
    cases hpr : process E F Ls Ms (List.replicate n 0) (List.replicate n 0) (List.replicate n 0) with
    | none => rw [hpr] at m2; simp at m2
    | some v => rw [hpr] at m2; simpa using m2
  rw [this]
  exact ⟨_, rfl, m3⟩

/-- The whole box, without higher levels. -/
theorem fine_fullActions {E : Env K} {F : Fn K} {n d : Nat} {fc : Option Nat} (hp : Par E F n d fc) {B box : Box K} (hbox : SubBox n box B)
    {free : List Bool} {dim : Nat} (h : St E n fc B free [] dim) (hd : 0 < dim) (hS : E.S = false) (psi : List Psi) :
    ∃ acts, fullActions E free dim psi box = some acts ∧ Fine E.cheb d n E.order B acts := by
  have ho := hp.order
  have hn := h.total
  rw [List.length_nil, Nat.add_zero] at hn
  have hiff := h.iff
  simp only [List.map_nil, List.not_mem_nil, not_false_eq_true, true_and] at hiff
  have hdim := hp.dim
  rw [hS] at hdim
  simp only [Bool.false_eq_true, false_or] at hdim
  unfold fullActions
  rw [h.len]
  cases hfc : fc with
  | none =>
    rw [hfc] at hn hdim
    simp only [Option.isSome_none, Bool.false_eq_true, if_false, Nat.add_zero, Nat.sub_zero] at hn hdim
    rw [if_pos hn]
    refine ⟨_, rfl, ?_⟩
    intro m md mr mo mw
    have hpe := pushFullCell_eq E.cheb m box (by omega) (by omega)
    have hfull : addFullCell E.cheb m box false = some (pushFullCell E.cheb m box) := by
      unfold addFullCell numCells ppc
      rw [hpe]
      dsimp only
      rw [if_pos (by rw [List.length_append, List.length_range', Nat.add_mod_right, mo, md]; exact mw)]
      rfl
    refine ⟨(pushFullCell E.cheb m box, []), ?_, ?_⟩
    · rw [List.foldlM_cons, act, hfull]
      rfl
    · have hl : ((indices (List.replicate m.dim m.order)).map (fullCellPoint E.cheb m.order box)).length = m.order ^ m.dim := by
        rw [List.length_map, length_indices, listProd_replicate]
      refine ⟨_, _, 1, hpe, by rw [hl], by rw [hl]; omega, ?_⟩
      intro p hp'
      obtain ⟨t, ht, rfl⟩ := List.mem_map.1 hp'
      rw [mem_indices_iff] at ht
      unfold fullCellPoint
      have hlen : (List.zipWith (fun (iv : K × K) t => iv.1 + (iv.2 - iv.1) * pointIn01 E.cheb m.order t) box t).length = m.range := by
        rw [List.length_zipWith, hbox.1, ht.1]; omega
      refine ⟨hlen, ?_⟩
      intro k hk
      have hkt : k < t.length := by omega
      have hkb : k < box.length := by rw [hbox.1]; omega
      have e : vat (List.zipWith (fun (iv : K × K) t => iv.1 + (iv.2 - iv.1) * pointIn01 E.cheb m.order t) box t) k = interpolate E box (t[k]) k := by
        unfold vat
        rw [List.getD_eq_getElem _ _ (by rw [hlen]; exact hk), List.getElem_zipWith]
        unfold interpolate extent node
        rw [List.getD_eq_getElem _ _ hkb, ← mo]
      unfold InAt
      rw [e]
      exact interpolate_in hp hbox (by omega) (by rw [← mo]; exact ht.2 _ (List.getElem_mem hkt))
  | some j =>
    rw [hfc] at hn hdim hiff
    simp only [Option.isSome_some, if_true] at hn hdim
    rw [if_neg (by omega)]
    have hj := h.fcl j hfc.symm
    have hfind : (List.range n).find? (fun d => !free.getD d false) = some j := by
      rw [List.find?_range_eq_some]
      refine ⟨?_, by rwa [List.mem_range], ?_⟩
      · have : ¬ free.getD j false = true := fun h' => ((hiff j hj).1 h') rfl
        simpa using this
      · intro k hk
        rw [(hiff k (by omega)).2 (by simp; omega)]
        rfl
    rw [hfind]
    dsimp only
    rw [visitAll_ofUpper (by simp; omega) (fun n hn => by rw [List.eq_of_mem_replicate hn]; omega)]
    have hdd : dim = d := by omega
    subst hdd
    refine ⟨_, rfl, ?_⟩
    obtain ⟨pt, hpt⟩ : ∃ pt : List Nat → List K, pt = fun t => (List.range n).map fun d =>
      if d = j then sideAt box ((psi.getD 0 E.psi0).sides.getD d 0) d else interpolate E box ((t.insertIdx j 0).getD d 0) d := ⟨_, rfl⟩
    have hmap : ((indices (List.replicate dim E.order)).map fun t => Action.ins ⟨(List.range n).map fun d =>
        if d = j then sideAt box ((psi.getD 0 E.psi0).sides.getD d 0) d else interpolate E box ((t.insertIdx j 0).getD d 0) d,
        List.replicate n 0, t⟩) = ((indices (List.replicate dim E.order)).map fun t => (⟨pt t, List.replicate n 0, t⟩ : Event K)).map Action.ins := by
      rw [List.map_map, hpt]; rfl
    rw [hmap]
    have hkey : (((indices (List.replicate dim E.order)).map fun t => (⟨pt t, List.replicate n 0, t⟩ : Event K)).map fun e => (e.cell, e.pt)) =
        (indices (List.replicate dim E.order)).map fun t => (List.replicate n 0, t) := by
      rw [List.map_map]; rfl
    refine fine_events E.cheb ho (cs := [List.replicate n 0]) (by simp) ?_ ?_ ?_
    · rw [hkey, List.nodup_map_iff_inj_on (indices_nodup _)]
      intro t _ t' _ h'
      exact (Prod.mk.inj h').2
    · intro c t
      rw [hkey, List.mem_map]
      constructor
      · rintro ⟨t', ht', h'⟩
        obtain ⟨rfl, rfl⟩ := Prod.mk.inj h'
        exact ⟨by simp, ht'⟩
      · rintro ⟨hc, ht⟩
        exact ⟨t, ht, by rw [List.mem_singleton.1 hc]⟩
    · intro e he
      obtain ⟨t, ht, rfl⟩ := List.mem_map.1 he
      dsimp only
      rw [hpt]
      refine ⟨by simp, ?_⟩
      intro k hk
      unfold InAt vat
      rw [getD_map_range' _ _ _ _ hk]
      by_cases c : k = j
      · rw [if_pos c]
        obtain ⟨u1, u2, u3⟩ := hbox.2 k hk
        rcases Nat.eq_zero_or_pos ((psi.getD 0 E.psi0).sides.getD k 0) with h0 | h0
        · rw [h0]; exact ⟨u1, le_trans u2 u3⟩
        · have e : sideAt box ((psi.getD 0 E.psi0).sides.getD k 0) k = sideAt box 1 k := by
            unfold sideAt; rw [if_neg (by omega), if_neg (by simp)]
          rw [e]; exact ⟨le_trans u1 u2, u3⟩
      · rw [if_neg c]
        refine interpolate_in hp hbox hk ?_
        rw [mem_indices_iff] at ht
        have hl : (t.insertIdx j 0).length = n := by rw [List.length_insertIdx_of_le_length (by omega), ht.1]; omega
        rw [List.getD_eq_getElem _ _ (by omega)]
        rcases List.eq_or_mem_of_mem_insertIdx (List.getElem_mem (by omega : k < (t.insertIdx j 0).length)) with h0 | h0
        · rw [h0]; omega
        · exact ht.2 _ h0

/-- The whole box. -/
theorem fine_wholeActions {E : Env K} {F : Fn K} {n d : Nat} {fc : Option Nat} (hp : Par E F n d fc) {B box : Box K} (hbox : SubBox n box B)
    {free : List Bool} {Ps : List (Level K)} {dim : Nat} (h : St E n fc B free Ps dim) (hd : 0 < dim) (psi : List Psi) :
    ∃ acts, wholeActions E F free dim psi box Ps = some acts ∧ Fine E.cheb d n E.order B acts := by
  unfold wholeActions
  cases Ps with
  | nil =>
    simp only [List.isEmpty_nil, if_true]
    cases hS : E.S with
    | true => exact ⟨_, rfl, fine_nil _ _ _ _ _⟩
    | false => simpa using fine_fullActions hp hbox h hd hS psi
  | cons a l =>
    simp only [List.isEmpty_cons, Bool.false_eq_true, if_false]
    exact fine_baseActions hp hbox h (by simp) hd

/-! ### The constructors -/

omit [IsStrictOrderedRing K] in
theorem prune_count (F : Fn K) (free : List Bool) (box : Box K) (p0 : Psi) : ∀ (n i : Nat) (psi : List Psi) (r : List Psi × Nat),
    prune F free box p0 n i psi = some r → r.2 ≤ i + n := by
  intro n
  induction n with
  | zero => intro i psi r h; simp only [prune, Option.some.injEq] at h; rw [← h]; simp
  | succ n ih =>
    intro i psi r h
    rw [prune] at h
    split at h
    · split at h
      · have := ih _ _ _ h; omega
      · simp at h
    · have := ih _ _ _ h; omega

theorem foldl_inv {α β : Type} (P : β → Prop) (f : β → α → β) : ∀ (l : List α) (b : β), P b → (∀ b a, a ∈ l → P b → P (f b a)) → P (l.foldl f b)
  | [], _, h, _ => h
  | a :: l, b, h, hs => foldl_inv P f l (f b a) (hs b a (by simp) h) fun b' a' ha' => hs b' a' (by simp [ha'])

omit [IsStrictOrderedRing K] in
theorem heightDir_free {F : Fn K} {free : List Bool} {box : Box K} {p : Psi} {k : Nat} (h : heightDir F free box p = some k) :
    k < box.length ∧ free.getD k false = true := by
  unfold heightDir at h
  dsimp only at h
  refine foldl_inv (fun s : K × Option Nat => ∀ k, s.2 = some k → k < box.length ∧ free.getD k false = true) _ (List.range box.length) (0, none)
    (by simp) ?_ k h
  intro s d hd hs
  split
  · rename_i hc
    intro k hk
    simp only [Option.some.injEq] at hk
    subst hk
    simp only [Bool.and_eq_true] at hc
    exact ⟨List.mem_range.1 hd, hc.1.1⟩
  · exact hs

omit [IsStrictOrderedRing K] in
theorem splitDir_spec {free : List Bool} {box : Box K} {d : Nat} (hd : d < box.length) (hf : free.getD d false = true) (he : 0 < extent box d) :
    ∃ k, splitDir free box = some k ∧ k < box.length ∧ free.getD k false = true := by
  have h1 : ∀ k, splitDir free box = some k → k < box.length ∧ free.getD k false = true := by
    unfold splitDir
    refine foldl_inv (fun s : K × Option Nat => ∀ k, s.2 = some k → k < box.length ∧ free.getD k false = true) _ (List.range box.length) (0, none)
      (by simp) ?_
    intro s d hd hs
    split
    · rename_i hc
      intro k hk
      simp only [Option.some.injEq] at hk
      subst hk
      simp only [Bool.and_eq_true] at hc
      exact ⟨List.mem_range.1 hd, hc.1⟩
    · exact hs
  have h2 : ∀ (l : List Nat) (s : K × Option Nat), (s.2 = none → s.1 ≤ 0) → (d ∈ l ∨ s.2.isSome) →
      ((l.foldl (fun (s : K × Option Nat) d =>
        if free.getD d false && decide (s.1 < extent box d) then (extent box d, some d) else s) s).2).isSome := by
    intro l
    induction l with
    | nil => intro s _ h; simpa using h
    | cons a l ih =>
      intro s hs h
      rw [List.foldl_cons]
      by_cases c : (free.getD a false && decide (s.1 < extent box a)) = true
      · rw [if_pos c]
        exact ih _ (by simp) (Or.inr (by simp))
      · rw [if_neg c]
        refine ih _ hs ?_
        rcases h with h | h
        · rcases List.mem_cons.1 h with rfl | h
          · right
            rw [Option.isSome_iff_ne_none]
            intro h0
            apply c
            rw [hf]
            simp only [Bool.true_and, decide_eq_true_eq]
            exact lt_of_le_of_lt (hs h0) he
          · exact Or.inl h
        · exact Or.inr h
  have h3 := h2 (List.range box.length) (0, none) (by simp) (Or.inl (List.mem_range.2 hd))
  obtain ⟨k, hk⟩ := Option.isSome_iff_exists.1 h3
  exact ⟨k, hk, h1 k hk⟩

theorem half_le {a b : K} (h : a ≤ b) : a ≤ 1 / 2 * (a + b) ∧ 1 / 2 * (a + b) ≤ b := by constructor <;> linarith

theorem SubBox.lower {n : Nat} {box B : Box K} (h : SubBox n box B) {d : Nat} (hd : d < n) : SubBox n (lowerHalf box d) B := by
  refine ⟨by unfold lowerHalf; rw [List.length_set, h.1], ?_⟩
  intro k hk
  have hh := h.2 k hk
  unfold sideAt at hh ⊢
  unfold lowerHalf
  simp only [if_true, one_ne_zero, if_false] at hh ⊢
  by_cases c : k = d
  · subst c
    rw [getD_set_self (by rw [h.1]; exact hk)]
    have := half_le hh.2.1
    exact ⟨hh.1, this.1, le_trans this.2 hh.2.2⟩
  · rw [getD_set_ne c]; exact hh

theorem SubBox.upper {n : Nat} {box B : Box K} (h : SubBox n box B) {d : Nat} (hd : d < n) : SubBox n (upperHalf box d) B := by
  refine ⟨by unfold upperHalf; rw [List.length_set, h.1], ?_⟩
  intro k hk
  have hh := h.2 k hk
  unfold sideAt at hh ⊢
  unfold upperHalf
  simp only [if_true, one_ne_zero, if_false] at hh ⊢
  by_cases c : k = d
  · subst c
    rw [getD_set_self (by rw [h.1]; exact hk)]
    have := half_le hh.2.1
    exact ⟨le_trans hh.1 this.1, this.2, hh.2.2⟩
  · rw [getD_set_ne c]; exact hh

theorem Wide.mono {tol : K} (ht : 0 ≤ tol) {n j j' : Nat} {box : Box K} (h : Wide tol n j box) (hj : j' ≤ j) : Wide tol n j' box := by
  intro k hk
  exact lt_of_le_of_lt (mul_le_mul_of_nonneg_left (pow_le_pow_right₀ (by norm_num) hj) ht) (h k hk)

theorem Wide.lower {tol : K} (ht : 0 ≤ tol) {n j : Nat} {box : Box K} (h : Wide tol n (j + 1) box) (hl : box.length = n) (d : Nat) :
    Wide tol n j (lowerHalf box d) := by
  intro k hk
  have h1 := h k hk
  have h2 := h.mono ht (Nat.le_succ j) k hk
  unfold extent at *
  unfold lowerHalf
  by_cases c : k = d
  · subst c
    rw [getD_set_self (by omega)]
    unfold midAt
    dsimp only
    rw [pow_succ] at h1
    linarith
  · rw [getD_set_ne c]; exact h2

theorem Wide.upper {tol : K} (ht : 0 ≤ tol) {n j : Nat} {box : Box K} (h : Wide tol n (j + 1) box) (hl : box.length = n) (d : Nat) :
    Wide tol n j (upperHalf box d) := by
  intro k hk
  have h1 := h k hk
  have h2 := h.mono ht (Nat.le_succ j) k hk
  unfold extent at *
  unfold upperHalf
  by_cases c : k = d
  · subst c
    rw [getD_set_self (by omega)]
    unfold midAt
    dsimp only
    rw [pow_succ] at h1
    linarith
  · rw [getD_set_ne c]; exact h2

theorem level_ok {E : Env K} {F : Fn K} {n d : Nat} {fc : Option Nat} (hp : Par E F n d fc) {box : Box K} {j : Nat} (hw : Wide E.tol n j box)
    {k : Nat} (hk : k < n) {L : Level K} (hLb : L.box = box) (hLd : L.dir = k) : LevelOk E L where
  tol0 := hp.tol0
  sort := hp.sort
  wide := by
    have h0 := hw.mono hp.tol0 (Nat.zero_le j) k hk
    rw [pow_zero, mul_one] at h0
    have e : hi L - lo L = extent box k := by
      unfold hi lo sideAt extent
      rw [hLb, hLd]
      simp
    rw [e]
    unfold tolOf
    rw [hLb, hLd]
    refine max_lt h0 ?_
    have hpos : 0 < extent box k := lt_of_le_of_lt hp.tol0 h0
    have := mul_lt_mul_of_pos_right hp.tol1 hpos
    rwa [one_mul] at this

theorem ctorBox_fine {E : Env K} {F : Fn K} {n d : Nat} {fc : Option Nat} (hp : Par E F n d fc) {B : Box K} {dim : Nat}
    {lower : List Bool → List Psi → Nat → Box K → List (Level K) → Option (List (Action K))} {j : Nat}
    (hlow : ∀ free psi count box Ps, St E n fc B free Ps (dim + 1) → SubBox n box B → Wide E.tol n j box → count ≤ 2 ^ Ps.length →
      ∃ acts, lower free psi count box Ps = some acts ∧ Fine E.cheb d n E.order B acts)
    {free : List Bool} {Ps : List (Level K)} (h : St E n fc B free Ps (dim + 2)) : ∀ (rest : Nat) (psi : List Psi) (count : Nat) (box : Box K),
    SubBox n box B → Wide E.tol n (j + rest) box → count ≤ 2 ^ Ps.length →
    ∃ acts, ctorBox E F (dim + 2) lower free Ps rest psi count box = some acts ∧ Fine E.cheb d n E.order B acts := by
  have hn3 : n ≤ 3 := by rcases hp.range with h' | h' <;> omega
  have htot := h.total
  have hPs : Ps.length + 2 ≤ n := by omega
  have key : ∀ (rest : Nat) (psi : List Psi) (count : Nat) (box : Box K), SubBox n box B → Wide E.tol n (j + rest) box → count ≤ 2 ^ Ps.length →
      ∀ k psi' count', count' ≤ count → count' ≠ 0 → k < n → free.getD k false = true →
      (∃ acts, (if 2 * count' ≤ nFacets free.length then
          let up := decide (0 < ((F.grad (psiBox free box (psi'.getD 0 E.psi0))).getD k ⟨0, 0⟩).alpha)
          let new := newPsis F (Ps.isEmpty && E.S) up k (psi'.take count')
          lower (free.set k false) (new ++ List.replicate (nFacets free.length - 2 * count') E.psi0) (2 * count') box
            (⟨dim + 2, free, psi', count', box, k⟩ :: Ps)
        else none) = some acts ∧ Fine E.cheb d n E.order B acts) := by
    intro rest psi count box hbox hw hc k psi' count' hcc hc0 hk hf
    have h1 : 2 * count' ≤ nFacets free.length := by
      unfold nFacets
      rw [h.len]
      calc 2 * count' ≤ 2 ^ (Ps.length + 1) := by rw [pow_succ]; omega
        _ ≤ 2 ^ (n - 1) := Nat.pow_le_pow_right (by omega) (by omega)
    rw [if_pos h1]
    dsimp only
    refine hlow _ _ _ _ _ ?_ hbox (hw.mono hp.tol0 (by omega)) ?_
    · refine St.push h hk hf (level_ok hp hw hk rfl rfl) hbox (by omega) ?_ ?_
      · intro _
        have : 2 ^ Ps.length ≤ 2 ^ 1 := Nat.pow_le_pow_right (by omega) (by omega)
        omega
      · intro hP _
        rw [hP, List.length_nil, pow_zero] at hc
        omega
    · rw [List.length_cons, pow_succ]; omega
  intro rest
  induction rest with
  | zero =>
    intro psi count box hbox hw hc
    unfold ctorBox
    cases hpr : prune F free box E.psi0 count 0 psi with
    | none => exact ⟨_, rfl, fine_nil _ _ _ _ _⟩
    | some r =>
      obtain ⟨psi', count'⟩ := r
      have hcc := prune_count F free box E.psi0 count 0 psi _ hpr
      dsimp only at hcc ⊢
      by_cases hc0 : count' = 0
      · rw [if_pos hc0]
        exact fine_wholeActions hp hbox h (by omega) psi'
      rw [if_neg hc0]
      cases hh : (heightDir F free box (psi'.getD 0 E.psi0)).filter fun k => (psi'.take count').all (dirOk F free box k) with
      | some k =>
        have := heightDir_free (Option.filter_eq_some_iff.1 hh).1
        exact key 0 psi count box hbox hw hc k psi' count' (by omega) hc0 (by rw [← hbox.1]; exact this.1) this.2
      | none =>
        dsimp only
        split
        · exact fine_wholeActions hp hbox h (by omega) psi'
        · exact ⟨_, rfl, fine_nil _ _ _ _ _⟩
  | succ rest ih =>
    intro psi count box hbox hw hc
    unfold ctorBox
    cases hpr : prune F free box E.psi0 count 0 psi with
    | none => exact ⟨_, rfl, fine_nil _ _ _ _ _⟩
    | some r =>
      obtain ⟨psi', count'⟩ := r
      have hcc := prune_count F free box E.psi0 count 0 psi _ hpr
      dsimp only at hcc ⊢
      by_cases hc0 : count' = 0
      · rw [if_pos hc0]
        exact fine_wholeActions hp hbox h (by omega) psi'
      rw [if_neg hc0]
      cases hh : (heightDir F free box (psi'.getD 0 E.psi0)).filter fun k => (psi'.take count').all (dirOk F free box k) with
      | some k =>
        have := heightDir_free (Option.filter_eq_some_iff.1 hh).1
        exact key (rest + 1) psi count box hbox hw hc k psi' count' (by omega) hc0 (by rw [← hbox.1]; exact this.1) this.2
      | none =>
        dsimp only
        obtain ⟨d0, hd0, hf0⟩ : ∃ d0, d0 < n ∧ free.getD d0 false = true := by
          have : true ∈ free := List.count_pos_iff.1 (by rw [h.cnt]; omega)
          obtain ⟨i, hi, hit⟩ := List.getElem_of_mem this
          exact ⟨i, by rw [← h.len]; exact hi, by rw [List.getD_eq_getElem _ _ hi]; exact hit⟩
        have hpos : 0 < extent box d0 :=
          lt_of_le_of_lt (mul_nonneg hp.tol0 (pow_nonneg (by norm_num) _)) (hw d0 hd0)
        obtain ⟨ds, s1, s2, s3⟩ := splitDir_spec (by rw [hbox.1]; exact hd0) hf0 hpos
        rw [hbox.1] at s2
        rw [s1]
        simp only [Option.bind_eq_bind, Option.bind_some]
        obtain ⟨a1, e1, f1⟩ := ih psi' count' (lowerHalf box ds) (hbox.lower s2) (Wide.lower hp.tol0 hw hbox.1 ds) (by omega)
        obtain ⟨a2, e2, f2⟩ := ih psi' count' (upperHalf box ds) (hbox.upper s2) (Wide.upper hp.tol0 hw hbox.1 ds) (by omega)
        rw [e1]
        simp only [Option.bind_some]
        rw [e2]
        exact ⟨_, rfl, fine_append f1 f2⟩

theorem lineDir_free {free : List Bool} (h : free.count true = 1) : lineDir free < free.length ∧ free.getD (lineDir free) false = true := by
  have : true ∈ free := List.count_pos_iff.1 (by omega)
  obtain ⟨i, hi, hit⟩ := List.getElem_of_mem this
  have hm : i ∈ (List.range free.length).filter fun d => free.getD d false := by
    rw [List.mem_filter, List.mem_range]
    exact ⟨hi, by rw [List.getD_eq_getElem _ _ hi]; exact hit⟩
  have hne : ((List.range free.length).filter fun d => free.getD d false) ≠ [] := List.ne_nil_of_mem hm
  have : lineDir free ∈ (List.range free.length).filter fun d => free.getD d false := by
    unfold lineDir
    rw [List.getLastD_eq_getLast?, List.getLast?_eq_some_getLast hne]
    exact List.getLast_mem hne
  rw [List.mem_filter, List.mem_range] at this
  exact this

/-- The constructor succeeds and its actions append cells. -/
theorem ctor_fine {E : Env K} {F : Fn K} {n d : Nat} {fc : Option Nat} (hp : Par E F n d fc) {B : Box K} : ∀ (dim : Nat) (free : List Bool)
    (psi : List Psi) (count : Nat) (box : Box K) (Ps : List (Level K)), St E n fc B free Ps (dim + 1) → SubBox n box B →
    Wide E.tol n (maxSubdivs * dim) box → count ≤ 2 ^ Ps.length →
    ∃ acts, ctor E F (dim + 1) free psi count box Ps = some acts ∧ Fine E.cheb d n E.order B acts := by
  intro dim
  induction dim with
  | zero =>
    intro free psi count box Ps h hbox hw hc
    rw [ctor]
    dsimp only
    rw [h.len]
    obtain ⟨l1, l2⟩ := lineDir_free h.cnt
    rw [h.len] at l1
    refine fine_lineActions hp (free := free.set (lineDir free) false) ?_ (by simp)
    refine St.push h l1 l2 (level_ok hp hw l1 rfl rfl) hbox (by omega) (by omega) ?_
    intro hP hS
    have := h.total
    rw [hP, hp.surf hS] at this
    simp at this
    rcases hp.range with h' | h' <;> omega
  | succ dim ih =>
    intro free psi count box Ps h hbox hw hc
    rw [ctor]
    exact ctorBox_fine hp (j := maxSubdivs * dim) (fun free psi count box Ps => ih free psi count box Ps) h maxSubdivs psi count box hbox
      (hw.mono hp.tol0 (by rw [Nat.mul_succ])) hc

end Qugar.General
