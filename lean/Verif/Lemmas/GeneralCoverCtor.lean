import Verif.Lemmas.GeneralCoverLine
/-
The cells made in the plane stand for columns that cover the negative region.
-/
namespace Qugar.General
open Roots Mesh Poly Reparam Spec TS
variable {K : Type} [Field K] [LinearOrder K]

theorem inBox_iff {box : Box K} {p : List K} (hb : box.length = 2) :
    List.Forall₂ (fun (iv : K × K) x => iv.1 ≤ x ∧ x ≤ iv.2) box p ↔ p.length = 2 ∧ ∀ k, k < 2 → InAt box p k := by
  match box, hb with
  | [a, b], _ =>
    constructor
    · intro h
      cases h with
      | cons h1 h2 => cases h2 with
        | cons h3 h4 =>
          cases h4
          refine ⟨rfl, ?_⟩
          intro k hk
          interval_cases k
          · exact h1
          · exact h3
    · rintro ⟨h1, h2⟩
      match p, h1 with
      | [x, y], _ => exact .cons (h2 0 (by norm_num)) (.cons (h2 1 (by norm_num)) .nil)

theorem place_vat {c : Column K} (hc : c.dir < 2) (s t : K) : (c.place s t).length = 2 ∧ vat (c.place s t) (1 - c.dir) = s ∧ vat (c.place s t) c.dir = t := by
  obtain ⟨k, hk⟩ : ∃ k, k = c.dir := ⟨_, rfl⟩
  unfold Column.place
  rw [← hk] at hc ⊢
  interval_cases k <;> exact ⟨rfl, rfl, rfl⟩

theorem place_self {c : Column K} (hc : c.dir < 2) {x : List K} (hx : x.length = 2) : c.place (vat x (1 - c.dir)) (vat x c.dir) = x := by
  match x, hx with
  | [a, b], _ =>
    obtain ⟨k, hk⟩ : ∃ k, k = c.dir := ⟨_, rfl⟩
    unfold Column.place
    rw [← hk] at hc ⊢
    interval_cases k <;> rfl

/-- Interior points of the columns are interior points of the box. -/
theorem inside_strict {f : List K → K} {box : Box K} (hb : box.length = 2) {cols : List (Column K)} (h : Covers f box cols) {c : Column K} (hc : c ∈ cols)
    {x : List K} (hx : c.Inside x) : ∀ k, k < 2 → (box.getD k (0, 0)).1 < vat x k ∧ vat x k < (box.getD k (0, 0)).2 := by
  obtain ⟨s, t, rfl, hs, ht⟩ := hx
  obtain ⟨p1, p2, p3⟩ := h.proper c hc
  obtain ⟨_, v1, v2⟩ := place_vat p1 s t
  have hst := p3 s (le_of_lt hs.1) (le_of_lt hs.2)
  have m1 : c.Mem (c.place s (c.lower s)) := ⟨_, _, rfl, ⟨le_of_lt hs.1, le_of_lt hs.2⟩, le_refl _, hst⟩
  have m2 : c.Mem (c.place s (c.upper s)) := ⟨_, _, rfl, ⟨le_of_lt hs.1, le_of_lt hs.2⟩, hst, le_refl _⟩
  have ma : c.Mem (c.place c.a (c.lower c.a)) := ⟨_, _, rfl, ⟨le_refl _, le_of_lt p2⟩, le_refl _, p3 _ (le_refl _) (le_of_lt p2)⟩
  have mb : c.Mem (c.place c.b (c.lower c.b)) := ⟨_, _, rfl, ⟨le_of_lt p2, le_refl _⟩, le_refl _, p3 _ (le_of_lt p2) (le_refl _)⟩
  have n1 := ((inBox_iff hb).1 (h.sub c hc _ m1)).2
  have n2 := ((inBox_iff hb).1 (h.sub c hc _ m2)).2
  have na := ((inBox_iff hb).1 (h.sub c hc _ ma)).2
  have nb := ((inBox_iff hb).1 (h.sub c hc _ mb)).2
  intro k hk
  by_cases ck : k = c.dir
  · subst ck
    have a := n1 c.dir p1
    have b := n2 c.dir p1
    unfold InAt at a b
    rw [(place_vat p1 _ _).2.2] at a b
    rw [v2]
    exact ⟨lt_of_le_of_lt a.1 ht.1, lt_of_lt_of_le ht.2 b.2⟩
  · have ck' : k = 1 - c.dir := by omega
    subst ck'
    have a := na _ hk
    have b := nb _ hk
    unfold InAt at a b
    rw [(place_vat p1 _ _).2.1] at a b
    rw [v1]
    exact ⟨lt_of_le_of_lt a.1 hs.1, lt_of_lt_of_le hs.2 b.2⟩

theorem Covers.perm {f : List K → K} {box : Box K} {c1 c2 : List (Column K)} (hp : c1.Perm c2) (h : Covers f box c2) : Covers f box c1 where
  proper := fun c hc => h.proper c (hp.mem_iff.1 hc)
  sub := fun c hc => h.sub c (hp.mem_iff.1 hc)
  neg := fun c hc => h.neg c (hp.mem_iff.1 hc)
  all := fun x hx hf => by
    obtain ⟨c, hc, h'⟩ := h.all x hx hf
    exact ⟨c, hp.mem_iff.2 hc, h'⟩
  apart := (hp.pairwise_iff (by intro a b hab x hx; exact hab x ⟨hx.2, hx.1⟩)).2 h.apart

/-- The actions, applied to any mesh of the plane, append cells for columns that cover the negative region in the box. -/
def FineC (E : Env K) (F : Fn K) (box : Box K) (acts : List (Action K)) : Prop :=
  ∀ m : Mesh K, m.dim = 2 → m.order = E.order → m.conn.length % m.order ^ 2 = 0 →
    ∃ st cols, acts.foldlM (act E.cheb) (m, []) = some st ∧ Columned (node E) cols m st.1 ∧ Covers F.val box cols

variable [IsStrictOrderedRing K]

theorem fineC_split {E : Env K} {F : Fn K} {box : Box K} (hb : box.length = 2) (hext : ∀ k, k < 2 → 0 < extent box k) {d : Nat} (hd : d < 2)
    {a1 a2 : List (Action K)} (h1 : FineC E F (lowerHalf box d) a1) (h2 : FineC E F (upperHalf box d) a2) :
    FineC E F box (a1 ++ [.clear] ++ a2) := by
  intro m md mo mw
  obtain ⟨st, cols, s1, s2, s3⟩ := h1 m md mo mw
  have hm1 : st.1.dim = m.dim ∧ st.1.order = m.order ∧ st.1.conn.length % m.order ^ 2 = 0 := by
    obtain ⟨P, C, e, l, _, _⟩ := s2
    rw [e]
    refine ⟨rfl, rfl, ?_⟩
    show (m.conn ++ C).length % _ = 0
    rw [List.length_append, l, Nat.add_mul_mod_self_right]
    exact mw
  obtain ⟨st', cols', t1, t2, t3⟩ := h2 st.1 (by rw [hm1.1, md]) (by rw [hm1.2.1, mo]) (by rw [hm1.2.1]; exact hm1.2.2)
  refine ⟨st', cols ++ cols', ?_, columned_trans mw s2 t2, ?_⟩
  · rw [List.foldlM_append, List.foldlM_append, s1]
    exact t1
  · have hbl : (lowerHalf box d).length = 2 := by unfold lowerHalf; rw [List.length_set, hb]
    have hbu : (upperHalf box d).length = 2 := by unfold upperHalf; rw [List.length_set, hb]
    have hmid : (box.getD d (0, 0)).1 ≤ midAt box d ∧ midAt box d ≤ (box.getD d (0, 0)).2 := by
      have := hext d hd
      unfold extent at this
      exact half_le (by linarith)
    have gl : ∀ k, (lowerHalf box d).getD k (0, 0) = if k = d then ((box.getD d (0, 0)).1, midAt box d) else box.getD k (0, 0) := by
      intro k
      unfold lowerHalf
      by_cases c : k = d
      · rw [if_pos c, c, getD_set_self (by omega)]
      · rw [if_neg c, getD_set_ne c]
    have gu : ∀ k, (upperHalf box d).getD k (0, 0) = if k = d then (midAt box d, (box.getD d (0, 0)).2) else box.getD k (0, 0) := by
      intro k
      unfold upperHalf
      by_cases c : k = d
      · rw [if_pos c, c, getD_set_self (by omega)]
      · rw [if_neg c, getD_set_ne c]
    refine ⟨?_, ?_, ?_, ?_, ?_⟩
    · intro c hc
      rcases List.mem_append.1 hc with hc | hc
      · exact s3.proper c hc
      · exact t3.proper c hc
    · intro c hc x hx
      rw [inBox_iff hb]
      rcases List.mem_append.1 hc with hc | hc
      · obtain ⟨x1, x2⟩ := (inBox_iff hbl).1 (s3.sub c hc x hx)
        refine ⟨x1, ?_⟩
        intro k hk
        have := x2 k hk
        unfold InAt at this ⊢
        rw [gl] at this
        split at this
        · next e => subst e; exact ⟨this.1, le_trans this.2 hmid.2⟩
        · exact this
      · obtain ⟨x1, x2⟩ := (inBox_iff hbu).1 (t3.sub c hc x hx)
        refine ⟨x1, ?_⟩
        intro k hk
        have := x2 k hk
        unfold InAt at this ⊢
        rw [gu] at this
        split at this
        · next e => subst e; exact ⟨le_trans hmid.1 this.1, this.2⟩
        · exact this
    · intro c hc x hx
      rcases List.mem_append.1 hc with hc | hc
      · exact s3.neg c hc x hx
      · exact t3.neg c hc x hx
    · intro x hx hf
      obtain ⟨x1, x2⟩ := (inBox_iff hb).1 hx
      rcases le_total (vat x d) (midAt box d) with c | c
      · obtain ⟨col, hc, hm⟩ := s3.all x ((inBox_iff hbl).2 ⟨x1, by
          intro k hk
          unfold InAt
          rw [gl]
          split
          · next e => subst e; exact ⟨(x2 k hk).1, c⟩
          · exact x2 k hk⟩) hf
        exact ⟨col, List.mem_append_left _ hc, hm⟩
      · obtain ⟨col, hc, hm⟩ := t3.all x ((inBox_iff hbu).2 ⟨x1, by
          intro k hk
          unfold InAt
          rw [gu]
          split
          · next e => subst e; exact ⟨c, (x2 k hk).2⟩
          · exact x2 k hk⟩) hf
        exact ⟨col, List.mem_append_right _ hc, hm⟩
    · rw [List.pairwise_append]
      refine ⟨s3.apart, t3.apart, ?_⟩
      intro c hc c' hc' x hx
      have h1 := (inside_strict hbl s3 hc hx.1 d hd).2
      have h2 := (inside_strict hbu t3 hc' hx.2 d hd).1
      rw [gl, if_pos rfl] at h1
      rw [gu, if_pos rfl] at h2
      exact absurd (lt_trans h1 h2) (lt_irrefl _)

omit [IsStrictOrderedRing K] in
theorem fineC_nil {E : Env K} {F : Fn K} {box : Box K} (h : ∀ x, List.Forall₂ (fun (iv : K × K) x => iv.1 ≤ x ∧ x ≤ iv.2) box x → 0 ≤ F.val x) :
    FineC E F box [] := by
  intro m _ _ _
  refine ⟨(m, []), [], rfl, columned_nil _ m, ?_⟩
  refine ⟨by simp, by simp, by simp, ?_, by simp⟩
  intro x hx hf
  exact absurd hf (not_lt.2 (h x hx))

theorem fineC_full {E : Env K} {F : Fn K} {box : Box K} (hb : box.length = 2) (ho : 1 < E.order) (hext : ∀ k, k < 2 → 0 < extent box k)
    (h : ∀ x, List.Forall₂ (fun (iv : K × K) x => iv.1 ≤ x ∧ x ≤ iv.2) box x → F.val x ≤ 0) : FineC E F box [.full box] := by
  intro m md mo mw
  obtain ⟨st, s1, s2⟩ := columned_full E.cheb (m := m) (st := []) hb md (by rw [mo]; exact ho) mw
  rw [mo] at s2
  refine ⟨st, _, s1, s2, ?_⟩
  have e0 := hext 0 (by norm_num)
  have e1 := hext 1 (by norm_num)
  unfold extent at e0 e1
  have hin : ∀ x, Column.Mem ⟨1, (box.getD 0 (0, 0)).1, (box.getD 0 (0, 0)).2, fun _ => (box.getD 1 (0, 0)).1, fun _ => (box.getD 1 (0, 0)).2⟩ x ↔
      List.Forall₂ (fun (iv : K × K) x => iv.1 ≤ x ∧ x ≤ iv.2) box x := by
    intro x
    rw [inBox_iff hb]
    constructor
    · rintro ⟨s, t, rfl, h1, h2⟩
      refine ⟨rfl, ?_⟩
      intro k hk
      interval_cases k
      · exact h1
      · exact h2
    · rintro ⟨h1, h2⟩
      match x, h1 with
      | [a, b], _ => exact ⟨a, b, rfl, h2 0 (by norm_num), h2 1 (by norm_num)⟩
  refine ⟨?_, ?_, ?_, ?_, by simp⟩
  · intro c hc
    rw [List.mem_singleton.1 hc]
    exact ⟨by norm_num, by linarith, fun _ _ _ => by show (box.getD 1 (0, 0)).1 ≤ (box.getD 1 (0, 0)).2; linarith⟩
  · intro c hc x hx
    rw [List.mem_singleton.1 hc] at hx
    exact (hin x).1 hx
  · intro c hc x hx
    rw [List.mem_singleton.1 hc] at hx
    exact h x ((hin x).1 hx)
  · intro x hx _
    exact ⟨_, List.mem_singleton.2 rfl, (hin x).2 hx⟩

omit [IsStrictOrderedRing K] in
theorem mem_cells_plane {E : Env K} {F : Fn K} (hS : E.S = false) {T L : Level K} {x0 : List K} {tid c : List Nat} :
    c ∈ cells E F [L, T] x0 tid ↔ ∃ i i2, (actives E F false L x0).getD i false = true ∧
      (actives E F false T (midPoint L (breaks E F L x0) x0 i)).getD i2 false = true ∧ c = (tid.set L.dir i).set T.dir i2 := by
  have hlt : ∀ (l : List Bool) i, l.getD i false = true → i < l.length := by
    intro l i h
    by_contra hc
    rw [List.getD_eq_default _ _ (by omega)] at h
    simp at h
  rw [cells]
  simp only [List.isEmpty_cons, Bool.false_and, Bool.false_eq_true, if_false, List.mem_flatMap, List.mem_range]
  constructor
  · rintro ⟨i, hi, h⟩
    by_cases ha : (actives E F false L x0).getD i false = true
    · rw [if_pos ha, cells, hS] at h
      simp only [List.isEmpty_nil, Bool.true_and, Bool.false_eq_true, if_false, if_true, List.mem_flatMap, List.mem_range] at h
      obtain ⟨i2, hi2, h⟩ := h
      by_cases ha2 : (actives E F false T (midPoint L (breaks E F L x0) x0 i)).getD i2 false = true
      · rw [if_pos ha2] at h
        exact ⟨i, i2, ha, ha2, by simpa using h⟩
      · rw [if_neg ha2] at h
        simp at h
    · rw [if_neg ha] at h
      simp at h
  · rintro ⟨i, i2, ha, ha2, rfl⟩
    refine ⟨i, hlt _ _ ha, ?_⟩
    rw [if_pos ha, cells, hS]
    simp only [List.isEmpty_nil, Bool.true_and, Bool.false_eq_true, if_false, if_true, List.mem_flatMap, List.mem_range]
    exact ⟨i2, hlt _ _ ha2, by rw [if_pos ha2]; simp⟩

omit [IsStrictOrderedRing K] in
theorem plane_events {E : Env K} {F : Fn K} (hS : E.S = false) {T L : Level K} (hTd : T.dir < 2) (hLd : L.dir = 1 - T.dir) (hL1 : L.dim = 1) (hT2 : T.dim = 2)
    (hTf : T.free = [true, true]) {Ms : List (RefMap K)} {x0 : List K} (hx0 : x0.length = 2) {tid pt : List Nat} (htid : tid.length = 2) (hpt : pt.length = 2)
    (hst : Stored E F [L, T] Ms x0 tid) {evs : List (Event K)} (he : process E F [L, T] Ms x0 tid pt = some evs) :
    ∀ e ∈ evs, e.point = (colAt E F T L x0 (e.cell.getD L.dir 0) (e.cell.getD T.dir 0)).lattice (node E) e.pt := by
  have hne : L.dir ≠ T.dir := by omega
  have hLd2 : L.dir < 2 := by omega
  match Ms, hst with
  | M :: Ms, hst =>
    obtain ⟨st1, st2⟩ := hst
    simp only [List.isEmpty_cons, Bool.false_and] at st1 st2
    rw [process] at he
    simp only [List.isEmpty_cons, Bool.false_and, Bool.false_eq_true, if_false] at he
    have hci : computeIntervals E F false L M x0 tid = some ⟨x0, breaks E F L x0, actives E F false L x0⟩ := by
      unfold computeIntervals
      rw [st1]
      simp only [Option.bind_eq_bind, Option.bind_some]
      rw [if_pos hL1]
    rw [hci] at he
    simp only [Option.bind_eq_bind, Option.bind_some] at he
    intro e hee
    obtain ⟨i, hi1, b, hb, heb⟩ := mem_collect he e hee
    by_cases hac : (actives E F false L x0).getD i false = true
    · rw [if_pos hac] at hb
      obtain ⟨r0, hr0, hb⟩ := Option.bind_eq_some_iff.1 hb
      obtain ⟨r1, hr1, hb⟩ := Option.bind_eq_some_iff.1 hb
      obtain ⟨j, hj, b', hb', heb'⟩ := mem_collect hb e heb
      obtain ⟨s, hsd⟩ : ∃ s, s = r0.1 + (r1.1 - r0.1) * node E j := ⟨_, rfl⟩
      rw [← hsd] at hb'
      have st4 := st2 i hac
      match Ms, st4 with
      | M' :: Ms, st4 =>
      have st3 := st4.1
      rw [process] at hb'
      obtain ⟨iv, hiv, hb'⟩ := Option.bind_eq_some_iff.1 hb'
      unfold computeIntervals at hiv
      simp only [List.isEmpty_nil, Bool.true_and, hS, Bool.false_eq_true, if_false] at hiv hb' st3
      rw [st3] at hiv
      simp only [Option.bind_eq_bind, Option.bind_some] at hiv
      rw [if_neg (by rw [hT2]; omega)] at hiv
      have hov : overIv E F T L x0 i s = some iv := hiv
      obtain ⟨i2, _, c, hc, hec⟩ := mem_collect hb' e heb'
      by_cases hac2 : iv.active.getD i2 false = true
      · rw [if_pos hac2] at hc
        obtain ⟨q0, hq0, hc⟩ := Option.bind_eq_some_iff.1 hc
        obtain ⟨q1, hq1, hc⟩ := Option.bind_eq_some_iff.1 hc
        obtain ⟨j2, hj2, c', hc', hec'⟩ := mem_collect hc e hec
        simp only [if_true, Option.some.injEq] at hc'
        rw [← hc', List.mem_singleton] at hec'
        unfold topEvent at hec'
        rw [if_neg (by rw [hT2, hTf]; simp)] at hec'
        rw [hec']
        dsimp only
        have k1 : ((tid.set L.dir i).set T.dir i2).getD L.dir 0 = i := by
          rw [getD_set_ne hne, getD_set_self (by omega)]
        have k2 : ((tid.set L.dir i).set T.dir i2).getD T.dir 0 = i2 := by
          rw [getD_set_self (by rw [List.length_set]; omega)]
        have k3 : ((pt.set L.dir j).set T.dir j2).getD L.dir 0 = j := by
          rw [getD_set_ne hne, getD_set_self (by omega)]
        have k4 : ((pt.set L.dir j).set T.dir j2).getD T.dir 0 = j2 := by
          rw [getD_set_self (by rw [List.length_set]; omega)]
        rw [k1, k2]
        obtain ⟨l0, e0⟩ := List.getElem?_eq_some_iff.1 hr0
        obtain ⟨l1, e1⟩ := List.getElem?_eq_some_iff.1 hr1
        obtain ⟨l2, e2⟩ := List.getElem?_eq_some_iff.1 hq0
        obtain ⟨l3, e3⟩ := List.getElem?_eq_some_iff.1 hq1
        have hdir : (colAt E F T L x0 i i2).dir = T.dir := rfl
        have hd1 : 1 - (colAt E F T L x0 i i2).dir = L.dir := by rw [hLd]; rfl
        have ha : (colAt E F T L x0 i i2).a = r0.1 := by
          show ((breaks E F L x0).getD i (0, -1)).1 = _
          rw [List.getD_eq_getElem _ _ l0, e0]
        have hb2 : (colAt E F T L x0 i i2).b = r1.1 := by
          show ((breaks E F L x0).getD (i + 1) (0, -1)).1 = _
          rw [List.getD_eq_getElem _ _ l1, e1]
        have hlow : (colAt E F T L x0 i i2).lower s = q0.1 := by
          show (overIv E F T L x0 i s).elim 0 _ = _
          rw [hov]
          show (iv.roots.getD i2 (0, -1)).1 = _
          rw [List.getD_eq_getElem _ _ l2, e2]
        have hupp : (colAt E F T L x0 i i2).upper s = q1.1 := by
          show (overIv E F T L x0 i s).elim 0 _ = _
          rw [hov]
          show (iv.roots.getD (i2 + 1) (0, -1)).1 = _
          rw [List.getD_eq_getElem _ _ l3, e3]
        unfold Column.lattice
        dsimp only
        rw [hd1, hdir, k3, k4, ha, hb2, ← hsd, hlow, hupp]
        exact place_eq (c := colAt E F T L x0 i i2) hTd hLd hx0 _ _
      · rw [if_neg hac2] at hc
        simp only [Option.some.injEq] at hc
        rw [← hc] at hec
        simp at hec
    · rw [if_neg hac] at hb
      simp only [Option.some.injEq] at hb
      rw [← hb] at heb
      simp at heb

/-- The columns of a box with a height direction. -/
theorem line_covers {E : Env K} {F : Fn K} (hS : E.S = false) {T L : Level K} {up : Bool} (hT : Top E F T up) (h : Line E T L) (hF : RootsOk F) (hs : Sound 2 F)
    (hi' : Intermediate 2 F) (hup : up = true → (L.psi.getD 0 E.psi0).sign = -1 ∧ (L.psi.getD 1 E.psi0).sign = 0)
    (hdown : up = false → (L.psi.getD 0 E.psi0).sign = 0 ∧ (L.psi.getD 1 E.psi0).sign = -1) {x0 : List K} (hx0 : x0.length = 2) {tid : List Nat}
    (htid : tid.length = 2) :
    Covers F.val T.box ((cells E F [L, T] x0 tid).map fun c => colAt E F T L x0 (c.getD L.dir 0) (c.getD T.dir 0)) := by
  have hTd := hT.dir
  have hLd := h.dir
  have hne : L.dir ≠ T.dir := by omega
  obtain ⟨mid, b1, _, _, _, b5, b6⟩ := breaks_shape hF h.level x0
  have hdirs : DirsOk tid.length [L, T] := by
    rw [htid]
    refine ⟨?_, ?_⟩
    · simp only [List.map_cons, List.map_nil, List.nodup_cons, List.mem_cons, List.not_mem_nil, or_false, not_false_eq_true, List.nodup_nil, and_true]
      exact hne
    · intro L' hL'
      simp only [List.mem_cons, List.not_mem_nil, or_false] at hL'
      rcases hL' with rfl | rfl <;> omega
  have hk : ∀ i i2, ((tid.set L.dir i).set T.dir i2).getD L.dir 0 = i ∧ ((tid.set L.dir i).set T.dir i2).getD T.dir 0 = i2 := by
    intro i i2
    refine ⟨?_, ?_⟩
    · rw [getD_set_ne hne, getD_set_self (by omega)]
    · rw [getD_set_self (by rw [List.length_set]; omega)]
  -- the data of an active interval
  have base : ∀ i, (actives E F false L x0).getD i false = true → ∃ r0 r1, (breaks E F L x0)[i]? = some r0 ∧ (breaks E F L x0)[i + 1]? = some r1 ∧
      r0.1 < r1.1 ∧ (∀ i2, (colAt E F T L x0 i i2).a = r0.1 ∧ (colAt E F T L x0 i i2).b = r1.1) ∧ lo L ≤ r0.1 ∧ r1.1 ≤ hi L := by
    intro i ha
    have hl := active_index ha
    have l0 : i < (breaks E F L x0).length := by omega
    have h0 : (breaks E F L x0)[i]? = some (breaks E F L x0)[i] := List.getElem?_eq_getElem l0
    have h1 : (breaks E F L x0)[i + 1]? = some (breaks E F L x0)[i + 1] := List.getElem?_eq_getElem hl
    refine ⟨_, _, h0, h1, Line.active_lt hT h hF ha h0 h1, ?_, (b6 _ (List.getElem_mem l0)).1, (b6 _ (List.getElem_mem hl)).2⟩
    intro i2
    constructor
    · show ((breaks E F L x0).getD i (0, -1)).1 = _
      rw [List.getD_eq_getElem _ _ l0]
    · show ((breaks E F L x0).getD (i + 1) (0, -1)).1 = _
      rw [List.getD_eq_getElem _ _ hl]
  have hLlo : lo L = (T.box.getD L.dir (0, 0)).1 ∧ hi L = (T.box.getD L.dir (0, 0)).2 := by
    unfold lo hi sideAt
    rw [h.box]
    exact ⟨by simp, by simp⟩
  have hTlo : lo T = (T.box.getD T.dir (0, 0)).1 ∧ hi T = (T.box.getD T.dir (0, 0)).2 := by
    unfold lo hi sideAt
    exact ⟨by simp, by simp⟩
  refine ⟨?_, ?_, ?_, ?_, ?_⟩
  · intro c hc
    obtain ⟨key, hkey, rfl⟩ := List.mem_map.1 hc
    obtain ⟨i, i2, ha, ha2, rfl⟩ := (mem_cells_plane hS).1 hkey
    rw [(hk i i2).1, (hk i i2).2]
    obtain ⟨r0, r1, g0, g1, glt, gab, _⟩ := base i ha
    refine ⟨hTd, by rw [(gab i2).1, (gab i2).2]; exact glt, ?_⟩
    intro s s0 s1
    rw [(gab i2).1] at s0
    rw [(gab i2).2] at s1
    exact (col_mem hT h hF hs hi' hx0 g0 g1 glt s0 s1 ha2).2.1
  · intro c hc x hx
    obtain ⟨key, hkey, rfl⟩ := List.mem_map.1 hc
    obtain ⟨i, i2, ha, ha2, rfl⟩ := (mem_cells_plane hS).1 hkey
    rw [(hk i i2).1, (hk i i2).2] at hx
    obtain ⟨r0, r1, g0, g1, glt, gab, gl, gh⟩ := base i ha
    obtain ⟨s, t, rfl, ⟨s0, s1⟩, t0, t1⟩ := hx
    rw [(gab i2).1] at s0
    rw [(gab i2).2] at s1
    obtain ⟨q1, q2, q3, q4⟩ := col_mem hT h hF hs hi' hx0 g0 g1 glt s0 s1 ha2
    obtain ⟨p1, p2, p3⟩ := place_vat (c := colAt E F T L x0 i i2) hTd s t
    rw [inBox_iff hT.box]
    refine ⟨p1, ?_⟩
    intro k hkk
    have hd : (colAt E F T L x0 i i2).dir = T.dir := rfl
    rw [hd] at p2 p3
    unfold InAt
    by_cases c : k = T.dir
    · rw [c, p3, ← hTlo.1, ← hTlo.2]
      exact ⟨le_trans q1 t0, le_trans t1 q3⟩
    · have c' : k = L.dir := by omega
      rw [c', ← hLlo.1, ← hLlo.2, hLd, p2]
      exact ⟨le_trans gl s0, le_trans s1 gh⟩
  · intro c hc x hx
    obtain ⟨key, hkey, rfl⟩ := List.mem_map.1 hc
    obtain ⟨i, i2, ha, ha2, rfl⟩ := (mem_cells_plane hS).1 hkey
    rw [(hk i i2).1, (hk i i2).2] at hx
    obtain ⟨r0, r1, g0, g1, glt, gab, gl, gh⟩ := base i ha
    obtain ⟨s, t, rfl, ⟨s0, s1⟩, t0, t1⟩ := hx
    rw [(gab i2).1] at s0
    rw [(gab i2).2] at s1
    have := (col_mem hT h hF hs hi' hx0 g0 g1 glt s0 s1 ha2).2.2.2 t t0 t1
    rwa [show T.dir = (colAt E F T L x0 i i2).dir from rfl, place_eq (c := colAt E F T L x0 i i2) hTd hLd hx0] at this
  · intro x hx hf
    obtain ⟨x1, x2⟩ := (inBox_iff hT.box).1 hx
    have hin := x2 L.dir (by omega)
    unfold InAt at hin
    rw [← hLlo.1, ← hLlo.2] at hin
    have hin2 := x2 T.dir hTd
    unfold InAt at hin2
    rw [← hTlo.1, ← hTlo.2] at hin2
    have hlast : (breaks E F L x0).getLast? = some (hi L, -1) := by rw [b1, List.getLast?_append]; rfl
    obtain ⟨i, r0, r1, g0, g1, glt, gs0, gs1⟩ : ∃ i r0 r1, (breaks E F L x0)[i]? = some r0 ∧ (breaks E F L x0)[i + 1]? = some r1 ∧ r0.1 < r1.1 ∧
        r0.1 ≤ vat x L.dir ∧ vat x L.dir ≤ r1.1 := by
      rw [b1, List.cons_append]
      rw [b1, List.cons_append] at b5 hlast
      exact exists_step _ _ _ b5 hlast hin.1 hin.2 h.level.lt
    have hxe : (x0.set L.dir (vat x L.dir)).set T.dir (vat x T.dir) = x := by
      have := place_eq (c := colAt E F T L x0 0 0) hTd hLd hx0 (vat x L.dir) (vat x T.dir)
      have h2 := place_self (c := colAt E F T L x0 0 0) hTd x1
      rw [show (colAt E F T L x0 0 0).dir = T.dir from rfl] at this h2
      rw [← hLd] at h2
      rw [this, h2]
    have hf' : F.val ((x0.set L.dir (vat x L.dir)).set T.dir (vat x T.dir)) < 0 := by rw [hxe]; exact hf
    have ha := base_active hT h hF hs hi' hup hdown hx0 g0 g1 glt gs0 gs1 hin2.1 hin2.2 hf'
    obtain ⟨i2, ha2, u1, u2⟩ := col_cover hT h hF hs hi' hx0 g0 g1 glt gs0 gs1 hin2.1 hin2.2 hf'
    refine ⟨colAt E F T L x0 i i2, List.mem_map.2 ⟨_, (mem_cells_plane hS).2 ⟨i, i2, ha, ha2, rfl⟩, by rw [(hk i i2).1, (hk i i2).2]⟩, ?_⟩
    obtain ⟨r0', r1', g0', g1', _, gab, _⟩ := base i ha
    rw [g0] at g0'
    rw [g1] at g1'
    rw [← Option.some.inj g0', ← Option.some.inj g1'] at gab
    refine ⟨vat x L.dir, vat x T.dir, ?_, ⟨by rw [(gab i2).1]; exact gs0, by rw [(gab i2).2]; exact gs1⟩, u1, u2⟩
    have h2 := place_self (c := colAt E F T L x0 i i2) hTd x1
    rw [show (colAt E F T L x0 i i2).dir = T.dir from rfl, ← hLd] at h2
    exact h2.symm
  · rw [List.pairwise_map]
    refine List.Pairwise.imp_of_mem ?_ (cells_nodup E F [L, T] x0 tid hdirs)
    intro key key' hkey hkey' hne' x hx
    obtain ⟨i, i2, ha, ha2, rfl⟩ := (mem_cells_plane hS).1 hkey
    obtain ⟨i', i2', ha', ha2', rfl⟩ := (mem_cells_plane hS).1 hkey'
    rw [(hk i i2).1, (hk i i2).2, (hk i' i2').1, (hk i' i2').2] at hx
    obtain ⟨⟨s, t, hxs, ⟨s0, s1⟩, t0, t1⟩, s', t', hxs', ⟨s0', s1'⟩, t0', t1'⟩ := hx
    have hd : ∀ a b, (colAt E F T L x0 a b).dir = T.dir := fun _ _ => rfl
    have hss : s = s' ∧ t = t' := by
      have e1 := place_vat (c := colAt E F T L x0 i i2) hTd s t
      have e2 := place_vat (c := colAt E F T L x0 i' i2') hTd s' t'
      rw [← hxs, hd] at e1
      rw [← hxs', hd] at e2
      exact ⟨by rw [← e1.2.1, e2.2.1], by rw [← e1.2.2, e2.2.2]⟩
    obtain ⟨rfl, rfl⟩ := hss
    obtain ⟨r0, r1, g0, g1, glt, gab, _⟩ := base i ha
    obtain ⟨r0', r1', g0', g1', glt', gab', _⟩ := base i' ha'
    rw [(gab i2).1] at s0
    rw [(gab i2).2] at s1
    rw [(gab' i2').1] at s0'
    rw [(gab' i2').2] at s1'
    have sorted : ∀ {a b : Nat} {ra rb : Root K}, (breaks E F L x0)[a]? = some ra → (breaks E F L x0)[b]? = some rb → a ≤ b → ra.1 ≤ rb.1 := by
      intro a b ra rb hra hrb hab
      obtain ⟨la, ea⟩ := List.getElem?_eq_some_iff.1 hra
      obtain ⟨lb, eb⟩ := List.getElem?_eq_some_iff.1 hrb
      rcases Nat.lt_or_ge a b with c | c
      · have := List.pairwise_iff_getElem.1 b5 a b la lb c
        rwa [ea, eb] at this
      · have : a = b := by omega
        subst this
        rw [← ea, ← eb]
    rcases Nat.lt_trichotomy i i' with c | c | c
    · have := sorted g1 g0' (by omega)
      exact absurd (lt_trans s0' s1) (not_lt.2 this)
    · subst c
      rcases Nat.lt_trichotomy i2 i2' with d | d | d
      · have := col_apart hT h hF hs hi' hx0 g0 g1 glt (le_of_lt s0) (le_of_lt s1) d ha2'
        exact absurd (lt_trans t0' t1) (not_lt.2 this)
      · subst d
        exact hne' rfl
      · have := col_apart hT h hF hs hi' hx0 g0 g1 glt (le_of_lt s0) (le_of_lt s1) d ha2
        exact absurd (lt_trans t0 t1') (not_lt.2 this)
    · have := sorted g1' g0 (by omega)
      exact absurd (lt_trans s0 s1') (not_lt.2 this)

end Qugar.General
