import Verif.Lemmas.GeneralPlane
/-
The constructors in the plane.
-/
namespace Qugar.General
open Roots Mesh Poly Reparam Spec TS
variable {K : Type} [Field K] [LinearOrder K]

/-- The points added by an action. -/
def ptsOf (cheb : Nat → Nat → K) (o d : Nat) : Action K → List (List K)
  | .ins e => [e.point]
  | .clear => []
  | .full box => (indices (List.replicate d o)).map (fullCellPoint cheb o box)

variable [IsStrictOrderedRing K]

theorem act_points {cheb : Nat → Nat → K} {st st' : Mesh K × List (List Nat × Nat)} {a : Action K} (h : act cheb st a = some st')
    (hd : 0 < st.1.dim) (ho : 1 < st.1.order) :
    st'.1.dim = st.1.dim ∧ st'.1.order = st.1.order ∧ st'.1.points = st.1.points ++ ptsOf cheb st.1.order st.1.dim a := by
  cases a with
  | ins e =>
    have hc : (cellId st e.cell).1.dim = st.1.dim ∧ (cellId st e.cell).1.order = st.1.order ∧ (cellId st e.cell).1.points = st.1.points := by
      unfold cellId
      split
      · exact ⟨rfl, rfl, rfl⟩
      · exact ⟨rfl, rfl, rfl⟩
    unfold act insertAt at h
    dsimp only at h
    obtain ⟨id, _, h⟩ := Option.bind_eq_some_iff.1 h
    obtain ⟨m, hm, h⟩ := Option.bind_eq_some_iff.1 h
    rw [← Option.some.inj h]
    unfold insertCellPoint at hm
    split at hm
    · rw [← Option.some.inj hm]
      exact ⟨hc.1, hc.2.1, by simp [ptsOf, hc.2.2]⟩
    · simp at hm
  | clear =>
    unfold act at h
    rw [← Option.some.inj h]
    exact ⟨rfl, rfl, by simp [ptsOf]⟩
  | full box =>
    unfold act at h
    obtain ⟨m, hm, h⟩ := Option.map_eq_some_iff.1 h
    rw [← h]
    unfold addFullCell at hm
    dsimp only at hm
    obtain ⟨n, _, hm⟩ := Option.bind_eq_some_iff.1 hm
    simp only [Bool.false_eq_true, if_false, Option.some.injEq] at hm
    rw [← hm, pushFullCell_eq cheb st.1 box hd ho]
    exact ⟨rfl, rfl, rfl⟩

theorem acts_points {cheb : Nat → Nat → K} : ∀ (acts : List (Action K)) (st st' : Mesh K × List (List Nat × Nat)),
    acts.foldlM (act cheb) st = some st' → 0 < st.1.dim → 1 < st.1.order →
    st'.1.points = st.1.points ++ acts.flatMap (ptsOf cheb st.1.order st.1.dim) := by
  intro acts
  induction acts with
  | nil => intro st st' h _ _; rw [List.foldlM_nil] at h; rw [← Option.some.inj h]; simp
  | cons a acts ih =>
    intro st st' h hd ho
    rw [List.foldlM_cons] at h
    obtain ⟨st1, h1, h2⟩ := Option.bind_eq_some_iff.1 h
    obtain ⟨a1, a2, a3⟩ := act_points h1 hd ho
    rw [ih st1 st' h2 (by rw [a1]; exact hd) (by rw [a2]; exact ho), a3, a1, a2, List.flatMap_cons, List.append_assoc]

/-- What is claimed of an action. -/
def ActGood (E : Env K) (F : Fn K) : Action K → Prop
  | .ins e => Good E F e.point
  | .clear => True
  | .full box => E.S = false ∧ box.length = 2 ∧ (∀ k, k < 2 → sideAt box 0 k ≤ sideAt box 1 k) ∧
      ∀ x : List K, x.length = 2 → (∀ k, k < 2 → InAt box x k) → F.val x ≤ 0

omit [IsStrictOrderedRing K] in
theorem psiBox_all {box : Box K} (h : box.length = 2) (p : Psi) : psiBox [true, true] box p = box := by
  match box, h with
  | [a, b], _ => rfl

omit [IsStrictOrderedRing K] in
theorem heightDir_test {F : Fn K} {box : Box K} (hb : box.length = 2) {p : Psi} {k : Nat} (h : heightDir F [true, true] box p = some k) :
    k < 2 ∧ 1001 / 1000 * ((F.grad box).getD k ⟨0, 0⟩).dev < |((F.grad box).getD k ⟨0, 0⟩).alpha| := by
  unfold heightDir at h
  rw [psiBox_all hb, hb] at h
  dsimp only at h
  refine foldl_inv (fun s : K × Option Nat => ∀ k, s.2 = some k → k < 2 ∧
    1001 / 1000 * ((F.grad box).getD k ⟨0, 0⟩).dev < |((F.grad box).getD k ⟨0, 0⟩).alpha|) _ (List.range 2) (0, none) (by simp) ?_ k h
  intro s d hd hs
  split
  · rename_i hc
    intro k hk
    simp only [Option.some.injEq] at hk
    subst hk
    simp only [Bool.and_eq_true, decide_eq_true_eq] at hc
    exact ⟨List.mem_range.1 hd, hc.1.2⟩
  · exact hs

omit [IsStrictOrderedRing K] in
theorem heightDir_some {F : Fn K} {box : Box K} (hb : box.length = 2) (p : Psi) {d : Nat} (hd : d < 2)
    (ht : 1001 / 1000 * ((F.grad box).getD d ⟨0, 0⟩).dev < |((F.grad box).getD d ⟨0, 0⟩).alpha|)
    (hp : 0 < |((F.grad box).getD d ⟨0, 0⟩).alpha| * extent box d) : ∃ k, heightDir F [true, true] box p = some k := by
  have h2 : ∀ (l : List Nat) (s : K × Option Nat), (∀ a ∈ l, a < 2) → (s.2 = none → s.1 ≤ 0) → (d ∈ l ∨ s.2.isSome) →
      ((l.foldl (fun (s : K × Option Nat) d =>
        let gd := (F.grad box).getD d ⟨0, 0⟩
        if [true, true].getD d false && decide (1001 / 1000 * gd.dev < |gd.alpha|) && decide (s.1 < |gd.alpha| * extent box d) then
          (|gd.alpha| * extent box d, some d)
        else s) s).2).isSome := by
    intro l
    induction l with
    | nil => intro s _ _ h; simpa using h
    | cons a l ih =>
      intro s hl hs h
      rw [List.foldl_cons]
      dsimp only
      by_cases c : ([true, true].getD a false && decide (1001 / 1000 * ((F.grad box).getD a ⟨0, 0⟩).dev < |((F.grad box).getD a ⟨0, 0⟩).alpha|) &&
          decide (s.1 < |((F.grad box).getD a ⟨0, 0⟩).alpha| * extent box a)) = true
      · rw [if_pos c]
        exact ih _ (fun b hb => hl b (by simp [hb])) (by simp) (Or.inr (by simp))
      · rw [if_neg c]
        refine ih _ (fun b hb => hl b (by simp [hb])) hs ?_
        rcases h with h | h
        · rcases List.mem_cons.1 h with rfl | h
          · right
            rw [Option.isSome_iff_ne_none]
            intro h0
            apply c
            rw [Bool.and_eq_true, Bool.and_eq_true, decide_eq_true_eq, decide_eq_true_eq]
            refine ⟨⟨?_, ht⟩, lt_of_le_of_lt (hs h0) hp⟩
            interval_cases d <;> rfl
          · exact Or.inl h
        · exact Or.inr h
  have h3 := h2 (List.range 2) (0, none) (by simp) (by simp) (Or.inl (List.mem_range.2 hd))
  obtain ⟨k, hk⟩ := Option.isSome_iff_exists.1 h3
  refine ⟨k, ?_⟩
  unfold heightDir
  rw [psiBox_all hb, hb]
  exact hk

/-- The deviations of the derivatives are not negative. -/
theorem dev_nonneg {F : Fn K} (hs : Sound 2 F) {box : Box K} (hb : box.length = 2) (hp : ∀ k, k < 2 → 0 < extent box k) {d : Nat} (hd : d < 2) :
    0 ≤ ((F.grad box).getD d ⟨0, 0⟩).dev := by
  obtain ⟨x, hx⟩ : ∃ x : List K, x = [(box.getD 0 (0, 0)).1, (box.getD 1 (0, 0)).1] := ⟨_, rfl⟩
  have hxl : x.length = 2 := by rw [hx]; rfl
  have hv : ∀ k, k < 2 → vat x k = (box.getD k (0, 0)).1 := by
    intro k hk
    rw [hx]
    interval_cases k <;> rfl
  have hle : ∀ k, k < 2 → (box.getD k (0, 0)).1 < (box.getD k (0, 0)).2 := by
    intro k hk
    have := hp k hk
    unfold extent at this
    linarith
  have := hs.gradient box x d (box.getD d (0, 0)).2 hb hxl hd (fun k hk => by rw [hv k hk]; exact ⟨le_refl _, le_of_lt (hle k hk)⟩)
    ⟨le_of_lt (hle d hd), le_refl _⟩
  have h2 := le_trans (abs_nonneg _) this
  rw [hv d hd] at h2
  have h3 : 0 < |(box.getD d (0, 0)).2 - (box.getD d (0, 0)).1| := abs_pos.2 (ne_of_gt (by have := hle d hd; linarith))
  by_contra hc
  exact absurd h2 (not_le.2 (mul_neg_of_neg_of_pos (not_le.1 hc) h3))

omit [IsStrictOrderedRing K] in
theorem lineDir_plane {k : Nat} (hk : k < 2) : lineDir ([true, true].set k false) = 1 - k := by
  interval_cases k <;> rfl

/-- Monotonicity in the height direction. -/
theorem mono_of_grad {F : Fn K} (hs : Sound 2 F) {box : Box K} (hb : box.length = 2) {k : Nat} (hk : k < 2)
    (hg : ((F.grad box).getD k ⟨0, 0⟩).dev < |((F.grad box).getD k ⟨0, 0⟩).alpha|) :
    ∀ x : List K, x.length = 2 → (∀ d, d < 2 → d ≠ k → InAt box x d) → ∀ t t', sideAt box 0 k ≤ t → t < t' → t' ≤ sideAt box 1 k →
      if decide (0 < ((F.grad box).getD k ⟨0, 0⟩).alpha) then F.val (x.set k t) < F.val (x.set k t') else F.val (x.set k t') < F.val (x.set k t) := by
  intro x hx hin t t' h1 h2 h3
  have e0 : sideAt box 0 k = (box.getD k (0, 0)).1 := rfl
  have e1 : sideAt box 1 k = (box.getD k (0, 0)).2 := rfl
  rw [e0] at h1
  rw [e1] at h3
  have hv : vat (x.set k t) k = t := vat_set_self (by omega)
  have := hs.gradient box (x.set k t) k t' hb (by rw [List.length_set, hx]) hk (by
    intro d hd
    by_cases c : d = k
    · subst c; rw [hv]; exact ⟨h1, le_trans (le_of_lt h2) h3⟩
    · rw [vat_set_ne c]; exact hin d hd c) ⟨le_trans h1 (le_of_lt h2), h3⟩
  rw [List.set_set, hv, abs_of_pos (by linarith : 0 < t' - t), abs_le] at this
  have hpos : 0 < t' - t := by linarith
  by_cases c : 0 < ((F.grad box).getD k ⟨0, 0⟩).alpha
  · rw [abs_of_pos c] at hg
    simp only [c, decide_true, if_true]
    have := mul_lt_mul_of_pos_right hg hpos
    linarith
  · simp only [c, decide_false, Bool.false_eq_true, if_false]
    rw [abs_of_nonpos (not_lt.1 c)] at hg
    have := mul_lt_mul_of_pos_right hg hpos
    linarith

/-- The constructor for a box of the plane. -/
theorem plane_ctorBox {E : Env K} {F : Fn K} {n d : Nat} (hp : Par E F n d none) (h0 : E.tol = 0) (hs : Sound 2 F) (hi' : Intermediate 2 F) :
    ∀ (rest : Nat) (psi : List Psi) (box : Box K) (acts : List (Action K)), psi.getD 0 E.psi0 = ⟨[0, 0], -1⟩ → psi ≠ [] → box.length = 2 →
      (∀ k, k < 2 → 0 < extent box k) → (E.S = false → Resolves F rest box) →
      ctorBox E F 2 (ctor E F 1) [true, true] [] rest psi 1 box = some acts → ∀ a ∈ acts, ActGood E F a := by
  have hline : ∀ (psi : List Psi) (box : Box K) (k : Nat) (acts : List (Action K)), psi.getD 0 E.psi0 = ⟨[0, 0], -1⟩ → psi ≠ [] → box.length = 2 →
      (∀ k, k < 2 → 0 < extent box k) → k < 2 → ((F.grad box).getD k ⟨0, 0⟩).dev < |((F.grad box).getD k ⟨0, 0⟩).alpha| →
      (ctor E F 1 ([true, true].set k false)
        (newPsis F E.S (decide (0 < ((F.grad box).getD k ⟨0, 0⟩).alpha)) k (psi.take 1) ++ List.replicate (nFacets 2 - 2 * 1) E.psi0) (2 * 1) box
        [⟨2, [true, true], psi, 1, box, k⟩]) = some acts → ∀ a ∈ acts, ActGood E F a := by
    intro psi box k acts hpsi hne hb hext hk hg hc a ha
    obtain ⟨T, hT⟩ : ∃ T : Level K, T = ⟨2, [true, true], psi, 1, box, k⟩ := ⟨_, rfl⟩
    obtain ⟨new, hnew⟩ : ∃ new, new = newPsis F E.S (decide (0 < ((F.grad box).getD k ⟨0, 0⟩).alpha)) k (psi.take 1) ++ List.replicate (nFacets 2 - 2 * 1) E.psi0 := ⟨_, rfl⟩
    rw [← hT, ← hnew, ctor] at hc
    dsimp only at hc
    rw [lineDir_plane hk, List.length_set] at hc
    have hn2 : [true, true].length = 2 := rfl
    rw [hn2] at hc
    obtain ⟨L, hL⟩ : ∃ L : Level K, L = ⟨1, [true, true].set k false, new, 2 * 1, box, 1 - k⟩ := ⟨_, rfl⟩
    rw [← hL] at hc
    have hwide : Wide E.tol 2 0 box := by
      intro j hj; rw [h0, zero_mul]; exact hext j hj
    have lev : ∀ (L : Level K), L.box = box → L.dir < 2 → LevelOk E L := by
      intro L h1 h2
      refine ⟨by rw [h0], hp.sort, ?_⟩
      rw [tolOf_zero h0]
      have e : hi L - lo L = extent box L.dir := by
        unfold hi lo sideAt extent
        rw [h1]
        simp
      rw [e]
      exact hext _ h2
    have top : Top E F T (decide (0 < ((F.grad box).getD k ⟨0, 0⟩).alpha)) := by
      rw [hT]
      exact ⟨h0, lev _ rfl hk, rfl, rfl, rfl, hk, hb, by dsimp only; rw [hpsi], mono_of_grad hs hb hk hg⟩
    have hnew' : ∃ s0 s1 rest, new = ⟨[0, 0].set k 0, s0⟩ :: ⟨[0, 0].set k 1, s1⟩ :: rest := by
      cases psi with
      | nil => exact absurd rfl hne
      | cons p psi =>
        have hpp : p = ⟨[0, 0], -1⟩ := hpsi
        rw [hnew, hpp]
        exact ⟨_, _, _, rfl⟩
    obtain ⟨s0, s1, rst, hnew'⟩ := hnew'
    have line : Line E T L := by
      have hLd : L.dir < 2 := by rw [hL]; show 1 - k < 2; omega
      refine ⟨lev _ (by rw [hL]) hLd, by rw [hL], by rw [hL, hT], by rw [hL], by rw [hL, hT], by rw [hL, hT], ?_, ?_⟩
      · rw [hL, hT, hnew']
        show ([0, 0].set k 0).getD k 0 = 0
        interval_cases k <;> rfl
      · rw [hL, hT, hnew']
        show ([0, 0].set k 1).getD k 0 = 1
        interval_cases k <;> rfl
    unfold lineActions at hc
    obtain ⟨Ms, hMs, hc⟩ := Option.bind_eq_some_iff.1 hc
    obtain ⟨evs, hevs, hc⟩ := Option.bind_eq_some_iff.1 hc
    rw [← Option.some.inj hc] at ha
    obtain ⟨e, he, rfl⟩ := List.mem_map.1 ha
    have hdirs : DirsOk (List.replicate 2 0).length [L, T] := by
      rw [hL, hT]
      refine ⟨?_, ?_⟩
      · simp; omega
      · intro L hL
        simp only [List.mem_cons, List.not_mem_nil, or_false] at hL
        rcases hL with rfl | rfl
        · show 1 - k < 2; omega
        · show k < 2; omega
    obtain ⟨Ms', m1, m2, -, -⟩ := computeRef_total E F hp.roots [L, T] ([L, T].map fun _ => []) (List.replicate 2 0) (List.replicate 2 0) (by simp)
      (by intro L' hL'; simp only [List.mem_cons, List.not_mem_nil, or_false] at hL'; rcases hL' with rfl | rfl; exact line.level; exact top.level)
      hdirs (fresh_empty _ _)
    rw [m1] at hMs
    rw [← Option.some.inj hMs] at hevs
    exact plane_process top line hp.roots hs hi' hp.node (by simp) m2 hevs e he
  have hres : ∀ (psi : List Psi) (box : Box K), box.length = 2 → (∀ k, k < 2 → 0 < extent box k) → psi.getD 0 E.psi0 = ⟨[0, 0], -1⟩ → psi ≠ [] →
      Resolved F box → ¬ (F.ivl box).uniform = true →
      ∃ k, ((heightDir F [true, true] box (psi.getD 0 E.psi0)).filter fun k => (psi.take 1).all (dirOk F [true, true] box k)) = some k := by
    intro psi box hb hext hpsi hne hr hu
    rcases hr with hr | ⟨j, hj, hr⟩
    · exact absurd (by unfold Ival.uniform; exact decide_eq_true hr) hu
    · rw [hb] at hj
      have hdev := dev_nonneg hs hb hext hj
      have hal : 0 < |((F.grad box).getD j ⟨0, 0⟩).alpha| := lt_of_le_of_lt (mul_nonneg (by norm_num) hdev) hr
      obtain ⟨k, hk⟩ := heightDir_some hb (psi.getD 0 E.psi0) hj hr (mul_pos hal (hext j hj))
      refine ⟨k, Option.filter_eq_some_iff.2 ⟨hk, ?_⟩⟩
      obtain ⟨k1, k2⟩ := heightDir_test hb hk
      have hdk := dev_nonneg hs hb hext k1
      rw [List.all_eq_true]
      intro p _
      unfold dirOk Ival.uniform
      rw [psiBox_all hb]
      exact decide_eq_true (by linarith)
  have main : ∀ (rest : Nat) (psi : List Psi) (box : Box K) (acts : List (Action K)), psi.getD 0 E.psi0 = ⟨[0, 0], -1⟩ → psi ≠ [] → box.length = 2 →
      (∀ k, k < 2 → 0 < extent box k) → (E.S = false → Resolves F rest box) →
      (∀ rest', rest = rest' + 1 → ∀ (d : Nat) (acts : List (Action K)), d < 2 → (E.S = false → ¬ Resolved F box) →
        (ctorBox E F 2 (ctor E F 1) [true, true] [] rest' psi 1 (lowerHalf box d) = some acts ∨
          ctorBox E F 2 (ctor E F 1) [true, true] [] rest' psi 1 (upperHalf box d) = some acts) → ∀ a ∈ acts, ActGood E F a) →
      ctorBox E F 2 (ctor E F 1) [true, true] [] rest psi 1 box = some acts → ∀ a ∈ acts, ActGood E F a := by
    intro rest psi box acts hpsi hne hb hext hR hrec hc
    have hwhole : ∀ psi' : List Psi, (E.S = false → ∀ x : List K, x.length = 2 → (∀ k, k < 2 → InAt box x k) → F.val x ≤ 0) →
        ∀ acts, wholeActions E F [true, true] 2 psi' box [] = some acts → ∀ a ∈ acts, ActGood E F a := by
      intro psi' hneg acts hw a ha
      unfold wholeActions fullActions at hw
      simp only [List.isEmpty_nil, if_true] at hw
      by_cases hS : E.S = true
      · rw [if_pos hS] at hw
        rw [← Option.some.inj hw] at ha
        simp at ha
      · rw [if_neg hS, if_pos (show 2 = [true, true].length from rfl)] at hw
        rw [← Option.some.inj hw, List.mem_singleton] at ha
        subst ha
        have hS' : E.S = false := by simpa using hS
        refine ⟨hS', hb, ?_, hneg hS'⟩
        intro k hk
        have := hext k hk
        unfold extent at this
        unfold sideAt
        simp only [if_true, one_ne_zero, if_false]
        linarith
    have hprune : prune F [true, true] box E.psi0 1 0 psi =
        if (F.ivl box).uniform then if (F.ivl box).alpha ≤ 0 then some (swap psi 0 0 E.psi0, 0) else none else some (psi, 1) := by
      unfold prune
      rw [hpsi]
      dsimp only
      rw [psiBox_all hb]
      by_cases hu : (F.ivl box).uniform = true
      · rw [if_pos hu, if_pos hu]
        by_cases ha : (F.ivl box).alpha ≤ 0
        · rw [if_pos ha, if_pos (Or.inr ⟨ha, by norm_num⟩)]
          rfl
        · rw [if_neg ha, if_neg]
          rintro (h | h)
          · exact absurd h.2 (by norm_num)
          · exact ha h.1
      · rw [if_neg hu, if_neg hu]
        rfl
    unfold ctorBox at hc
    rw [hprune] at hc
    by_cases hu : (F.ivl box).uniform = true
    · rw [if_pos hu] at hc
      by_cases hal : (F.ivl box).alpha ≤ 0
      · rw [if_pos hal] at hc
        dsimp only at hc
        rw [if_pos rfl] at hc
        refine hwhole _ ?_ acts hc
        intro _ x hx hin
        have := hs.value box x hb hx hin
        unfold Ival.uniform at hu
        rw [decide_eq_true_eq, abs_of_nonpos hal] at hu
        have := (abs_le.1 this).2
        linarith
      · rw [if_neg hal] at hc
        dsimp only at hc
        rw [← Option.some.inj hc]
        simp
    · rw [if_neg hu] at hc
      dsimp only at hc
      rw [if_neg (by omega)] at hc
      cases hh : (heightDir F [true, true] box (psi.getD 0 E.psi0)).filter fun k => (psi.take 1).all (dirOk F [true, true] box k) with
      | some k =>
        rw [hh] at hc
        dsimp only at hc
        rw [if_pos (by decide)] at hc
        obtain ⟨f1, f2⟩ := Option.filter_eq_some_iff.1 hh
        obtain ⟨k1, k2⟩ := heightDir_test hb f1
        rw [psiBox_all hb] at hc
        have hg : ((F.grad box).getD k ⟨0, 0⟩).dev < |((F.grad box).getD k ⟨0, 0⟩).alpha| := by
          have := dev_nonneg hs hb hext k1
          linarith
        exact hline psi box k acts hpsi hne hb hext k1 hg hc
      | none =>
        have hnr : E.S = false → ¬ Resolved F box := by
          intro _ hr
          obtain ⟨k, hk⟩ := hres psi box hb hext hpsi hne hr hu
          rw [hk] at hh
          simp at hh
        rw [hh] at hc
        cases rest with
        | zero =>
          dsimp only at hc
          split at hc
          · refine hwhole _ ?_ acts hc
            intro hS
            exact absurd (hR hS) (hnr hS)
          · rw [← Option.some.inj hc]; simp
        | succ rest =>
          dsimp only at hc
          obtain ⟨ds, hds, hc⟩ := Option.bind_eq_some_iff.1 hc
          obtain ⟨a1, ha1, hc⟩ := Option.bind_eq_some_iff.1 hc
          obtain ⟨a2, ha2, hc⟩ := Option.bind_eq_some_iff.1 hc
          obtain ⟨dd, hdd, hd2, _⟩ := splitDir_spec (free := [true, true]) (box := box) (d := 0) (by omega) rfl (hext 0 (by omega))
          rw [hdd] at hds
          have hds := Option.some.inj hds
          rw [hds, hb] at hd2
          rw [← Option.some.inj hc]
          intro a ha
          simp only [List.mem_append, List.mem_singleton] at ha
          rcases ha with (ha | ha) | ha
          · exact hrec rest rfl ds a1 hd2 hnr (Or.inl ha1) a ha
          · rw [ha]; trivial
          · exact hrec rest rfl ds a2 hd2 hnr (Or.inr ha2) a ha
  intro rest
  induction rest with
  | zero =>
    intro psi box acts hpsi hne hb hext hR hc
    exact main 0 psi box acts hpsi hne hb hext hR (by intro r hr; omega) hc
  | succ rest ih =>
    intro psi box acts hpsi hne hb hext hR hc
    refine main (rest + 1) psi box acts hpsi hne hb hext hR ?_ hc
    intro r hr dd acts' hdd hnr hc' a ha
    have : r = rest := by omega
    subst this
    have hR' : E.S = false → Resolves F r (lowerHalf box dd) ∧ Resolves F r (upperHalf box dd) := by
      intro hS
      rcases hR hS with h | h
      · exact absurd h (hnr hS)
      · exact h dd (by omega)
    have hW : Wide (0 : K) 2 1 box := by intro k hk; rw [zero_mul]; exact hext k hk
    rcases hc' with hc' | hc'
    · refine ih psi (lowerHalf box dd) acts' hpsi hne (by unfold lowerHalf; rw [List.length_set, hb]) ?_ (fun hS => (hR' hS).1) hc' a ha
      intro k hk
      have := Wide.lower (le_refl _) hW hb dd k hk
      rwa [zero_mul] at this
    · refine ih psi (upperHalf box dd) acts' hpsi hne (by unfold upperHalf; rw [List.length_set, hb]) ?_ (fun hS => (hR' hS).2) hc' a ha
      intro k hk
      have := Wide.upper (le_refl _) hW hb dd k hk
      rwa [zero_mul] at this

end Qugar.General
