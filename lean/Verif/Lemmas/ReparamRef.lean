import Verif.Model.ReparamBezier
import Verif.Props.Roots
import Mathlib.Data.List.InsertIdx
/-
Lemmas on the reference intervals of the Bézier reparameterization: `computeRef` always succeeds and fills the maps with
intervals that are given by a recursive function without maps (`actives`).
-/
namespace Qugar.Reparam
open Roots Mesh Poly
variable {K : Type} [Field K] [LinearOrder K]

/-- The adjusted roots over a base point. -/
def breaks (E : Env K) (L : Level K) (p : List K) : List (Root K) := adjust E.tol 0 1 (E.srt (allRoots L.phi p))

/-- Interval `i` is longer than the tolerance. -/
def nonDeg (E : Env K) (rts : List (Root K)) (i : Nat) : Bool :=
  !Tol.equal E.tol (rts.getD i (0, -1)).1 (rts.getD (i + 1) (0, -1)).1

/-- Active flags of the intervals over `p`, before the change of the level set case. -/
def flags (E : Env K) (acts : List K → List Bool) (top : Bool) (L : Level K) (p : List K) : List Bool :=
  (List.range ((breaks E L p).length - 1)).map fun i =>
    nonDeg E (breaks E L p) i &&
      (if top then inside L.phi (midPoint L (breaks E L p) p i) else (acts (midPoint L (breaks E L p) p i)).any id)

/-- The change of the level set case. -/
def jumps (act : List Bool) : List Bool :=
  (List.range act.length).map fun i => decide (i < act.length - 1) && (act.getD i false != act.getD (i + 1) false)

/-- Active flags of the intervals over `p`. -/
def actives (E : Env K) : List (Level K) → List K → List Bool
  | [], _ => []
  | L :: Ls, p =>
    let a := flags E (actives E Ls) Ls.isEmpty L p
    if Ls.isEmpty && E.S then jumps a else a

/-- The maps hold the intervals of the tree that starts at `p`. -/
def Stored (E : Env K) : List (Level K) → List (RefMap K) → List K → List Nat → Prop
  | [], _, _, _ => True
  | L :: Ls, M :: Ms, p, tid => M.lookup tid = some ⟨p, breaks E L p, actives E (L :: Ls) p⟩ ∧
      ∀ i, i < (breaks E L p).length - 1 → nonDeg E (breaks E L p) i = true →
        Stored E Ls Ms (midPoint L (breaks E L p) p i) (addComponent tid L.dir i)
  | _ :: _, [], _, _ => False

/-- The maps hold no key of the tree of `tid`. -/
def Fresh : List (Level K) → List (RefMap K) → List Nat → Prop
  | [], _, _ => True
  | L :: Ls, M :: Ms, tid => M.lookup tid = none ∧ ∀ i, Fresh Ls Ms (addComponent tid L.dir i)
  | _ :: _, [], _ => False

/-- The directions are those of levels over `n`-dimensional points. -/
def DirsOk : Nat → List (Level K) → Prop
  | _, [] => True
  | n, L :: Ls => L.dir ≤ n ∧ DirsOk (n + 1) Ls

/-- The root finder returns numbers in [0,1]. -/
def RootsOk (Ls : List (Level K)) : Prop := ∀ L ∈ Ls, ∀ i p r, r ∈ L.phi.roots i p → 0 ≤ r ∧ r ≤ 1

/-- The sort sorts. -/
def IsRootSort (srt : List (Root K) → List (Root K)) : Prop := ∀ l, IsSortedPerm l (srt l)

theorem addComponent_inj {α : Type} {p q : List α} {d : Nat} {x y : α} (h : addComponent p d x = addComponent q d y)
    (hp : d ≤ p.length) (hq : d ≤ q.length) : p = q ∧ x = y := by
  unfold addComponent at h
  have h1 : p = q := by
    have := congrArg (fun l => l.eraseIdx d) h
    simpa using this
  subst h1
  refine ⟨rfl, ?_⟩
  have := congrArg (fun l => l[d]?) h
  simpa [List.getElem?_insertIdx_self, hp] using this

theorem addComponent_length {α : Type} {p : List α} {d : Nat} {x : α} (hp : d ≤ p.length) :
    (addComponent p d x).length = p.length + 1 := List.length_insertIdx_of_le_length hp x

/-! ### Number of adjusted roots -/

section
variable [IsStrictOrderedRing K]

theorem adjust_length {tol : K} (ht : 0 ≤ tol) (ht1 : tol < 1) (roots old : List (Root K)) (hold : IsSortedPerm roots old)
    (hin : ∀ r ∈ roots, 0 ≤ r.1 ∧ r.1 ≤ 1) (rest : List (Root K)) (hr : roots.Perm ((0, -1) :: (1, -1) :: rest))
    (hrest : ∀ r ∈ rest, r.2 ≠ -1) : (adjust tol 0 1 old).length = roots.length := by
  classical
  obtain ⟨mid, h1, h2, -, -⟩ := C42_adjusted_roots_partial tol 0 1 ht (by norm_num) roots old hold
    (fun r hr => ⟨by linarith [(hin r hr).1], by linarith [(hin r hr).2]⟩)
  have e0 : ∃ r ∈ roots, r.2 = -1 ∧ |r.1 - 0| ≤ tol := ⟨(0, -1), hr.mem_iff.2 (by simp), rfl, by simpa using ht⟩
  have e1 : ∃ r ∈ roots, r.2 = -1 ∧ tol < |r.1 - 0| ∧ |r.1 - 1| ≤ tol :=
    ⟨(1, -1), hr.mem_iff.2 (by simp), rfl, by simpa using ht1, by simpa using ht⟩
  rw [if_pos e0, if_pos e1] at h1
  rw [h1]
  have hl := h2.length_eq
  have hp : (old.filter fun r => ¬ (r.2 = -1 ∧ (|r.1 - 0| ≤ tol ∨ |r.1 - 1| ≤ tol))).Perm rest := by
    have h3 := (hold.1.trans hr).filter (fun r => ¬ (r.2 = -1 ∧ (|r.1 - 0| ≤ tol ∨ |r.1 - 1| ≤ tol)))
    refine h3.trans ?_
    have h4 : (((0, -1) :: (1, -1) :: rest : List (Root K)).filter fun r =>
        ¬ (r.2 = -1 ∧ (|r.1 - 0| ≤ tol ∨ |r.1 - 1| ≤ tol))) = rest := by
      rw [List.filter_cons_of_neg, List.filter_cons_of_neg, List.filter_eq_self]
      · intro r hr; simp [hrest r hr]
      · simp [ht]
      · simp [ht]
    rw [h4]
  have := hp.length_eq
  have h5 := hr.length_eq
  simp only [List.length_append, List.length_cons, List.length_nil] at *
  omega

theorem allRoots_mem {L : Level K} (h : RootsOk [L]) (p : List K) : ∀ r ∈ allRoots L.phi p, 0 ≤ r.1 ∧ r.1 ≤ 1 := by
  intro r hr
  unfold allRoots at hr
  simp only [List.cons_append, List.nil_append, List.mem_cons, List.mem_flatMap, List.mem_map, List.mem_range] at hr
  rcases hr with rfl | rfl | ⟨i, _, a, ha, rfl⟩
  · simp
  · simp
  · exact h L (by simp) i p a ha

theorem breaks_length {E : Env K} (ht : 0 ≤ E.tol) (ht1 : E.tol < 1) (hs : IsRootSort E.srt) {L : Level K} (h : RootsOk [L])
    (p : List K) : (breaks E L p).length = (allRoots L.phi p).length := by
  refine adjust_length ht ht1 _ _ (hs _) (allRoots_mem h p)
    ((List.range L.phi.count).flatMap fun i => (L.phi.roots i p).map fun r => (r, (i : Int))) (List.Perm.refl _) ?_
  intro r hr
  simp only [List.mem_flatMap, List.mem_map] at hr
  obtain ⟨i, _, a, _, rfl⟩ := hr
  simp only [ne_eq]
  omega

theorem breaks_mem {E : Env K} (ht : 0 ≤ E.tol) (hs : IsRootSort E.srt) {L : Level K} (h : RootsOk [L])
    (p : List K) : ∀ r ∈ breaks E L p, 0 ≤ r.1 ∧ r.1 ≤ 1 := by
  classical
  obtain ⟨_, _, _, _, h4⟩ := C42_adjusted_roots_partial E.tol 0 1 ht (by norm_num) _ _ (hs (allRoots L.phi p))
    (fun r hr => ⟨by linarith [(allRoots_mem h p r hr).1], by linarith [(allRoots_mem h p r hr).2]⟩)
  exact h4

theorem breaks_sorted {E : Env K} (ht : 0 ≤ E.tol) (hs : IsRootSort E.srt) {L : Level K} (h : RootsOk [L])
    (p : List K) : (breaks E L p).Pairwise (fun a b => a.1 ≤ b.1) := by
  classical
  obtain ⟨_, _, _, h3, _⟩ := C42_adjusted_roots_partial E.tol 0 1 ht (by norm_num) _ _ (hs (allRoots L.phi p))
    (fun r hr => ⟨by linarith [(allRoots_mem h p r hr).1], by linarith [(allRoots_mem h p r hr).2]⟩)
  exact h3

theorem two_le_allRoots (phi : PolySet K) (p : List K) : 2 ≤ (allRoots phi p).length := by
  unfold allRoots; simp

theorem computeAll_eq {E : Env K} (ht : 0 ≤ E.tol) (ht1 : E.tol < 1) (hs : IsRootSort E.srt) {L : Level K} (h : RootsOk [L])
    (p : List K) : computeAll E L p = some ⟨p, breaks E L p, (List.range ((breaks E L p).length - 1)).map (nonDeg E (breaks E L p))⟩ := by
  unfold computeAll
  have h1 := breaks_length ht ht1 hs h p
  have h2 := two_le_allRoots L.phi p
  unfold breaks at *
  dsimp only
  rw [if_pos (by omega)]
  rfl
end

/-! ### Maps -/

theorem lookup_emplace_self {M : RefMap K} {tid : List Nat} {iv : Intervals K} (h : M.lookup tid = none) :
    (emplace M tid iv).lookup tid = some iv := by
  unfold emplace
  rw [h]
  simp [List.lookup_cons]

theorem lookup_emplace_some {M : RefMap K} {tid t : List Nat} {iv v : Intervals K} (h : M.lookup t = some v) :
    (emplace M tid iv).lookup t = some v := by
  unfold emplace
  split
  · exact h
  · rename_i hn
    rw [List.lookup_cons]
    have : (t == tid) = false := by
      rw [beq_eq_false_iff_ne]
      rintro rfl
      rw [h] at hn
      simp at hn
    rw [this]
    exact h

theorem lookup_emplace_ne {M : RefMap K} {tid t : List Nat} {iv : Intervals K} (h : t ≠ tid) :
    (emplace M tid iv).lookup t = M.lookup t := by
  unfold emplace
  split
  · rfl
  · rw [List.lookup_cons, beq_eq_false_iff_ne.2 h]

theorem foldlM_range {β : Type} (P : Nat → β → Prop) (f : β → Nat → Option β) (n : Nat) (b : β) (h0 : P 0 b)
    (hstep : ∀ k b, k < n → P k b → ∃ b', f b k = some b' ∧ P (k + 1) b') :
    ∃ b', (List.range n).foldlM f b = some b' ∧ P n b' := by
  induction n with
  | zero => exact ⟨b, rfl, h0⟩
  | succ n ih =>
    obtain ⟨b1, h1, p1⟩ := ih (fun k b hk => hstep k b (by omega))
    obtain ⟨b2, h2, p2⟩ := hstep n b1 (by omega) p1
    refine ⟨b2, ?_, p2⟩
    rw [List.range_succ, List.foldlM_append, h1]
    show List.foldlM f b1 [n] = _
    rw [List.foldlM_cons, h2]
    rfl

theorem anyM_some {α : Type} (f : α → Option Bool) (g : α → Bool) : ∀ (l : List α), (∀ a ∈ l, f a = some (g a)) →
    l.anyM f = some (l.any g) := by
  intro l
  induction l with
  | nil => intro _; rfl
  | cons a l ih =>
    intro h
    rw [List.anyM, h a (by simp)]
    cases hg : g a with
    | true => simp [hg]
    | false =>
      simp only [List.any_cons, hg, Bool.false_or]
      exact ih fun b hb => h b (by simp [hb])

/-- The lists of maps and of levels have the same length. -/
theorem actives_length (E : Env K) (L : Level K) (Ls : List (Level K)) (p : List K) :
    (actives E (L :: Ls) p).length = (breaks E L p).length - 1 := by
  unfold actives
  dsimp only
  split <;> simp [jumps, flags]

theorem flags_getD (E : Env K) (acts : List K → List Bool) (top : Bool) (L : Level K) (p : List K) (i : Nat) :
    (flags E acts top L p).getD i false = (decide (i < (breaks E L p).length - 1) && (nonDeg E (breaks E L p) i &&
      (if top then inside L.phi (midPoint L (breaks E L p) p i) else (acts (midPoint L (breaks E L p) p i)).any id))) := by
  unfold flags
  by_cases h : i < (breaks E L p).length - 1
  · simp [List.getD_eq_getElem?_getD, h]
  · simp [List.getD_eq_getElem?_getD, h]

theorem any_id_iff (l : List Bool) : l.any id = (List.range l.length).any fun i => l.getD i false := by
  rw [Bool.eq_iff_iff, List.any_eq_true, List.any_eq_true]
  constructor
  · rintro ⟨x, hx, h⟩
    obtain ⟨i, hi, rfl⟩ := List.getElem_of_mem hx
    exact ⟨i, List.mem_range.2 hi, by rw [List.getD_eq_getElem _ _ hi]; exact h⟩
  · rintro ⟨i, hi, h⟩
    have hi := List.mem_range.1 hi
    rw [List.getD_eq_getElem _ _ hi] at h
    exact ⟨_, List.getElem_mem hi, h⟩

/-- With the tree stored, `check_all_ref_intervals_inactive` tells whether an interval is active. -/
theorem allInactive_eq (E : Env K) : ∀ (Ls : List (Level K)) (Ms : List (RefMap K)) (p : List K) (tid : List Nat),
    Ls ≠ [] → Stored E Ls Ms p tid → allInactive Ls Ms tid = some (!(actives E Ls p).any id) := by
  intro Ls
  induction Ls with
  | nil => intro _ _ _ h; exact absurd rfl h
  | cons L Ls ih =>
    intro Ms p tid _ hst
    cases Ms with
    | nil => exact absurd hst (by simp [Stored])
    | cons M Ms =>
      obtain ⟨h1, h2⟩ := hst
      rw [allInactive, h1]
      show (do let any ← _; some !any) = _
      dsimp only
      rw [anyM_some _ (fun i => (actives E (L :: Ls) p).getD i false)]
      · rw [any_id_iff]; rfl
      · intro i hi
        have hi : i < (actives E (L :: Ls) p).length := List.mem_range.1 hi
        rw [actives_length] at hi
        cases ha : (actives E (L :: Ls) p).getD i false with
        | false => simp
        | true =>
          cases hL : Ls with
          | nil => simp
          | cons L' Ls' =>
            subst hL
            have hf : (flags E (actives E (L' :: Ls')) false L p).getD i false = true := by
              rw [actives] at ha
              simpa using ha
            rw [flags_getD] at hf
            simp only [Bool.and_eq_true, decide_eq_true_eq, Bool.false_eq_true, if_false] at hf
            rw [ih Ms _ _ (by simp) (h2 i hf.1 hf.2.1)]
            simp [hf.2.2]

/-- The maps grow. -/
theorem computeRef_total (E : Env K) [IsStrictOrderedRing K] (ht : 0 ≤ E.tol) (ht1 : E.tol < 1) (hs : IsRootSort E.srt) : ∀ (Ls : List (Level K)) (Ms : List (RefMap K)) (p : List K)
    (tid : List Nat), Ls ≠ [] → RootsOk Ls → DirsOk tid.length Ls → Fresh Ls Ms tid →
    ∃ Ms', computeRef E Ls p tid Ms = some Ms' ∧ Stored E Ls Ms' p tid ∧
      (∀ p' tid', Stored E Ls Ms p' tid' → Stored E Ls Ms' p' tid') ∧
      ∀ tid', tid' ≠ tid → tid'.length = tid.length → Fresh Ls Ms tid' → Fresh Ls Ms' tid' := by
  intro Ls
  induction Ls with
  | nil => intro _ _ _ h; exact absurd rfl h
  | cons L Ls ih =>
    intro Ms p tid _ hro hdir hfr
    cases Ms with
    | nil => exact absurd hfr (by simp [Fresh])
    | cons M Ms =>
      obtain ⟨hf1, hf2⟩ := hfr
      obtain ⟨hd1, hd2⟩ := hdir
      have hL : RootsOk [L] := fun L' hL' => hro L' (by simp at hL'; simp [hL'])
      have hLs : RootsOk Ls := fun L' hL' => hro L' (by simp [hL'])
      rw [computeRef, computeAll_eq ht ht1 hs hL]
      simp only [Option.bind_eq_bind, Option.bind_some, List.length_map, List.length_range]
      obtain ⟨rts, hrts⟩ : ∃ rts, rts = breaks E L p := ⟨_, rfl⟩
      obtain ⟨n, hn⟩ : ∃ n, n = rts.length - 1 := ⟨_, rfl⟩
      rw [← hrts, ← hn]
      -- invariant of the loop
      obtain ⟨⟨act, Ms1⟩, hrun, ⟨hact, hst, hmono, hfresh⟩, hlt⟩ := foldlM_range
        (P := fun k (st : List Bool × List (RefMap K)) =>
          (st.1 = (List.range n).map (fun i => if i < k then nonDeg E rts i && (if Ls.isEmpty then inside L.phi (midPoint L rts p i) else (actives E Ls (midPoint L rts p i)).any id) else nonDeg E rts i) ∧
          (∀ i, i < k → nonDeg E rts i = true → Stored E Ls st.2 (midPoint L rts p i) (addComponent tid L.dir i)) ∧
          (∀ p' tid', Stored E Ls Ms p' tid' → Stored E Ls st.2 p' tid') ∧
          (∀ tid', tid'.length = tid.length + 1 → (∀ i, i < k → tid' ≠ addComponent tid L.dir i) → Fresh Ls Ms tid' → Fresh Ls st.2 tid')) ∧ k ≤ n)
        (f := fun (st : List Bool × List (RefMap K)) i =>
          if ((List.range n).map (nonDeg E rts)).getD i false = true then
            if Ls.isEmpty = true then some (st.1.set i (inside L.phi (midPoint L rts p i)), st.2)
            else (computeRef E Ls (midPoint L rts p i) (addComponent tid L.dir i) st.2).bind fun Ms =>
              (allInactive Ls Ms (addComponent tid L.dir i)).bind fun ina => some (st.1.set i (!ina), Ms)
          else some st) n ((List.range n).map (nonDeg E rts), Ms)
        (by
          refine ⟨⟨?_, ?_, ?_, ?_⟩, Nat.zero_le _⟩
          · simp
          · intro i hi; omega
          · intro p' tid' h; exact h
          · intro tid' _ _ h; exact h)
        (by
          rintro k ⟨act, Ms1⟩ hk ⟨⟨h1, h2, h3, h4⟩, _⟩
          dsimp only at h1 h2 h3 h4 ⊢
          have hg : ((List.range n).map (nonDeg E rts)).getD k false = nonDeg E rts k := by
            simp [List.getD_eq_getElem?_getD, hk]
          rw [hg]
          have hset : ∀ b : Bool, nonDeg E rts k = true → b = (if Ls.isEmpty then inside L.phi (midPoint L rts p k) else (actives E Ls (midPoint L rts p k)).any id) →
              act.set k b = (List.range n).map (fun i => if i < k + 1 then nonDeg E rts i && (if Ls.isEmpty then inside L.phi (midPoint L rts p i) else (actives E Ls (midPoint L rts p i)).any id) else nonDeg E rts i) := by
            intro b hnd hb
            rw [h1]
            apply List.ext_getElem (by simp)
            intro j hj1 hj2
            rw [List.getElem_set]
            simp only [List.getElem_map, List.getElem_range]
            split
            · rename_i hjk; subst hjk; simp [hnd, hb]
            · rename_i hjk
              by_cases hj : j < k
              · simp only [if_pos hj, if_pos (show j < k + 1 by omega)]
              · simp only [if_neg hj, if_neg (show ¬ j < k + 1 by omega)]
          by_cases hnd : nonDeg E rts k = true
          · rw [if_pos hnd]
            cases hLe : Ls.isEmpty with
            | true =>
              have hLs0 : Ls = [] := List.isEmpty_iff.1 hLe
              refine ⟨_, rfl, ⟨⟨?_, ?_, ?_, ?_⟩, hk⟩⟩
              · have := hset _ hnd rfl
                rw [hLe] at this
                simpa using this
              · intro i hi hn'; subst hLs0; trivial
              · exact h3
              · intro tid' _ _ _; subst hLs0; trivial
            | false =>
              have hne : Ls ≠ [] := by rintro rfl; simp at hLe
              have hlen := addComponent_length (α := Nat) (x := k) hd1
              obtain ⟨Ms2, hc, hs2, hm2, hfr2⟩ := ih Ms1 (midPoint L rts p k) (addComponent tid L.dir k) hne hLs
                (by rw [hlen]; exact hd2)
                (h4 _ hlen (by
                  intro i hi he
                  have := (addComponent_inj he hd1 hd1).2
                  omega) (hf2 k))
              rw [hc]
              simp only [Option.bind_some, Bool.false_eq_true, if_false]
              rw [allInactive_eq E Ls Ms2 _ _ hne hs2]
              refine ⟨_, rfl, ⟨⟨?_, ?_, ?_, ?_⟩, hk⟩⟩
              · have := hset ((actives E Ls (midPoint L rts p k)).any id) hnd (by rw [hLe]; simp)
                rw [hLe] at this
                simpa using this
              · intro i hi hn'
                by_cases hik : i = k
                · subst hik; exact hs2
                · exact hm2 _ _ (h2 i (by omega) hn')
              · intro p' tid' h; exact hm2 _ _ (h3 p' tid' h)
              · intro tid' hl hne' hfr'
                exact hfr2 tid' (hne' k (by omega)) (by rw [hl, hlen]) (h4 tid' hl (fun i hi => hne' i (by omega)) hfr')
          · rw [if_neg hnd]
            refine ⟨_, rfl, ⟨⟨?_, ?_, h3, ?_⟩, hk⟩⟩
            · dsimp only
              rw [h1]
              apply List.map_congr_left
              intro i _
              by_cases hi : i < k
              · simp only [if_pos hi, if_pos (show i < k + 1 by omega)]
              · by_cases hik : i = k
                · subst hik; simp [hnd]
                · simp only [if_neg hi, if_neg (show ¬ i < k + 1 by omega)]
            · intro i hi hn'
              by_cases hik : i = k
              · subst hik; exact absurd hn' hnd
              · exact h2 i (by omega) hn'
            · intro tid' hl hne' hfr'
              exact h4 tid' hl (fun i hi => hne' i (by omega)) hfr')
      dsimp only at hact hst hmono hfresh
      rw [hrun]
      simp only [Option.bind_some]
      have hfl : act = flags E (actives E Ls) Ls.isEmpty L p := by
        rw [hact]
        unfold flags
        rw [← hrts, ← hn]
        apply List.map_congr_left
        intro i hi
        simp [List.mem_range.1 hi]
      have hac : (if (Ls.isEmpty && E.S) = true then
          (List.range act.length).map fun i => decide (i < act.length - 1) && (act.getD i false != act.getD (i + 1) false)
          else act) = actives E (L :: Ls) p := by
        rw [hfl, actives]
        rfl
      refine ⟨_, rfl, ?_, ?_, ?_⟩
      · refine ⟨?_, ?_⟩
        · rw [lookup_emplace_self hf1, hac, hrts]
        · intro i hi hnd
          rw [← hrts] at hi hnd ⊢
          exact hst i (by omega) hnd
      · intro p' tid' h
        obtain ⟨h1, h2⟩ := h
        exact ⟨lookup_emplace_some h1, fun i hi hnd => hmono _ _ (h2 i hi hnd)⟩
      · intro tid' hne hl h
        obtain ⟨h1, h2⟩ := h
        refine ⟨by rw [lookup_emplace_ne hne]; exact h1, ?_⟩
        intro i
        refine hfresh _ (by rw [addComponent_length (by omega), hl]) ?_ (h2 i)
        intro j _ he
        exact hne (addComponent_inj he (by omega) hd1).1

end Qugar.Reparam
