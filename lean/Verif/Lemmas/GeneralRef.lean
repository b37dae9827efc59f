import Verif.Model.ReparamGeneral
import Verif.Lemmas.ReparamProcess
/-
Lemmas on the intervals of the reparameterization of general functions: they can always be computed, and the reference intervals are
given by functions without maps.
-/
namespace Qugar.General
open Roots Mesh Poly Reparam
variable {K : Type} [Field K] [LinearOrder K]

/-- The ends of the line of a level. -/
def lo (L : Level K) : K := sideAt L.box 0 L.dir
def hi (L : Level K) : K := sideAt L.box 1 L.dir

/-- The adjusted roots at a point. -/
def breaks (E : Env K) (F : Fn K) (L : Level K) (x : List K) : List (Root K) :=
  adjust (tolOf E L) (lo L) (hi L) (E.srt (allRoots E F L x))

/-- The active flags. -/
def actives (E : Env K) (F : Fn K) (S : Bool) (L : Level K) (x : List K) : List Bool :=
  if S then []
  else (List.range ((breaks E F L x).length - 1)).map fun i =>
    activeInterval E F L x ((breaks E F L x).getD i (0, -1)).1 ((breaks E F L x).getD (i + 1) (0, -1)).1

/-- The root finder returns numbers in the interval, at most one if the function is monotone. -/
def RootsOk (F : Fn K) : Prop := ∀ x d a b g, (∀ r ∈ F.rootFind x d a b g, a ≤ r ∧ r ≤ b) ∧ (g = true → (F.rootFind x d a b g).length ≤ 1)

/-- What is needed of a level: its line is longer than the tolerance. -/
structure LevelOk (E : Env K) (L : Level K) : Prop where
  tol0 : 0 ≤ E.tol
  sort : IsRootSort E.srt
  wide : tolOf E L < hi L - lo L

section
variable [IsStrictOrderedRing K]

theorem LevelOk.tol {E : Env K} {L : Level K} (h : LevelOk E L) : 0 ≤ tolOf E L := le_trans h.tol0 (le_max_left _ _)
theorem LevelOk.lt {E : Env K} {L : Level K} (h : LevelOk E L) : lo L < hi L := by have := h.tol; have := h.wide; linarith

theorem allRoots_mem {E : Env K} {F : Fn K} (hF : RootsOk F) {L : Level K} (h : LevelOk E L) (x : List K) :
    ∀ r ∈ allRoots E F L x, lo L ≤ r.1 ∧ r.1 ≤ hi L := by
  intro r hr
  have hlt := le_of_lt h.lt
  unfold allRoots at hr
  simp only [List.cons_append, List.nil_append, List.mem_cons, List.mem_flatMap, List.mem_map, List.mem_range] at hr
  rcases hr with rfl | rfl | ⟨i, _, a, ha, rfl⟩
  · exact ⟨le_refl _, hlt⟩
  · exact ⟨hlt, le_refl _⟩
  · exact (hF _ _ _ _ _).1 a ha

/-- The roots of the functions, with the index of the function. -/
def funcRoots (E : Env K) (F : Fn K) (L : Level K) (x : List K) : List (Root K) :=
  (List.range L.count).flatMap fun i => (computeRoots E F L x i).map fun r => (r, (i : Int))

omit [IsStrictOrderedRing K] in
theorem mem_funcRoots {E : Env K} {F : Fn K} {L : Level K} {x : List K} {r : Root K} :
    r ∈ funcRoots E F L x ↔ ∃ i, i < L.count ∧ r.1 ∈ computeRoots E F L x i ∧ r.2 = (i : Int) := by
  unfold funcRoots
  simp only [List.mem_flatMap, List.mem_map, List.mem_range]
  constructor
  · rintro ⟨i, hi, a, ha, rfl⟩; exact ⟨i, hi, ha, rfl⟩
  · rintro ⟨i, hi, ha, h⟩; exact ⟨i, hi, r.1, ha, by rw [← h]⟩

/-- Adjusted roots with the ends. -/
theorem adjust_shape {tol a b : K} (ht : 0 ≤ tol) (hab : tol < b - a) {R old : List (Root K)} (hs : IsSortedPerm R old)
    {fs : List (Root K)} (hR : R.Perm ([(a, (-1 : Int)), (b, -1)] ++ fs)) (hid : ∀ r ∈ fs, 0 ≤ r.2)
    (hin : ∀ r ∈ fs, a ≤ r.1 ∧ r.1 ≤ b) :
    ∃ mid : List (Root K), adjust tol a b old = (a, -1) :: mid ++ [(b, -1)] ∧
      List.Forall₂ (fun r r' : Root K => r'.2 = r.2 ∧ |r'.1 - r.1| ≤ tol) (old.filter fun r => decide (r.2 ≠ -1)) mid ∧
      (adjust tol a b old).Pairwise (fun r s => r.1 ≤ s.1) ∧ (∀ r ∈ adjust tol a b old, a ≤ r.1 ∧ r.1 ≤ b) := by
  classical
  have hle : a ≤ b := by linarith
  have hin' : ∀ r ∈ R, a ≤ r.1 ∧ r.1 ≤ b := by
    intro r hr
    have := hR.mem_iff.1 hr
    simp only [List.cons_append, List.nil_append, List.mem_cons] at this
    rcases this with rfl | rfl | h
    · exact ⟨le_refl _, hle⟩
    · exact ⟨hle, le_refl _⟩
    · exact hin r h
  obtain ⟨mid, h1, h2, h3, h4⟩ := C42_adjusted_roots_partial tol a b ht hle R old hs
    (fun r hr => ⟨by linarith [(hin' r hr).1], by linarith [(hin' r hr).2]⟩)
  have e0 : ∃ r ∈ R, r.2 = -1 ∧ |r.1 - a| ≤ tol := ⟨(a, -1), hR.mem_iff.2 (by simp), rfl, by simpa using ht⟩
  have e1 : ∃ r ∈ R, r.2 = -1 ∧ tol < |r.1 - a| ∧ |r.1 - b| ≤ tol :=
    ⟨(b, -1), hR.mem_iff.2 (by simp), rfl, lt_of_lt_of_le hab (le_abs_self _), by simpa using ht⟩
  rw [if_pos e0, if_pos e1] at h1
  refine ⟨mid, by rw [h1]; rfl, ?_, h3, h4⟩
  have e : (old.filter fun r => decide (r.2 ≠ -1)) =
      old.filter fun r => ¬ (r.2 = -1 ∧ (|r.1 - a| ≤ tol ∨ |r.1 - b| ≤ tol)) := by
    apply List.filter_congr
    intro r hr
    have := hR.mem_iff.1 (hs.1.mem_iff.1 hr)
    simp only [List.cons_append, List.nil_append, List.mem_cons] at this
    rcases this with rfl | rfl | h
    · simp [ht]
    · simp [ht]
    · have := hid r h
      have hn : r.2 ≠ -1 := by omega
      simp [hn]
  rw [e]
  exact h2.imp fun r r' h => ⟨h.1, h.2.1⟩

theorem filter_ends (a b : K) (fs : List (Root K)) (hid : ∀ r ∈ fs, 0 ≤ r.2) :
    (([(a, (-1 : Int)), (b, -1)] ++ fs).filter fun r => decide (r.2 ≠ -1)) = fs := by
  rw [List.cons_append, List.cons_append, List.nil_append, List.filter_cons_of_neg (by simp), List.filter_cons_of_neg (by simp), List.filter_eq_self]
  intro r hr
  have := hid r hr
  have hn : r.2 ≠ -1 := by omega
  simp [hn]

/-- Shape of the breaks. -/
theorem breaks_shape {E : Env K} {F : Fn K} (hF : RootsOk F) {L : Level K} (h : LevelOk E L) (x : List K) :
    ∃ mid : List (Root K), breaks E F L x = (lo L, -1) :: mid ++ [(hi L, -1)] ∧ mid.length = (funcRoots E F L x).length ∧
      (∀ r ∈ mid, ∃ a ∈ funcRoots E F L x, r.2 = a.2 ∧ |r.1 - a.1| ≤ tolOf E L) ∧
      (∀ i : Int, (mid.filter fun r => decide (r.2 = i)).length = ((funcRoots E F L x).filter fun r => decide (r.2 = i)).length) ∧
      (breaks E F L x).Pairwise (fun r s => r.1 ≤ s.1) ∧ ∀ r ∈ breaks E F L x, lo L ≤ r.1 ∧ r.1 ≤ hi L := by
  have hid : ∀ r ∈ funcRoots E F L x, 0 ≤ r.2 := by
    intro r hr
    obtain ⟨i, _, _, h⟩ := mem_funcRoots.1 hr
    omega
  have hall : allRoots E F L x = [(lo L, (-1 : Int)), (hi L, -1)] ++ funcRoots E F L x := rfl
  obtain ⟨mid, h1, h2, h3, h4⟩ := adjust_shape (R := allRoots E F L x) h.tol h.wide (h.sort _) (fs := funcRoots E F L x)
    (by rw [hall]) hid (fun r hr => allRoots_mem hF h x r (by rw [hall]; exact List.mem_append_right _ hr))
  have hperm : ((E.srt (allRoots E F L x)).filter fun r => decide (r.2 ≠ -1)).Perm (funcRoots E F L x) := by
    have := (h.sort (allRoots E F L x)).1.filter (fun r => decide (r.2 ≠ -1))
    rw [hall, filter_ends _ _ _ hid] at this
    rw [hall]
    exact this
  refine ⟨mid, h1, by rw [← h2.length_eq, hperm.length_eq], ?_, ?_, h3, h4⟩
  · intro r hr
    obtain ⟨a, ha, hra⟩ := forall2_mem_right h2 hr
    exact ⟨a, hperm.mem_iff.1 ha, hra⟩
  · intro i
    rw [filter_length_of_ids (fun r r' hr => hr.1) i h2, (hperm.filter _).length_eq]

theorem breaks_length {E : Env K} {F : Fn K} (hF : RootsOk F) {L : Level K} (h : LevelOk E L) (x : List K) :
    (breaks E F L x).length = (funcRoots E F L x).length + 2 := by
  obtain ⟨mid, h1, h2, _⟩ := breaks_shape hF h x
  rw [h1, ← h2]
  simp

theorem computeAll_eq {E : Env K} {F : Fn K} (hF : RootsOk F) {L : Level K} (h : LevelOk E L) (S : Bool) (x : List K) :
    computeAll E F S L x = some ⟨x, breaks E F L x, actives E F S L x⟩ := by
  have hl := breaks_length hF h x
  unfold computeAll actives
  cases S with
  | true => rfl
  | false =>
    unfold breaks lo hi at *
    simp only [Bool.false_eq_true, if_false]
    rw [if_pos (by omega)]
end

/-! ### The reference intervals -/

/-- The maps hold the intervals of the tree that starts at `x`. -/
def Stored (E : Env K) (F : Fn K) : List (Level K) → List (RefMap K) → List K → List Nat → Prop
  | [], _, _, _ => True
  | L :: Ls, M :: Ms, x, tid => M.lookup tid = some ⟨x, breaks E F L x, actives E F (Ls.isEmpty && E.S) L x⟩ ∧
      ∀ i, (actives E F (Ls.isEmpty && E.S) L x).getD i false = true →
        Stored E F Ls Ms (midPoint L (breaks E F L x) x i) (tid.set L.dir i)
  | _ :: _, [], _, _ => False

/-- The maps hold no key of the tree of `tid`. -/
def Fresh : List (Level K) → List (RefMap K) → List Nat → Prop
  | [], _, _ => True
  | L :: Ls, M :: Ms, tid => M.lookup tid = none ∧ ∀ i, Fresh Ls Ms (tid.set L.dir i)
  | _ :: _, [], _ => False

/-- The directions of the levels are different, and smaller than `n`. -/
def DirsOk (n : Nat) (Ls : List (Level K)) : Prop := (Ls.map (·.dir)).Nodup ∧ ∀ L ∈ Ls, L.dir < n

/-- Indices that differ outside the given directions. -/
def DiffOff (D : List Nat) (s t : List Nat) : Prop := ∃ k, k ∉ D ∧ s.getD k 0 ≠ t.getD k 0

theorem getD_set_self {α : Type} {l : List α} {k : Nat} {a d : α} (h : k < l.length) : (l.set k a).getD k d = a := by
  rw [List.getD_eq_getElem _ _ (by rwa [List.length_set]), List.getElem_set_self]

theorem getD_set_ne {α : Type} {l : List α} {k j : Nat} {a d : α} (h : j ≠ k) : (l.set k a).getD j d = l.getD j d := by
  rw [List.getD_eq_getElem?_getD, List.getD_eq_getElem?_getD, List.getElem?_set_ne (Ne.symm h)]

theorem computeRef_total (E : Env K) (F : Fn K) [IsStrictOrderedRing K] (hF : RootsOk F) : ∀ (Ls : List (Level K)) (Ms : List (RefMap K))
    (x : List K) (tid : List Nat), Ls ≠ [] → (∀ L ∈ Ls, LevelOk E L) → DirsOk tid.length Ls → Fresh Ls Ms tid →
    ∃ Ms', computeRef E F Ls x tid Ms = some Ms' ∧ Stored E F Ls Ms' x tid ∧
      (∀ x' tid', Stored E F Ls Ms x' tid' → Stored E F Ls Ms' x' tid') ∧
      ∀ tid', DiffOff (Ls.map (·.dir)) tid tid' → Fresh Ls Ms tid' → Fresh Ls Ms' tid' := by
  intro Ls
  induction Ls with
  | nil => intro _ _ _ h; exact absurd rfl h
  | cons L Ls ih =>
    intro Ms x tid _ hlev hdir hfr
    cases Ms with
    | nil => exact absurd hfr (by simp [Fresh])
    | cons M Ms =>
      obtain ⟨hf1, hf2⟩ := hfr
      have hnd := hdir.1
      rw [List.map_cons, List.nodup_cons] at hnd
      have hdL : L.dir < tid.length := hdir.2 L (by simp)
      have hdLs : DirsOk tid.length Ls := ⟨hnd.2, fun L' h => hdir.2 L' (by simp [h])⟩
      have hL : LevelOk E L := hlev L (by simp)
      have hLs : ∀ L ∈ Ls, LevelOk E L := fun L' h => hlev L' (by simp [h])
      rw [computeRef, computeAll_eq hF hL]
      simp only [Option.bind_eq_bind, Option.bind_some]
      obtain ⟨act, hact⟩ : ∃ act, act = actives E F (Ls.isEmpty && E.S) L x := ⟨_, rfl⟩
      rw [← hact]
      obtain ⟨Ms1, hrun, hst, hmono, hfresh⟩ := foldlM_range
        (P := fun k (st : List (RefMap K)) =>
          (∀ i, i < k → act.getD i false = true → Stored E F Ls st (midPoint L (breaks E F L x) x i) (tid.set L.dir i)) ∧
          (∀ x' tid', Stored E F Ls Ms x' tid' → Stored E F Ls st x' tid') ∧
          (∀ tid', (∀ i, i < k → DiffOff (Ls.map (·.dir)) (tid.set L.dir i) tid') → Fresh Ls Ms tid' → Fresh Ls st tid'))
        (f := fun (Ms : List (RefMap K)) i =>
          if act.getD i false = true then
            if Ls.isEmpty = true then some Ms
            else computeRef E F Ls (midPoint L (breaks E F L x) x i) (tid.set L.dir i) Ms
          else some Ms) act.length Ms
        (by
          refine ⟨?_, ?_, ?_⟩
          · intro i hi; omega
          · intro p' tid' h; exact h
          · intro tid' _ h; exact h)
        (by
          rintro k Ms1 hk ⟨h2, h3, h4⟩
          by_cases hac : act.getD k false = true
          · rw [if_pos hac]
            by_cases hE : Ls = []
            · subst hE
              exact ⟨Ms1, by simp, fun _ _ _ => trivial, h3, fun _ _ _ => trivial⟩
            · have hE' : Ls.isEmpty = false := by rw [List.isEmpty_eq_false_iff]; exact hE
              rw [hE']
              simp only [Bool.false_eq_true, if_false]
              obtain ⟨Ms2, hc, hs2, hm2, hfr2⟩ := ih Ms1 (midPoint L (breaks E F L x) x k) (tid.set L.dir k) hE hLs
                (by rw [List.length_set]; exact hdLs)
                (h4 _ (by
                  intro i hi
                  refine ⟨L.dir, hnd.1, ?_⟩
                  rw [getD_set_self hdL, getD_set_self hdL]
                  omega) (hf2 k))
              refine ⟨Ms2, hc, ?_, ?_, ?_⟩
              · intro i hi hn'
                by_cases hik : i = k
                · subst hik; exact hs2
                · exact hm2 _ _ (h2 i (by omega) hn')
              · intro p' tid' h; exact hm2 _ _ (h3 p' tid' h)
              · intro tid' hne' hfr'
                exact hfr2 tid' (hne' k (by omega)) (h4 tid' (fun i hi => hne' i (by omega)) hfr')
          · rw [if_neg hac]
            refine ⟨Ms1, rfl, ?_, h3, ?_⟩
            · intro i hi hn'
              by_cases hik : i = k
              · subst hik; exact absurd hn' hac
              · exact h2 i (by omega) hn'
            · intro tid' hne' hfr'
              exact h4 tid' (fun i hi => hne' i (by omega)) hfr')
      rw [hrun]
      simp only [Option.bind_some]
      refine ⟨_, rfl, ?_, ?_, ?_⟩
      · refine ⟨lookup_emplace_self hf1 |>.trans (by rw [hact]), ?_⟩
        intro i hi
        rw [← hact] at hi
        refine hst i ?_ hi
        by_contra hge
        rw [List.getD_eq_default _ _ (by omega)] at hi
        exact absurd hi (by simp)
      · intro p' tid' h
        obtain ⟨h1, h2⟩ := h
        exact ⟨lookup_emplace_some h1, fun i hi => hmono _ _ (h2 i hi)⟩
      · intro tid' hdiff h
        obtain ⟨h1, h2⟩ := h
        obtain ⟨k, hk, hne⟩ := hdiff
        rw [List.map_cons, List.mem_cons, not_or] at hk
        refine ⟨?_, ?_⟩
        · rw [lookup_emplace_ne (by rintro rfl; exact hne rfl)]; exact h1
        · intro i
          refine hfresh _ ?_ (h2 i)
          intro j _
          exact ⟨k, hk.2, by rw [getD_set_ne hk.1, getD_set_ne hk.1]; exact hne⟩

theorem fresh_empty : ∀ (Ls : List (Level K)) (tid : List Nat), Fresh Ls (Ls.map fun _ => []) tid := by
  intro Ls
  induction Ls with
  | nil => intro _; simp [Fresh]
  | cons L Ls ih => intro tid; exact ⟨rfl, fun i => ih _⟩

/-! ### Intervals similar to the reference ones -/

theorem mapM_const {α β : Type} (o : Option β) : ∀ (l : List α), (∀ a : α, a ∈ l → ∃ b, o = some b) →
    ∃ r : List β, l.mapM (fun _ => o) = some r ∧ r.length = l.length ∧ ∀ b ∈ r, o = some b
  | [], _ => ⟨[], rfl, rfl, by simp⟩
  | a :: l, h => by
    obtain ⟨b, hb⟩ := h a (by simp)
    obtain ⟨r, h1, h2, h3⟩ := mapM_const o l fun a ha => h a (by simp [ha])
    refine ⟨b :: r, by rw [List.mapM_cons, h1, hb]; rfl, by simp [h2], ?_⟩
    intro c hc
    rcases List.mem_cons.1 hc with rfl | hc
    · exact hb
    · exact h3 c hc

/-- The number of roots of function `i` among the breaks. -/
def numRefs (ref : Intervals K) (i : Nat) : Nat := (ref.roots.filter fun r => decide (r.2 = (i : Int))).length

theorem refRoots_spec (ref : Intervals K) (i : Nat) (h : numRefs ref i ≠ 0 → i < ref.roots.length) :
    ∃ l, refRoots ref i = some l ∧ l.length = numRefs ref i ∧ ∀ r ∈ l, ∃ s ∈ ref.roots, s.1 = r := by
  unfold refRoots
  obtain ⟨r, h1, h2, h3⟩ := mapM_const ((ref.roots[i]?).map (·.1)) (ref.roots.filter fun r => decide (r.2 = (i : Int))) (by
    intro a ha
    have : i < ref.roots.length := h (by unfold numRefs; have := List.length_pos_of_mem ha; omega)
    rw [List.getElem?_eq_getElem this]
    exact ⟨_, rfl⟩)
  refine ⟨r, h1, h2, ?_⟩
  intro b hb
  have := h3 b hb
  obtain ⟨s, hs, hb'⟩ := Option.map_eq_some_iff.1 this
  exact ⟨s, List.mem_of_getElem? hs, hb'⟩

theorem endRoots_mem [IsStrictOrderedRing K] {E : Env K} {F : Fn K} {L : Level K} {i : Nat} {refPt x refs new : List K}
    (hlt : lo L ≤ hi L) (hn : ∀ r ∈ new, lo L ≤ r ∧ r ≤ hi L) :
    ∀ r ∈ endRoots E F L i refPt x refs new, lo L ≤ r ∧ r ≤ hi L := by
  have h0 : lo L ≤ sideAt L.box 0 L.dir ∧ sideAt L.box 0 L.dir ≤ hi L := ⟨le_refl _, hlt⟩
  have h1 : lo L ≤ sideAt L.box 1 L.dir ∧ sideAt L.box 1 L.dir ≤ hi L := ⟨hlt, le_refl _⟩
  intro r hr
  unfold endRoots at hr
  dsimp only at hr
  split_ifs at hr <;>
    try simp only [List.mem_append, List.mem_replicate, List.mem_mergeSort, List.mem_cons, List.not_mem_nil, or_false] at hr
  all_goals first
    | (rcases hr with hr | hr | hr
       · exact hn r hr
       · rw [hr]; exact h0
       · rw [hr]; exact h1)
    | (rcases hr with hr | hr
       · exact hn r hr
       · first
         | (obtain ⟨_, rfl⟩ := hr; first | exact h0 | exact h1)
         | (subst hr; first | exact h0 | exact h1)
         | (rcases hr with rfl | rfl; exact h0; exact h1))
    | exact hn r hr

theorem similarRoots_spec [IsStrictOrderedRing K] {E : Env K} {F : Fn K} (hF : RootsOk F) {L : Level K} (h : LevelOk E L)
    (ref : Intervals K) (href : ∀ r ∈ ref.roots, lo L ≤ r.1 ∧ r.1 ≤ hi L) (i : Nat) (x : List K)
    (hi' : numRefs ref i ≠ 0 → i < ref.roots.length) :
    ∃ l, similarRoots E F L ref i x = some l ∧ l.length = numRefs ref i ∧ ∀ r ∈ l, lo L ≤ r ∧ r ≤ hi L := by
  obtain ⟨refs, h1, h2, h3⟩ := refRoots_spec ref i hi'
  have hrefs : ∀ r ∈ refs, lo L ≤ r ∧ r ≤ hi L := by
    intro r hr
    obtain ⟨s, hs, rfl⟩ := h3 r hr
    exact href s hs
  unfold similarRoots
  rw [h1]
  simp only [Option.bind_eq_bind, Option.bind_some]
  obtain ⟨new, hnew⟩ : ∃ new, new = (computeRoots E F L x i).filter fun r =>
      !(Tol.equal (tolOf E L) r (sideAt L.box 0 L.dir) || Tol.equal (tolOf E L) r (sideAt L.box 1 L.dir)) := ⟨_, rfl⟩
  have hn : ∀ r ∈ new, lo L ≤ r ∧ r ≤ hi L := by
    intro r hr
    rw [hnew] at hr
    exact (hF _ _ _ _ _).1 r (List.mem_filter.1 hr).1
  rw [← hnew]
  by_cases c1 : refs.isEmpty = true
  · rw [if_pos c1]; exact ⟨refs, rfl, h2, hrefs⟩
  rw [if_neg c1]
  by_cases c2 : new.length = refs.length
  · rw [if_pos c2]; exact ⟨new, rfl, by rw [c2, h2], hn⟩
  rw [if_neg c2]
  by_cases c3 : refs.length < new.length
  · rw [if_pos c3]; exact ⟨refs, rfl, h2, hrefs⟩
  rw [if_neg c3]
  by_cases c4 : (endRoots E F L i ref.point x refs new).length = refs.length
  · rw [if_pos c4]; exact ⟨_, rfl, by rw [c4, h2], endRoots_mem (le_of_lt h.lt) hn⟩
  · rw [if_neg c4]; exact ⟨refs, rfl, h2, hrefs⟩

end Qugar.General
