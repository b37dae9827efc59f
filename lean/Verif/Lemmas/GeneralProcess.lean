import Verif.Lemmas.GeneralRef
/-
The calls of `insert_point_reparam` made by `process`.
-/
namespace Qugar.General
open Roots Mesh Poly Reparam
variable {K : Type} [Field K] [LinearOrder K]

theorem mapM_spec {α β : Type} (f : α → Option β) (P : α → β → Prop) : ∀ (l : List α), (∀ a ∈ l, ∃ b, f a = some b ∧ P a b) →
    ∃ r, l.mapM f = some r ∧ List.Forall₂ P l r
  | [], _ => ⟨[], rfl, List.Forall₂.nil⟩
  | a :: l, h => by
    obtain ⟨b, hb, hp⟩ := h a (by simp)
    obtain ⟨r, h1, h2⟩ := mapM_spec f P l fun a ha => h a (by simp [ha])
    exact ⟨b :: r, by rw [List.mapM_cons, h1, hb]; rfl, List.Forall₂.cons hp h2⟩

theorem flatten_length {α β : Type} (n : α → Nat) {l : List α} {rs : List (List β)} (h : List.Forall₂ (fun a r => r.length = n a) l rs) :
    rs.flatten.length = (l.map n).sum := by
  induction h with
  | nil => rfl
  | cons hab _ ih => rw [List.flatten_cons, List.length_append, hab, ih, List.map_cons, List.sum_cons]

/-- The reference intervals of a level. -/
def refOf (E : Env K) (F : Fn K) (S : Bool) (L : Level K) (q : List K) : Intervals K := ⟨q, breaks E F L q, actives E F S L q⟩

/-- At most two functions when the intervals are compared with reference ones. -/
def CountOk (S : Bool) (L : Level K) : Prop := 1 < L.dim → L.count ≤ 2 ∧ (S = true → L.count = 1)

variable [IsStrictOrderedRing K]

theorem numRefs_sum {E : Env K} {F : Fn K} (hF : RootsOk F) {L : Level K} (h : LevelOk E L) (S : Bool) (q : List K) :
    ((List.range L.count).map (numRefs (refOf E F S L q))).sum + 2 = (breaks E F L q).length := by
  obtain ⟨mid, h1, h2, h3, _⟩ := breaks_shape hF h q
  have e : ∀ i : Nat, numRefs (refOf E F S L q) i = ((mid.filter fun r => decide (r.2 = (i : Int))).map (·.1)).length := by
    intro i
    unfold numRefs refOf
    dsimp only
    rw [h1, List.length_map]
    rw [List.cons_append, List.filter_cons_of_neg (by simp only [decide_eq_true_eq]; omega), List.filter_append]
    rw [List.filter_cons_of_neg (by simp only [decide_eq_true_eq]; omega)]
    simp
  have e' : (List.range L.count).map (numRefs (refOf E F S L q)) =
      (List.range L.count).map fun (i : Nat) => ((mid.filter fun r => decide (r.2 = (i : Int))).map (·.1)).length :=
    List.map_congr_left fun i _ => e i
  rw [e', sum_filter_length L.count mid, h1]
  · simp
  · intro r hr
    obtain ⟨a, ha, hra⟩ := h3 r hr
    obtain ⟨i, hi, _, hi2⟩ := mem_funcRoots.1 ha
    rw [hra.1, hi2]
    omega

theorem numRefs_lt {E : Env K} {F : Fn K} (hF : RootsOk F) {L : Level K} (h : LevelOk E L) (S : Bool) (q : List K) (hc : L.count ≤ 2)
    {i : Nat} (hi : i < L.count) : numRefs (refOf E F S L q) i ≠ 0 → i < (refOf E F S L q).roots.length := by
  intro _
  show i < (breaks E F L q).length
  have := numRefs_sum hF h S q
  omega

/-- What `process` uses of the intervals at `x`, for a level of the volume case. -/
theorem computeSimilar_spec {E : Env K} {F : Fn K} (hF : RootsOk F) {L : Level K} (h : LevelOk E L) (q x : List K) (hc : L.count ≤ 2) :
    ∃ iv, computeSimilar E F false L (refOf E F false L q) x = some iv ∧ iv.active = actives E F false L q ∧
      iv.roots.length = (breaks E F L q).length ∧ ∀ r ∈ iv.roots, lo L ≤ r.1 ∧ r.1 ≤ hi L := by
  obtain ⟨mid, h1, h2, h3, h4, h5, h6⟩ := breaks_shape hF h q
  unfold computeSimilar
  by_cases c : (refOf E F false L q).roots.length = 2
  · rw [if_pos c]
    exact ⟨_, rfl, rfl, rfl, h6⟩
  rw [if_neg c]
  obtain ⟨rs, r1, r2⟩ := mapM_spec (fun (i : Nat) => (similarRoots E F L (refOf E F false L q) i x).map fun l => l.map fun r => (r, (i : Int)))
    (fun (i : Nat) (l : List (Root K)) => l.length = numRefs (refOf E F false L q) i ∧ ∀ r ∈ l, (lo L ≤ r.1 ∧ r.1 ≤ hi L) ∧ 0 ≤ r.2) (List.range L.count) (by
      intro i hi
      obtain ⟨l, l1, l2, l3⟩ := similarRoots_spec hF h (refOf E F false L q) h6 i x (numRefs_lt hF h false q hc (List.mem_range.1 hi))
      refine ⟨l.map fun r => (r, (i : Int)), by rw [l1]; rfl, by rw [List.length_map, l2], ?_⟩
      intro r hr
      obtain ⟨a, ha, rfl⟩ := List.mem_map.1 hr
      exact ⟨l3 a ha, by simp⟩)
  rw [r1]
  simp only [Option.bind_eq_bind, Option.bind_some, Bool.false_eq_true, if_false, false_or]
  have hlen : rs.flatten.length + 2 = (breaks E F L q).length := by
    rw [flatten_length (numRefs (refOf E F false L q)) (r2.imp fun _ _ h => h.1)]
    exact numRefs_sum hF h false q
  have hfl : ∀ r ∈ rs.flatten, (lo L ≤ r.1 ∧ r.1 ≤ hi L) ∧ 0 ≤ r.2 := by
    intro r hr
    obtain ⟨l, hl, hr⟩ := List.mem_flatten.1 hr
    obtain ⟨i, _, hil⟩ := forall2_mem_right r2 hl
    exact hil.2 r hr
  have hroots : (rs.flatten ++ [(sideAt L.box 0 L.dir, (-1 : Int)), (sideAt L.box 1 L.dir, -1)]).length = (refOf E F false L q).roots.length := by
    rw [List.length_append]
    exact hlen
  rw [if_pos hroots]
  have hperm : (rs.flatten ++ [(lo L, (-1 : Int)), (hi L, -1)]).Perm ([(lo L, (-1 : Int)), (hi L, -1)] ++ rs.flatten) := List.perm_append_comm
  obtain ⟨mid', a1, a2, a3, a4⟩ := adjust_shape (R := rs.flatten ++ [(lo L, (-1 : Int)), (hi L, -1)]) h.tol h.wide (h.sort _) hperm
    (fun r hr => (hfl r hr).2) (fun r hr => (hfl r hr).1)
  refine ⟨_, rfl, rfl, ?_, a4⟩
  show (adjust (tolOf E L) (lo L) (hi L) (E.srt (rs.flatten ++ [(lo L, (-1 : Int)), (hi L, -1)]))).length = _
  rw [a1]
  have e := a2.length_eq
  have hp := ((h.sort (rs.flatten ++ [(lo L, (-1 : Int)), (hi L, -1)])).1.trans hperm).filter (fun r => decide (r.2 ≠ -1))
  rw [filter_ends _ _ _ (fun r hr => (hfl r hr).2)] at hp
  rw [hp.length_eq] at e
  simp only [List.cons_append, List.length_cons, List.length_append, List.length_nil]
  omega

/-- Adjusting roots of functions only. -/
theorem adjust_funcs {tol a b : K} (ht : 0 ≤ tol) (hab : a ≤ b) {R old : List (Root K)} (hs : IsSortedPerm R old)
    (hid : ∀ r ∈ R, 0 ≤ r.2) (hin : ∀ r ∈ R, a ≤ r.1 ∧ r.1 ≤ b) :
    (adjust tol a b old).length = R.length ∧ (∀ r ∈ adjust tol a b old, a ≤ r.1 ∧ r.1 ≤ b) ∧
      List.Forall₂ (fun r r' : Root K => |r'.1 - r.1| ≤ tol) old (adjust tol a b old) := by
  classical
  obtain ⟨mid, h1, h2, h3, h4⟩ := C42_adjusted_roots_partial tol a b ht hab R old hs
    (fun r hr => ⟨by linarith [(hin r hr).1], by linarith [(hin r hr).2]⟩)
  have n0 : ¬ ∃ r ∈ R, r.2 = -1 ∧ |r.1 - a| ≤ tol := by rintro ⟨r, hr, h, _⟩; have := hid r hr; omega
  have n1 : ¬ ∃ r ∈ R, r.2 = -1 ∧ tol < |r.1 - a| ∧ |r.1 - b| ≤ tol := by rintro ⟨r, hr, h, _⟩; have := hid r hr; omega
  rw [if_neg n0, if_neg n1, List.nil_append, List.append_nil] at h1
  have e : (old.filter fun r => ¬ (r.2 = -1 ∧ (|r.1 - a| ≤ tol ∨ |r.1 - b| ≤ tol))) = old := by
    rw [List.filter_eq_self]
    intro r hr
    have := hid r (hs.1.mem_iff.1 hr)
    have hn : r.2 ≠ -1 := by omega
    simp [hn]
  rw [e] at h2
  rw [h1]
  rw [h1] at h4
  exact ⟨by rw [← h2.length_eq, hs.1.length_eq], h4, h2.imp fun _ _ h => h.2.1⟩

/-- The level set case: no root, or one root, as in the reference. -/
theorem computeSimilar_surf {E : Env K} {F : Fn K} (hF : RootsOk F) {L : Level K} (h : LevelOk E L) (q x : List K) (hc : L.count = 1)
    (hd : 1 < L.dim) :
    ∃ iv, computeSimilar E F true L (refOf E F true L q) x = some iv ∧
      iv.roots.length = (if (breaks E F L q).length = 2 then 0 else 1) ∧ ∀ r ∈ iv.roots, lo L ≤ r.1 ∧ r.1 ≤ hi L := by
  obtain ⟨mid, h1, h2, h3, h4, h5, h6⟩ := breaks_shape hF h q
  have hle : (funcRoots E F L q).length ≤ 1 := by
    unfold funcRoots
    rw [hc]
    have : (computeRoots E F L q 0).length ≤ 1 := (hF _ _ _ _ _).2 (by simp [hd])
    simpa using this
  have hbl := breaks_length hF h q
  unfold computeSimilar
  by_cases c : (refOf E F true L q).roots.length = 2
  · have c' : (breaks E F L q).length = 2 := c
    rw [if_pos c, if_pos c']
    exact ⟨_, rfl, rfl, by simp⟩
  have c' : (breaks E F L q).length ≠ 2 := c
  rw [if_neg c, if_neg c']
  have hsum := numRefs_sum hF h true q
  rw [hc] at hsum
  simp only [List.range_one, List.map_cons, List.map_nil, List.sum_cons, List.sum_nil] at hsum
  obtain ⟨l, l1, l2, l3⟩ := similarRoots_spec hF h (refOf E F true L q) h6 0 x (numRefs_lt hF h true q (by omega) (by omega))
  have hm : ((List.range L.count).mapM fun (i : Nat) => (similarRoots E F L (refOf E F true L q) i x).map fun l => l.map fun r => (r, (i : Int))) =
      some [l.map fun r => (r, ((0 : Nat) : Int))] := by
    rw [hc, List.range_one, List.mapM_cons, l1]
    rfl
  rw [hm]
  simp only [Option.bind_eq_bind, Option.bind_some, if_true, true_or, List.flatten_cons, List.flatten_nil, List.append_nil]
  obtain ⟨a1, a2, _⟩ := adjust_funcs h.tol (le_of_lt h.lt) (h.sort (l.map fun r => (r, ((0 : Nat) : Int))))
    (by intro r hr; obtain ⟨a, _, rfl⟩ := List.mem_map.1 hr; simp) (by intro r hr; obtain ⟨a, ha, rfl⟩ := List.mem_map.1 hr; exact l3 a ha)
  refine ⟨_, rfl, ?_, a2⟩
  show (adjust (tolOf E L) (lo L) (hi L) (E.srt (l.map fun r => (r, ((0 : Nat) : Int))))).length = 1
  rw [a1, List.length_map, l2]
  omega

theorem actives_length {E : Env K} {F : Fn K} (L : Level K) (q : List K) :
    (actives E F false L q).length = (breaks E F L q).length - 1 := by
  simp [actives]

/-- The intervals used by `process` at a level of the volume case. -/
theorem computeIntervals_vol {E : Env K} {F : Fn K} (hF : RootsOk F) {L : Level K} (h : LevelOk E L) (hc : CountOk false L) (hd : 0 < L.dim)
    {M : RefMap K} {tid : List Nat} {q : List K} (x : List K) (hM : M.lookup tid = some (refOf E F false L q)) :
    ∃ iv, computeIntervals E F false L M x tid = some iv ∧ iv.active = actives E F false L q ∧
      iv.roots.length = (breaks E F L q).length ∧ ∀ r ∈ iv.roots, lo L ≤ r.1 ∧ r.1 ≤ hi L := by
  unfold computeIntervals
  rw [hM]
  simp only [Option.bind_eq_bind, Option.bind_some]
  by_cases c : L.dim = 1
  · rw [if_pos c]
    obtain ⟨mid, h1, h2, h3, h4, h5, h6⟩ := breaks_shape hF h q
    exact ⟨_, rfl, rfl, rfl, h6⟩
  · rw [if_neg c]
    exact computeSimilar_spec hF h q x (hc (by omega)).1

theorem computeIntervals_surf {E : Env K} {F : Fn K} (hF : RootsOk F) {L : Level K} (h : LevelOk E L) (hc : CountOk true L) (hd : 1 < L.dim)
    {M : RefMap K} {tid : List Nat} {q : List K} (x : List K) (hM : M.lookup tid = some (refOf E F true L q)) :
    ∃ iv, computeIntervals E F true L M x tid = some iv ∧
      iv.roots.length = (if (breaks E F L q).length = 2 then 0 else 1) ∧ ∀ r ∈ iv.roots, lo L ≤ r.1 ∧ r.1 ≤ hi L := by
  unfold computeIntervals
  rw [hM]
  simp only [Option.bind_eq_bind, Option.bind_some]
  rw [if_neg (by omega)]
  exact computeSimilar_surf hF h q x ((hc hd).2 rfl) hd

/-! ### The calls -/

/-- Removal of the direction without index, if there is one. -/
def er (e : Option Nat) (t : List Nat) : List Nat :=
  match e with
  | some k => t.eraseIdx k
  | none => t

/-- The direction that is removed from the indices of the points: the height direction of the highest level for a level set, the
restricted direction for a face. -/
def erDir (S : Bool) (L : Level K) : Option Nat := if S then some L.dir else if L.dim < L.free.length then some (fixDir L.free) else none

/-- Cells and indices (before the removal) of the points inserted over the reference point `q`. -/
def keys (E : Env K) (F : Fn K) : List (Level K) → List K → List Nat → List Nat → List (List Nat × List Nat)
  | [], _, _, _ => []
  | L :: Ls, q, tid, pt =>
    if Ls.isEmpty && E.S then if (breaks E F L q).length = 2 then [] else [(tid.set L.dir 0, pt)]
    else (List.range (actives E F false L q).length).flatMap fun i =>
      if (actives E F false L q).getD i false then
        (List.range E.order).flatMap fun j =>
          if Ls.isEmpty then [(tid.set L.dir i, pt.set L.dir j)]
          else keys E F Ls (midPoint L (breaks E F L q) q i) (tid.set L.dir i) (pt.set L.dir j)
      else []

/-- Coordinate `k` is in the box. -/
def InAt (B : Box K) (x : List K) (k : Nat) : Prop := (B.getD k (0, 0)).1 ≤ vat x k ∧ vat x k ≤ (B.getD k (0, 0)).2

theorem vat_set_self {x : List K} {k : Nat} {a : K} (h : k < x.length) : vat (x.set k a) k = a := getD_set_self h
theorem vat_set_ne {x : List K} {k j : Nat} {a : K} (h : j ≠ k) : vat (x.set k a) j = vat x j := getD_set_ne h

omit [IsStrictOrderedRing K] in
theorem setBounds_length (L : Level K) (i : Nat) (d : Psi) (x : List K) : (setBounds L i d x).length = x.length := by
  simp [setBounds]

omit [IsStrictOrderedRing K] in
theorem vat_setBounds (L : Level K) (i : Nat) (d : Psi) (x : List K) (k : Nat) (hk : k < x.length) :
    vat (setBounds L i d x) k = if L.free.getD k false then vat x k else sideAt L.box ((L.psi.getD i d).sides.getD k 0) k := by
  unfold setBounds vat
  rw [List.getD_eq_getElem _ _ (by simpa using hk), List.getElem_map, List.getElem_range]

/-- What is needed of the chain of levels: `B` is the box, `n` the number of directions; the highest level has the flag `S`. -/
structure ChainOk (E : Env K) (n : Nat) (B : Box K) (Ls : List (Level K)) : Prop where
  levels : ∀ L ∈ Ls, LevelOk E L
  dirs : DirsOk n Ls
  pos : ∀ L ∈ Ls, 0 < L.dim
  sub : ∀ L ∈ Ls, (B.getD L.dir (0, 0)).1 ≤ lo L ∧ hi L ≤ (B.getD L.dir (0, 0)).2
  count : ∀ L ∈ Ls, CountOk false L
  top : ∀ L, Ls.getLast? = some L → L.free.length = n ∧ (∀ k, k < n → (B.getD k (0, 0)).1 ≤ sideAt L.box 0 k ∧ sideAt L.box 0 k ≤ sideAt L.box 1 k ∧
    sideAt L.box 1 k ≤ (B.getD k (0, 0)).2) ∧
    (E.S = true → 1 < L.dim ∧ L.count = 1)

omit [IsStrictOrderedRing K] in
theorem ChainOk.tail {E : Env K} {n : Nat} {B : Box K} {L : Level K} {Ls : List (Level K)} (h : ChainOk E n B (L :: Ls)) : ChainOk E n B Ls where
  levels := fun L' h' => h.levels L' (by simp [h'])
  dirs := ⟨(List.nodup_cons.1 h.dirs.1).2, fun L' h' => h.dirs.2 L' (by simp [h'])⟩
  pos := fun L' h' => h.pos L' (by simp [h'])
  sub := fun L' h' => h.sub L' (by simp [h'])
  count := fun L' h' => h.count L' (by simp [h'])
  top := by
    intro L' h'
    refine h.top L' ?_
    cases Ls with
    | nil => simp at h'
    | cons a l => rw [List.getLast?_cons_cons]; exact h'

theorem mem_between {a b x0 x1 t : K} (h0 : a ≤ x0 ∧ x0 ≤ b) (h1 : a ≤ x1 ∧ x1 ≤ b) (ht : 0 ≤ t ∧ t ≤ 1) :
    a ≤ x0 + (x1 - x0) * t ∧ x0 + (x1 - x0) * t ≤ b := by
  have e : x0 + (x1 - x0) * t = x0 * (1 - t) + x1 * t := by ring
  rw [e]
  have c := mul_le_mul_of_nonneg_right h0.1 (sub_nonneg.2 ht.2)
  have d := mul_le_mul_of_nonneg_right h1.1 ht.1
  have c' := mul_le_mul_of_nonneg_right h0.2 (sub_nonneg.2 ht.2)
  have d' := mul_le_mul_of_nonneg_right h1.2 ht.1
  constructor <;> linarith

theorem collect_spec {α β : Type} {l : List α} {f : α → Option (List β)} {P : α → List β → Prop} (h : ∀ a ∈ l, ∃ b, f a = some b ∧ P a b) :
    ∃ rs, collect l f = some rs.flatten ∧ List.Forall₂ (fun a b => f a = some b ∧ P a b) l rs := by
  obtain ⟨rs, h1, h2⟩ := mapM_spec f (fun a b => f a = some b ∧ P a b) l fun a ha => by
    obtain ⟨b, hb, hp⟩ := h a ha
    exact ⟨b, hb, hb, hp⟩
  exact ⟨rs, by unfold collect; rw [h1]; rfl, h2⟩

theorem collect_keys {α β γ δ : Type} {l : List α} {f : α → Option (List β)} {g : β → δ} {h : γ → δ} {k : α → List γ} {Q : β → Prop}
    (hf : ∀ a ∈ l, ∃ b, f a = some b ∧ b.map g = (k a).map h ∧ ∀ e ∈ b, Q e) :
    ∃ evs, collect l f = some evs ∧ evs.map g = (l.flatMap k).map h ∧ ∀ e ∈ evs, Q e := by
  obtain ⟨rs, h1, h2⟩ := collect_spec (P := fun a b => b.map g = (k a).map h ∧ ∀ e ∈ b, Q e) hf
  refine ⟨_, h1, ?_, ?_⟩
  · clear h1 hf
    induction h2 with
    | nil => rfl
    | cons hab _ ih => rw [List.flatten_cons, List.map_append, List.flatMap_cons, List.map_append, ih, hab.2.1]
  · intro e he
    obtain ⟨b, hb, he⟩ := List.mem_flatten.1 he
    obtain ⟨a, _, hab⟩ := forall2_mem_right h2 hb
    exact hab.2.2 e he

theorem process_spec (E : Env K) (F : Fn K) (hF : RootsOk F) (n : Nat) (B : Box K)
    (hnode : ∀ j, j < E.order → 0 ≤ node E j ∧ node E j ≤ 1) : ∀ (Ls : List (Level K)) (Ms : List (RefMap K)) (q x : List K)
    (tid pt : List Nat) (D : List Nat) (T : Level K), Ls.getLast? = some T → ChainOk E n B Ls → x.length = n → (∀ k ∈ D, InAt B x k) →
    Stored E F Ls Ms q tid →
    ∃ evs, process E F Ls Ms x tid pt = some evs ∧
      evs.map (fun e => (e.cell, e.pt)) = (keys E F Ls q tid pt).map (fun c => (c.1, er (erDir E.S T) c.2)) ∧
      ∀ e ∈ evs, e.point.length = n ∧
        ∀ k, k < n → (k ∈ D ∨ k ∈ Ls.map (·.dir) ∨ (E.S = false ∧ T.dim < n ∧ T.free.getD k false = false)) → InAt B e.point k := by
  intro Ls
  induction Ls with
  | nil => intro _ _ _ _ _ _ _ h; simp at h
  | cons L Ls ih =>
    intro Ms q x tid pt D T hT hch hx hD hst
    cases Ms with
    | nil => exact absurd hst (by simp [Stored])
    | cons M Ms =>
      obtain ⟨hst1, hst2⟩ := hst
      have hL := hch.levels L (by simp)
      have hdir : L.dir < n := hch.dirs.2 L (by simp)
      have hsub := hch.sub L (by simp)
      have hset : ∀ a, lo L ≤ a → a ≤ hi L → ∀ k ∈ L.dir :: D, InAt B (x.set L.dir a) k := by
        intro a h0 h1 k hk
        by_cases c : k = L.dir
        · subst c
          unfold InAt
          rw [vat_set_self (by rw [hx]; exact hdir)]
          exact ⟨le_trans hsub.1 h0, le_trans h1 hsub.2⟩
        · unfold InAt
          rw [vat_set_ne c]
          rcases List.mem_cons.1 hk with h | h
          · exact absurd h c
          · exact hD k h
      by_cases hS : (Ls.isEmpty && E.S) = true
      · -- a level set
        rw [Bool.and_eq_true, List.isEmpty_iff] at hS
        obtain ⟨rfl, hS⟩ := hS
        simp only [List.getLast?_singleton, Option.some.injEq] at hT
        subst hT
        obtain ⟨t1, t3, t4⟩ := hch.top L (by simp)
        obtain ⟨t5, t6⟩ := t4 hS
        have hst1' : M.lookup tid = some (refOf E F true L q) := by rw [hst1]; simp [refOf, hS]
        obtain ⟨iv, i1, i2, i3⟩ := computeIntervals_surf hF hL (fun _ => ⟨by omega, fun _ => t6⟩) t5 x hst1'
        rw [process, keys]
        simp only [List.isEmpty_nil, Bool.true_and, hS, if_true]
        rw [i1]
        simp only [Option.bind_eq_bind, Option.bind_some]
        refine ⟨_, rfl, ?_, ?_⟩
        · by_cases c : (breaks E F L q).length = 2
          · rw [if_pos c] at i2 ⊢
            rw [List.length_eq_zero_iff.1 i2]
            rfl
          · rw [if_neg c] at i2 ⊢
            obtain ⟨r, hr⟩ := List.length_eq_one_iff.1 i2
            rw [hr]
            simp [er, erDir]
        · intro e he
          obtain ⟨r, hr, rfl⟩ := List.mem_map.1 he
          refine ⟨by rw [List.length_set, hx], ?_⟩
          intro k hk hcase
          refine hset r.1 (i3 r hr).1 (i3 r hr).2 k ?_
          rcases hcase with h | h | h
          · exact List.mem_cons_of_mem _ h
          · simp at h; rw [h]; exact List.mem_cons_self
          · exact absurd h.1 (by simp)
      · -- intervals
        have hS' : (Ls.isEmpty && E.S) = false := by simpa using hS
        rw [hS'] at hst1 hst2
        obtain ⟨iv, i1, i2, i3, i4⟩ := computeIntervals_vol hF hL (hch.count L (by simp)) (hch.pos L (by simp)) x hst1
        rw [process, keys]
        simp only [hS', Bool.false_eq_true, if_false]
        rw [i1]
        simp only [Option.bind_eq_bind, Option.bind_some]
        rw [i2]
        apply collect_keys
        intro i hi
        rw [List.mem_range] at hi
        by_cases hac : (actives E F false L q).getD i false = true
        · rw [if_pos hac, if_pos hac]
          rw [actives_length, ← i3] at hi
          have hi0 : i < iv.roots.length := by omega
          have hi1 : i + 1 < iv.roots.length := by omega
          rw [List.getElem?_eq_getElem hi0, List.getElem?_eq_getElem hi1]
          simp only [Option.bind_some]
          apply collect_keys
          intro j hj
          rw [List.mem_range] at hj
          have hy := mem_between (i4 _ (List.getElem_mem hi0)) (i4 _ (List.getElem_mem hi1)) (hnode j hj)
          obtain ⟨a, ha⟩ : ∃ a, a = (iv.roots[i]).1 + ((iv.roots[i + 1]).1 - (iv.roots[i]).1) * node E j := ⟨_, rfl⟩
          rw [← ha] at hy ⊢
          have hset' := hset a hy.1 hy.2
          by_cases hE : Ls = []
          · subst hE
            simp only [List.isEmpty_nil, if_true]
            simp only [List.getLast?_singleton, Option.some.injEq] at hT
            subst hT
            simp only [List.isEmpty_nil, Bool.true_and] at hS'
            obtain ⟨t1, t3, t4⟩ := hch.top L (by simp)
            refine ⟨_, rfl, ?_, ?_⟩
            · unfold topEvent
              simp only [erDir, hS', Bool.false_eq_true, if_false, List.map_cons, List.map_nil, er]
              split_ifs <;> rfl
            · intro e he
              rw [List.mem_singleton] at he
              subst he
              unfold topEvent
              by_cases hd : L.dim < L.free.length
              · rw [if_pos hd]
                dsimp only
                refine ⟨by rw [setBounds_length, List.length_set, hx], ?_⟩
                intro k hk hcase
                unfold InAt
                rw [vat_setBounds _ _ _ _ _ (by rw [List.length_set, hx]; exact hk)]
                by_cases hfr : L.free.getD k false = true
                · rw [if_pos hfr]
                  refine hset' k ?_
                  rcases hcase with h | h | h
                  · exact List.mem_cons_of_mem _ h
                  · simp at h; rw [h]; exact List.mem_cons_self
                  · rw [hfr] at h; exact absurd h.2.2 (by simp)
                · rw [if_neg hfr]
                  obtain ⟨u1, u2, u3⟩ := t3 k hk
                  rcases Nat.eq_zero_or_pos ((L.psi.getD 0 E.psi0).sides.getD k 0) with h0 | h0
                  · rw [h0]; exact ⟨u1, le_trans u2 u3⟩
                  · have e : sideAt L.box ((L.psi.getD 0 E.psi0).sides.getD k 0) k = sideAt L.box 1 k := by
                      unfold sideAt; rw [if_neg (by omega), if_neg (by simp)]
                    rw [e]; exact ⟨le_trans u1 u2, u3⟩
              · rw [if_neg hd]
                dsimp only
                refine ⟨by rw [List.length_set, hx], ?_⟩
                intro k hk hcase
                refine hset' k ?_
                rcases hcase with h | h | h
                · exact List.mem_cons_of_mem _ h
                · simp at h; rw [h]; exact List.mem_cons_self
                · rw [t1] at hd; exact absurd h.2.1 hd
          · have hE' : Ls.isEmpty = false := by rw [List.isEmpty_eq_false_iff]; exact hE
            rw [hE']
            simp only [Bool.false_eq_true, if_false]
            have hT' : Ls.getLast? = some T := by
              cases Ls with
              | nil => exact absurd rfl hE
              | cons b l => rwa [List.getLast?_cons_cons] at hT
            obtain ⟨evs, e1, e2, e3⟩ := ih Ms (midPoint L (breaks E F L q) q i) (x.set L.dir a) (tid.set L.dir i) (pt.set L.dir j) (L.dir :: D) T
              hT' hch.tail (by rw [List.length_set, hx]) hset' (hst2 i hac)
            refine ⟨evs, e1, e2, ?_⟩
            intro e he
            refine ⟨(e3 e he).1, ?_⟩
            intro k hk hcase
            refine (e3 e he).2 k hk ?_
            rcases hcase with h | h | h
            · exact Or.inl (List.mem_cons_of_mem _ h)
            · rw [List.map_cons, List.mem_cons] at h
              rcases h with h | h
              · left; rw [h]; exact List.mem_cons_self
              · exact Or.inr (Or.inl h)
            · exact Or.inr (Or.inr h)
        · rw [if_neg hac, if_neg hac]
          exact ⟨[], rfl, rfl, by simp⟩

end Qugar.General
