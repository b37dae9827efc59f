import Verif.Lemmas.ReparamNear
/-
Where the inserted points come from.
-/
namespace Qugar.Reparam
open Roots Mesh Poly Spec TS
variable {K : Type} [Field K] [LinearOrder K]

/-- Where a break `x` of polynomial `i` on the line over `p` may come from, with the reference point `q`: it is a root of the
polynomial over `p`; or an end of the line, where the polynomial vanishes up to the tolerance; or a root over a point obtained
from `p` and `q` by interpolation, in one direction or in all of them; or, up to the tolerance, a root over `q`. -/
def RootSource (E : Env K) (L : Level K) (i : Nat) (q p : List K) (x : K) : Prop :=
  x ∈ L.phi.roots i p ∨
  ((x = 0 ∨ x = 1) ∧ |L.phi.eval i (addComponent p L.dir x)| ≤ E.tol) ∨
  (∃ v ∈ E.ts, (∃ d, d < p.length ∧ x ∈ L.phi.roots i (p.set d ((1 - v) * vat p d + v * vat q d))) ∨
    x ∈ L.phi.roots i (List.zipWith (fun a b => (1 - v) * a + v * b) p q)) ∨
  ∃ y ∈ L.phi.roots i q, |x - y| ≤ E.tol

variable [IsStrictOrderedRing K]

theorem endRoots_source {E : Env K} {L : Level K} {i : Nat} {q p refRoots new : List K} :
    ∀ r ∈ endRoots E L i q p refRoots new, r ∈ new ∨ ((r = 0 ∨ r = 1) ∧ |L.phi.eval i (addComponent p L.dir r)| ≤ E.tol) := by
  have key : ∀ x : K, Tol.equal E.tol |L.phi.eval i (addComponent p L.dir x)| 0 = true → |L.phi.eval i (addComponent p L.dir x)| ≤ E.tol := by
    intro x hx
    simpa [Tol.equal] using hx
  obtain ⟨r0, hr0⟩ : ∃ r0, r0 = Tol.equal E.tol |L.phi.eval i (addComponent p L.dir 0)| 0 := ⟨_, rfl⟩
  obtain ⟨r1, hr1⟩ : ∃ r1, r1 = Tol.equal E.tol |L.phi.eval i (addComponent p L.dir 1)| 0 := ⟨_, rfl⟩
  have k0 : r0 = true → |L.phi.eval i (addComponent p L.dir 0)| ≤ E.tol := fun h => key 0 (hr0 ▸ h)
  have k1 : r1 = true → |L.phi.eval i (addComponent p L.dir 1)| ≤ E.tol := fun h => key 1 (hr1 ▸ h)
  intro r hr
  unfold endRoots at hr
  dsimp only at hr
  rw [← hr0, ← hr1] at hr
  cases h0 : r0 <;> cases h1 : r1 <;> rw [h0, h1] at hr <;> simp only [bne_self_eq_false, Bool.false_eq_true, if_false, if_true,
    Bool.and_self, Bool.and_true, Bool.and_false, Bool.true_bne, Bool.false_bne, Bool.not_true, Bool.not_false, ite_self, ite_true] at hr
  · exact Or.inl hr
  · split at hr
    · rw [List.mem_append] at hr
      rcases hr with hr | hr
      · exact Or.inl hr
      · rw [(List.mem_replicate.1 hr).2]
        exact Or.inr ⟨Or.inr rfl, k1 h1⟩
    · exact Or.inl hr
  · split at hr
    · rw [List.mem_append] at hr
      rcases hr with hr | hr
      · exact Or.inl hr
      · rw [(List.mem_replicate.1 hr).2]
        exact Or.inr ⟨Or.inl rfl, k0 h0⟩
    · exact Or.inl hr
  · split_ifs at hr <;>
      try simp only [List.mem_append, List.mem_mergeSort, List.mem_cons, List.not_mem_nil, or_false] at hr
    · rcases hr with hr | rfl | rfl
      · exact Or.inl hr
      · exact Or.inr ⟨Or.inl rfl, k0 h0⟩
      · exact Or.inr ⟨Or.inr rfl, k1 h1⟩
    · rcases hr with hr | rfl
      · exact Or.inl hr
      · exact Or.inr ⟨Or.inr rfl, k1 h1⟩
    · rcases hr with hr | rfl
      · exact Or.inl hr
      · exact Or.inr ⟨Or.inl rfl, k0 h0⟩
    · exact Or.inl hr
    · exact Or.inl hr

theorem similarRoots_source {E : Env K} {L : Level K} {i : Nat} {q p refRoots l : List K}
    (href : ∀ r ∈ refRoots, ∃ y ∈ L.phi.roots i q, |r - y| ≤ E.tol) (hl : similarRoots E L i q p refRoots = some l) :
    ∀ r ∈ l, RootSource E L i q p r := by
  unfold similarRoots at hl
  dsimp only at hl
  split at hl
  · cases hl
    intro r hr
    rcases endRoots_source r hr with h | h
    · exact Or.inl (List.mem_filter.1 h).1
    · exact Or.inr (Or.inl h)
  · cases hb : backupDir E L i q p refRoots.length with
    | none => rw [hb] at hl; simp at hl
    | some o =>
      rw [hb] at hl
      cases o with
      | some r =>
        cases hl
        unfold backupDir at hb
        dsimp only at hb
        split at hb
        · rename_i hd
          have := List.mem_of_find?_eq_some (Option.some.inj hb)
          obtain ⟨v, hv1, hv⟩ := List.mem_map.1 this
          intro x hx
          rw [← hv] at hx
          exact Or.inr (Or.inr (Or.inl ⟨v, hv1, Or.inl ⟨_, hd, hx⟩⟩))
        · simp at hb
      | none =>
        simp only [Option.bind_eq_bind, Option.bind_some] at hl
        split at hl
        · rename_i r hr
          cases hl
          have := List.mem_of_find?_eq_some hr
          obtain ⟨v, hv1, hv⟩ := List.mem_map.1 this
          intro x hx
          rw [← hv] at hx
          exact Or.inr (Or.inr (Or.inl ⟨v, hv1, Or.inr hx⟩))
        · cases hl
          intro x hx
          exact Or.inr (Or.inr (Or.inr (href x hx)))

/-- The ends of the line, and in between breaks that are within the tolerance of a `RootSource`. -/
def FromSources (E : Env K) (L : Level K) (q p : List K) (rts : List (Root K)) : Prop :=
  ∃ mid : List (Root K), rts = (0, -1) :: mid ++ [(1, -1)] ∧
    ∀ r ∈ mid, ∃ i, i < L.phi.count ∧ ∃ x, RootSource E L i q p x ∧ |r.1 - x| ≤ E.tol

theorem computeSimilar_source {E : Env K} (ht : 0 ≤ E.tol) (ht1 : E.tol < 1) (hs : IsRootSort E.srt) {L : Level K} (h : RootsOk [L])
    {q p : List K} {act : List Bool} {iv : Intervals K} (hiv : computeSimilar E L ⟨q, breaks E L q, act⟩ p = some iv) :
    FromSources E L q p iv.roots := by
  obtain ⟨mid, h1, h3, -⟩ := near_breaks ht ht1 hs h q
  unfold computeSimilar at hiv
  dsimp only at hiv
  split at hiv
  · rename_i h2
    cases hiv
    have hm : mid = [] := by rw [h1] at h2; simpa using h2
    subst hm
    exact ⟨[], h1, by simp⟩
  · obtain ⟨f, hf⟩ : ∃ f : Nat → Option (List (Root K)), f = fun (i : Nat) =>
        if (((breaks E L q).filter fun r => decide (r.2 = (i : Int))).map (·.1)).isEmpty then some []
        else (similarRoots E L i q p (((breaks E L q).filter fun r => decide (r.2 = (i : Int))).map (·.1))).map
          fun l => l.map fun r => (r, (i : Int)) := ⟨_, rfl⟩
    have href : ∀ i : Nat, ∀ r ∈ ((breaks E L q).filter fun r => decide (r.2 = (i : Int))).map (·.1),
        (0 ≤ r ∧ r ≤ 1) ∧ ∃ y ∈ L.phi.roots i q, |r - y| ≤ E.tol := by
      intro i r hr
      obtain ⟨a, ha, rfl⟩ := List.mem_map.1 hr
      obtain ⟨ha, hid⟩ := List.mem_filter.1 ha
      have hid : a.2 = (i : Int) := by simpa using hid
      refine ⟨breaks_mem ht hs h q a ha, ?_⟩
      rw [h1] at ha
      simp only [List.cons_append, List.mem_cons, List.mem_append, List.not_mem_nil, or_false] at ha
      rcases ha with rfl | ha | rfl
      · simp at hid
      · obtain ⟨j, _, y, hy, e1, e2⟩ := h3 a ha
        rw [hid] at e1
        have : i = j := by exact_mod_cast e1
        subst this
        exact ⟨y, hy, e2⟩
      · simp at hid
    have hfs : ∀ i l, f i = some l → ∀ r ∈ l, 0 ≤ r.1 ∧ r.1 ≤ 1 ∧ r.2 = (i : Int) ∧ RootSource E L i q p r.1 := by
      intro i l hl
      rw [hf] at hl
      dsimp only at hl
      split at hl
      · cases hl; simp
      · cases hsr : similarRoots E L i q p (((breaks E L q).filter fun r => decide (r.2 = (i : Int))).map (·.1)) with
        | none => rw [hsr] at hl; simp at hl
        | some l' =>
          rw [hsr] at hl
          cases hl
          intro r hr
          obtain ⟨a, ha, rfl⟩ := List.mem_map.1 hr
          have b1 := similarRoots_mem h (fun r hr => (href i r hr).1) hsr a ha
          have b2 := similarRoots_source (fun r hr => (href i r hr).2) hsr a ha
          exact ⟨b1.1, b1.2, rfl, b2⟩
    cases hm : (List.range L.phi.count).mapM f with
    | none => rw [hf] at hm; rw [hm] at hiv; simp at hiv
    | some rs =>
      have h2 := mapM_eq_some f _ rs hm
      rw [hf] at hm
      rw [hm] at hiv
      simp only [Option.bind_eq_bind, Option.bind_some] at hiv
      split at hiv
      · cases hiv
        have hrs : ∀ r ∈ rs.flatten, ∃ i, i < L.phi.count ∧ 0 ≤ r.1 ∧ r.1 ≤ 1 ∧ r.2 = ((i : Nat) : Int) ∧ RootSource E L i q p r.1 := by
          intro r hr
          obtain ⟨l, hl, hrl⟩ := List.mem_flatten.1 hr
          obtain ⟨i, hi, hil⟩ := forall2_mem_right h2 hl
          exact ⟨i, List.mem_range.1 hi, hfs i l hil r hrl⟩
        obtain ⟨mid', m1, m2, -⟩ := adjust_near ht ht1 (hs (rs.flatten ++ [((0 : K), (-1 : Int)), (1, -1)])) (fs := rs.flatten)
          List.perm_append_comm (by intro r hr; obtain ⟨i, _, _, _, e, _⟩ := hrs r hr; omega)
          (by intro r hr; obtain ⟨i, _, a, b, _⟩ := hrs r hr; exact ⟨a, b⟩)
        refine ⟨mid', m1, ?_⟩
        intro r hr
        obtain ⟨a, ha, _, e2⟩ := m2 r hr
        obtain ⟨i, hi, _, _, _, hsrc⟩ := hrs a ha
        exact ⟨i, hi, a.1, hsrc, e2⟩
      · cases hiv

theorem computeIntervals_source {E : Env K} (ht : 0 ≤ E.tol) (ht1 : E.tol < 1) (hs : IsRootSort E.srt) {L : Level K} (h : RootsOk [L])
    {M : RefMap K} {tid : List Nat} {q p : List K} {act : List Bool} (hM : M.lookup tid = some ⟨q, breaks E L q, act⟩)
    (hl : q.length = p.length) {iv : Intervals K} (hiv : computeIntervals E L M p tid = some iv) :
    FromSources E L q p iv.roots := by
  unfold computeIntervals at hiv
  rw [hM] at hiv
  simp only [Option.bind_eq_bind, Option.bind_some] at hiv
  split at hiv
  · rename_i h0
    cases hiv
    have hp : p = [] := List.length_eq_zero_iff.1 h0
    have hq : q = [] := List.length_eq_zero_iff.1 (by rw [hl, h0])
    subst hp; subst hq
    obtain ⟨mid, h1, h3, -⟩ := near_breaks ht ht1 hs h []
    refine ⟨mid, h1, ?_⟩
    intro r hr
    obtain ⟨i, hi, x, hx, _, e⟩ := h3 r hr
    exact ⟨i, hi, x, Or.inl hx, e⟩
  · exact computeSimilar_source ht ht1 hs h hiv

/-- A point of the reparameterization: on the line over a base point `u`, at a break other than the ends (level set) or between
two consecutive breaks (volume); `q` is the reference point. -/
def TopPoint (E : Env K) (L : Level K) (x : List K) : Prop :=
  ∃ (q u : List K) (rts : List (Root K)) (k : Nat), q.length = u.length ∧ InCube q ∧ InCube u ∧ FromSources E L q u rts ∧
    (SteadyAt E L q u → NearRoots E L u rts) ∧ rts.Pairwise (fun a b => a.1 ≤ b.1) ∧ L.dir ≤ u.length ∧
    if E.S then k + 2 < rts.length ∧ x = addComponent u L.dir (rts.getD (k + 1) (0, -1)).1
    else k + 1 < rts.length ∧ ∃ t, 0 ≤ t ∧ t ≤ 1 ∧
      x = addComponent u L.dir ((rts.getD k (0, -1)).1 + ((rts.getD (k + 1) (0, -1)).1 - (rts.getD k (0, -1)).1) * t)

theorem process_source (E : Env K) (ht : 0 ≤ E.tol) (ht1 : E.tol < 1) (hs : IsRootSort E.srt)
    (hnode : ∀ j, j < E.order → 0 ≤ E.node j ∧ E.node j ≤ 1) (T : Level K) : ∀ (Ls : List (Level K)) (Ms : List (RefMap K)) (q p : List K)
    (tid pt : List Nat), Ls.getLast? = some T → RootsOk Ls → DirsOk p.length Ls → q.length = p.length → InCube q → InCube p →
    Stored E Ls Ms q tid → ∀ evs, process E Ls Ms p tid pt = some evs → ∀ e ∈ evs, TopPoint E T e.point := by
  intro Ls
  induction Ls with
  | nil => intro _ _ _ _ _ h; simp at h
  | cons L Ls ih =>
    intro Ms q p tid pt hlast hro hdir hql hq hp hst evs hevs e he
    cases Ms with
    | nil => exact absurd hst (by simp [Stored])
    | cons M Ms =>
      obtain ⟨h1, h2⟩ := hst
      obtain ⟨hd1, hd2⟩ := hdir
      have hL : RootsOk [L] := fun L' hL' => hro L' (by simp at hL'; simp [hL'])
      have hLs : RootsOk Ls := fun L' hL' => hro L' (by simp [hL'])
      have hci := computeIntervals_spec (p := p) ht ht1 hs hL (actives_length E L Ls q) h1
      have hal := actives_length E L Ls q
      rw [process] at hevs
      cases hiv : computeIntervals E L M p tid with
      | none => rw [hiv] at hevs; simp at hevs
      | some iv =>
        rw [hiv] at hevs
        obtain ⟨ha, hr, hok⟩ := hci.1 iv hiv
        have hsrc := computeIntervals_source ht ht1 hs hL h1 hql hiv
        have hnear := fun hst' => near_intervals ht ht1 hs hL h1 hql hst' hiv
        simp only [Option.bind_eq_bind, Option.bind_some] at hevs
        obtain ⟨i, hi, b, hb, heb⟩ := collect_mem hevs he
        have hi := List.mem_range.1 hi
        split at hb
        · rename_i hact
          cases hx0 : iv.roots[i]? with
          | none => rw [hx0] at hb; simp at hb
          | some x0 =>
            cases hx1 : iv.roots[i + 1]? with
            | none => rw [hx0, hx1] at hb; simp at hb
            | some x1 =>
              have hm0 := hok.mem x0 (List.mem_of_getElem? hx0)
              have hm1 := hok.mem x1 (List.mem_of_getElem? hx1)
              have hg0 : iv.roots.getD i (0, -1) = x0 := by rw [List.getD_eq_getElem?_getD, hx0]; rfl
              have hg1 : iv.roots.getD (i + 1) (0, -1) = x1 := by rw [List.getD_eq_getElem?_getD, hx1]; rfl
              have hlen : i + 1 < iv.roots.length := (List.getElem?_eq_some_iff.1 hx1).1
              rw [hx0, hx1] at hb
              simp only [Option.bind_some] at hb
              split at hb
              · rename_i hS
                simp only [Bool.and_eq_true, List.isEmpty_iff] at hS
                cases hb
                rw [List.mem_singleton] at heb
                rw [heb]
                obtain ⟨hS1, hS2⟩ := hS
                subst hS1
                have hT : L = T := by simpa using hlast
                subst hT
                refine ⟨q, p, iv.roots, i, hql, hq, hp, hsrc, hnear, hok.sorted, hd1, ?_⟩
                rw [hS2, if_pos rfl, hg1]
                refine ⟨?_, rfl⟩
                rw [ha, actives, hS2] at hact
                simp only [List.isEmpty_nil, Bool.and_self, if_true] at hact
                unfold jumps at hact
                have hfl : (flags E (actives E []) true L q).length = (breaks E L q).length - 1 := by simp [flags]
                rw [hfl] at hact
                rw [hok.len, hr] at hi
                simp only [List.getD_eq_getElem?_getD, List.getElem?_map, List.getElem?_range hi, Option.map_some, Option.getD_some,
                  Bool.and_eq_true, decide_eq_true_eq] at hact
                rw [hr]
                omega
              · rename_i hS
                obtain ⟨j, hj, b', hb', heb'⟩ := collect_mem hb heb
                have hnj := hnode j (List.mem_range.1 hj)
                have hb0 := between hm0 hm1 hnj
                split at hb'
                · rename_i hE
                  cases hb'
                  rw [List.mem_singleton] at heb'
                  rw [heb']
                  have hE := List.isEmpty_iff.1 hE
                  subst hE
                  have hT : L = T := by simpa using hlast
                  subst hT
                  have hS' : E.S = false := by simpa using hS
                  refine ⟨q, p, iv.roots, i, hql, hq, hp, hsrc, hnear, hok.sorted, hd1, ?_⟩
                  rw [hS', if_neg (by simp), hg0, hg1]
                  exact ⟨hlen, E.node j, hnj.1, hnj.2, rfl⟩
                · rename_i hE
                  have hne : Ls ≠ [] := by rintro rfl; simp at hE
                  obtain ⟨L', Ls', rfl⟩ := List.exists_cons_of_ne_nil hne
                  have hact' := active_nonDeg (by rw [← ha]; exact hact)
                  refine ih Ms _ _ _ _ (by rw [List.getLast?_cons_cons] at hlast; exact hlast) hLs (by rw [addComponent_length hd1]; exact hd2) ?_
                    (inCube_mid ht hs hL hq i) (inCube_add hp hb0) (h2 i hact'.1 hact'.2) b' hb' e heb'
                  unfold midPoint
                  rw [addComponent_length hd1, addComponent_length (by rw [hql]; exact hd1), hql]
        · cases hb
          simp at heb

theorem events_source (E : Env K) (hE : EnvOk E) (b : Nat) (Ls : List (Level K)) (T : Level K) (hT : Ls.getLast? = some T) (hr : RootsOk Ls)
    (hd : DirsOk b Ls) (evs : List (Event K)) (he : events E b Ls = some evs) : ∀ e ∈ evs, TopPoint E T e.point := by
  have hne : Ls ≠ [] := by rintro rfl; simp at hT
  obtain ⟨Ms, hMs, hst, -, -⟩ := computeRef_total E hE.tol0 hE.tol1 hE.sort Ls (Ls.map fun _ => []) (List.replicate b (1 / 2))
    (List.replicate b 0) hne hr (by simpa using hd) (fresh_empty Ls _)
  have hev : events E b Ls = if b = 0 then process E Ls Ms [] [] []
      else collect (indices (List.replicate b E.order)) fun pt => process E Ls Ms (pt.map E.node) (List.replicate b 0) pt := by
    unfold events
    rw [hMs]
    simp only [Option.bind_eq_bind, Option.bind_some]
    by_cases hb : b = 0
    · simp [hb]
    · rw [if_neg hb, if_neg hb, visitAll_ofUpper (by simp [hb]) (by intro n hn; rw [(List.mem_replicate.1 hn).2]; exact hE.order)]
  rw [hev] at he
  have hhalf : InCube (List.replicate b (1 / 2 : K)) := by
    intro x hx
    rw [(List.mem_replicate.1 hx).2]
    constructor <;> norm_num
  by_cases hb : b = 0
  · subst hb
    simp only [if_true, List.replicate_zero] at *
    exact process_source E hE.tol0 hE.tol1 hE.sort hE.node T Ls Ms [] [] [] [] hT hr hd rfl hhalf hhalf hst evs he
  · rw [if_neg hb] at he
    intro e hee
    obtain ⟨pt, hpt, b', h1, h2⟩ := collect_mem he hee
    have hpl := (mem_indices_iff.1 hpt).1
    refine process_source E hE.tol0 hE.tol1 hE.sort hE.node T Ls Ms (List.replicate b (1 / 2)) (pt.map E.node) (List.replicate b 0) pt hT hr
      (by rw [List.length_map, hpl]; exact hd) (by rw [List.length_map, hpl, List.length_replicate]) hhalf ?_ hst b' h1 e h2
    intro x hx
    obtain ⟨j, hj, rfl⟩ := List.mem_map.1 hx
    exact hE.node j ((mem_indices_iff.1 hpt).2 j hj)

end Qugar.Reparam
