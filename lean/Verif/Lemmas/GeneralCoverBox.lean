import Verif.Lemmas.GeneralCoverCtor
/-
The constructors in the plane make columns that cover the negative region.
-/
namespace Qugar.General
open Roots Mesh Poly Reparam Spec TS
variable {K : Type} [Field K] [LinearOrder K] [IsStrictOrderedRing K]

/-- A box with a height direction. -/
theorem line_cover {E : Env K} {F : Fn K} {d : Nat} (hp : Par E F 2 d none) (h0 : E.tol = 0) (hS : E.S = false) (hs : Sound 2 F)
    (hi' : Intermediate 2 F) {psi : List Psi} {box : Box K} {k : Nat} {acts : List (Action K)} (hpsi : psi.getD 0 E.psi0 = ⟨[0, 0], -1⟩)
    (hne : psi ≠ []) (hb : box.length = 2) (hext : ∀ k, k < 2 → 0 < extent box k) (hk : k < 2)
    (hg : ((F.grad box).getD k ⟨0, 0⟩).dev < |((F.grad box).getD k ⟨0, 0⟩).alpha|)
    (hc : (ctor E F 1 ([true, true].set k false)
      (newPsis F E.S (decide (0 < ((F.grad box).getD k ⟨0, 0⟩).alpha)) k (psi.take 1) ++ List.replicate (nFacets 2 - 2 * 1) E.psi0) (2 * 1) box
      [⟨2, [true, true], psi, 1, box, k⟩]) = some acts) : FineC E F box acts := by
  obtain ⟨up, hup⟩ : ∃ up, up = decide (0 < ((F.grad box).getD k ⟨0, 0⟩).alpha) := ⟨_, rfl⟩
  obtain ⟨T, hT⟩ : ∃ T : Level K, T = ⟨2, [true, true], psi, 1, box, k⟩ := ⟨_, rfl⟩
  rw [← hup] at hc
  obtain ⟨new, hnew⟩ : ∃ new, new = newPsis F E.S up k (psi.take 1) ++ List.replicate (nFacets 2 - 2 * 1) E.psi0 := ⟨_, rfl⟩
  rw [← hT, ← hnew, ctor] at hc
  dsimp only at hc
  rw [lineDir_plane hk, List.length_set] at hc
  have hn2 : [true, true].length = 2 := rfl
  rw [hn2] at hc
  obtain ⟨L, hL⟩ : ∃ L : Level K, L = ⟨1, [true, true].set k false, new, 2 * 1, box, 1 - k⟩ := ⟨_, rfl⟩
  rw [← hL] at hc
  have lev : ∀ (L : Level K), L.box = box → L.dir < 2 → LevelOk E L := by
    intro L h1 h2
    refine ⟨by rw [h0], hp.sort, ?_⟩
    rw [tolOf_zero h0]
    have e : hi L - lo L = extent box L.dir := by
      unfold hi lo sideAt extent
      rw [h1]
      simp
    rw [e]
    exact hext _ h2
  have top : Top E F T up := by
    rw [hT, hup]
    exact ⟨h0, lev _ rfl hk, rfl, rfl, rfl, hk, hb, by dsimp only; rw [hpsi], mono_of_grad hs hb hk hg⟩
  have hnew' : ∃ rest, new = ⟨[0, 0].set k 0, (F.signs E.S up (-1)).1⟩ :: ⟨[0, 0].set k 1, (F.signs E.S up (-1)).2⟩ :: rest := by
    cases psi with
    | nil => exact absurd rfl hne
    | cons p psi =>
      have hpp : p = ⟨[0, 0], -1⟩ := hpsi
      rw [hnew, hpp]
      exact ⟨_, rfl⟩
  obtain ⟨rst, hnew'⟩ := hnew'
  rw [hs.signs, hS] at hnew'
  have hLd : L.dir < 2 := by rw [hL]; show 1 - k < 2; omega
  have line : Line E T L := by
    refine ⟨lev _ (by rw [hL]) hLd, by rw [hL], by rw [hL, hT], by rw [hL], by rw [hL, hT], by rw [hL, hT], ?_, ?_⟩
    · rw [hL, hT, hnew']
      show ([0, 0].set k 0).getD k 0 = 0
      interval_cases k <;> rfl
    · rw [hL, hT, hnew']
      show ([0, 0].set k 1).getD k 0 = 1
      interval_cases k <;> rfl
  have hsup : up = true → (L.psi.getD 0 E.psi0).sign = -1 ∧ (L.psi.getD 1 E.psi0).sign = 0 := by
    intro h
    rw [hL, hnew', h]
    exact ⟨rfl, rfl⟩
  have hsdn : up = false → (L.psi.getD 0 E.psi0).sign = 0 ∧ (L.psi.getD 1 E.psi0).sign = -1 := by
    intro h
    rw [hL, hnew', h]
    exact ⟨rfl, rfl⟩
  unfold lineActions at hc
  obtain ⟨Ms, hMs, hc⟩ := Option.bind_eq_some_iff.1 hc
  obtain ⟨evs, hevs, hc⟩ := Option.bind_eq_some_iff.1 hc
  have hTL : T.dir < 2 := by rw [hT]; exact hk
  have hLT : L.dir = 1 - T.dir := line.dir
  have hdirs : DirsOk 2 [L, T] := by
    refine ⟨?_, ?_⟩
    · simp; omega
    · intro L' hL'
      simp only [List.mem_cons, List.not_mem_nil, or_false] at hL'
      rcases hL' with rfl | rfl <;> omega
  have hlv : ∀ L' ∈ [L, T], LevelOk E L' := by
    intro L' hL'
    simp only [List.mem_cons, List.not_mem_nil, or_false] at hL'
    rcases hL' with rfl | rfl
    · exact line.level
    · exact top.level
  obtain ⟨Ms', m1, m2, -, -⟩ := computeRef_total E F hp.roots [L, T] ([L, T].map fun _ => []) (List.replicate 2 0) (List.replicate 2 0) (by simp)
    hlv (by simpa using hdirs) (fresh_empty _ _)
  rw [m1] at hMs
  rw [← Option.some.inj hMs] at hevs
  have hbox : T.box = box := by rw [hT]
  have hchain : ChainOk E 2 box [L, T] := by
    have hle : ∀ k, k < 2 → (box.getD k (0, 0)).1 ≤ (box.getD k (0, 0)).2 := by
      intro k hk
      have := hext k hk
      unfold extent at this
      linarith
    refine ⟨hlv, hdirs, ?_, ?_, ?_, ?_⟩
    · intro L' hL'
      simp only [List.mem_cons, List.not_mem_nil, or_false] at hL'
      rcases hL' with rfl | rfl
      · rw [line.dim]; omega
      · rw [top.dim]; omega
    · intro L' hL'
      have : L'.box = box := by
        simp only [List.mem_cons, List.not_mem_nil, or_false] at hL'
        rcases hL' with rfl | rfl
        · rw [line.box, hbox]
        · exact hbox
      unfold lo hi sideAt
      rw [this]
      simp
    · intro L' hL'
      simp only [List.mem_cons, List.not_mem_nil, or_false] at hL'
      rcases hL' with rfl | rfl
      · intro _; rw [line.count]; simp
      · intro _; rw [top.count]; simp
    · intro L' hL'
      have : L' = T := by simpa using hL'.symm
      subst this
      refine ⟨by rw [top.free]; rfl, ?_, by rw [hS]; simp⟩
      intro k hk
      rw [hbox]
      unfold sideAt
      simp only [if_true, one_ne_zero, if_false]
      exact ⟨le_refl _, hle k hk, le_refl _⟩
  obtain ⟨evs', v1, v2, -⟩ := process_spec E F hp.roots 2 box hp.node [L, T] Ms' (List.replicate 2 0) (List.replicate 2 0) (List.replicate 2 0)
    (List.replicate 2 0) [] T rfl hchain (by simp) (by simp) m2
  rw [v1] at hevs
  have hevs := Option.some.inj hevs
  subst hevs
  have her : erDir E.S T = none := by
    rw [hS]
    unfold erDir
    simp [top.dim, top.free]
  obtain ⟨a1, a2⟩ := all_keys E F (Ls := [L, T]) (by simp) hdirs (List.replicate 2 0) (tid := List.replicate 2 0) (by simp) (e := none)
    (base_zero 2 E.order) (by simp) (by
      intro k hk
      rw [hS, pdirs_false]
      simp only [Bool.false_eq_true, false_or, List.map_cons, List.map_nil, List.mem_cons, List.not_mem_nil, or_false]
      constructor
      · intro _; simp
      · intro _; omega) (by simp)
  rw [List.flatMap_singleton, ← her, ← v2] at a1 a2
  rw [her] at a2
  have a2 : ∀ c t, (c, t) ∈ (evs'.map fun e => (e.cell, e.pt)) ↔ c ∈ cells E F [L, T] (List.replicate 2 0) (List.replicate 2 0) ∧ t ∈ indices [E.order, E.order] := a2
  rw [← Option.some.inj hc]
  intro m md mo mw
  have hev := plane_events hS hTL hLT line.dim top.dim top.free (by simp) (by simp) (by simp) m2 v1
  obtain ⟨st, cols, s1, s2, s3⟩ := columned_events E.cheb (node E) (m := m) md (by rw [mo]; exact hp.order) mw
    (cells_nodup E F [L, T] (List.replicate 2 0) (List.replicate 2 0) (by simpa using hdirs)) a1 (by rw [mo]; exact a2)
    (fun c => colAt E F T L (List.replicate 2 0) (c.getD L.dir 0) (c.getD T.dir 0)) hev
  refine ⟨st, cols, s1, s2, ?_⟩
  have := line_covers hS top line hp.roots hs hi' hsup hsdn (x0 := List.replicate 2 0) (by simp) (tid := List.replicate 2 0) (by simp)
  rw [hbox] at this
  exact this.perm s3

/-- The constructor for a box of the plane. -/
theorem plane_cover {E : Env K} {F : Fn K} {d : Nat} (hp : Par E F 2 d none) (h0 : E.tol = 0) (hS : E.S = false) (hs : Sound 2 F)
    (hi' : Intermediate 2 F) :
    ∀ (rest : Nat) (psi : List Psi) (box : Box K) (acts : List (Action K)), psi.getD 0 E.psi0 = ⟨[0, 0], -1⟩ → psi ≠ [] → box.length = 2 →
      (∀ k, k < 2 → 0 < extent box k) → Resolves F rest box →
      ctorBox E F 2 (ctor E F 1) [true, true] [] rest psi 1 box = some acts → FineC E F box acts := by
  have hres : ∀ (psi : List Psi) (box : Box K), box.length = 2 → (∀ k, k < 2 → 0 < extent box k) → psi.getD 0 E.psi0 = ⟨[0, 0], -1⟩ → psi ≠ [] →
      Resolved F box → ¬ (F.ivl box).uniform = true →
      ∃ k, ((heightDir F [true, true] box (psi.getD 0 E.psi0)).filter fun k => (psi.take 1).all (dirOk F [true, true] box k)) = some k := by
    intro psi box hb hext hpsi hne hr hu
    rcases hr with hr | ⟨j, hj, hr⟩
    · exact absurd (by unfold Ival.uniform; exact decide_eq_true hr) hu
    · rw [hb] at hj
      have hdev := dev_nonneg hs hb hext hj
      have hal : 0 < |((F.grad box).getD j ⟨0, 0⟩).alpha| := lt_of_le_of_lt (mul_nonneg (by norm_num) hdev) hr
      obtain ⟨k, hk⟩ := heightDir_some hb (psi.getD 0 E.psi0) hj hr (mul_pos hal (hext j hj))
      refine ⟨k, Option.filter_eq_some_iff.2 ⟨hk, ?_⟩⟩
      obtain ⟨k1, k2⟩ := heightDir_test hb hk
      have hdk := dev_nonneg hs hb hext k1
      rw [List.all_eq_true]
      intro p _
      unfold dirOk Ival.uniform
      rw [psiBox_all hb]
      exact decide_eq_true (by linarith)
  have main : ∀ (rest : Nat) (psi : List Psi) (box : Box K) (acts : List (Action K)), psi.getD 0 E.psi0 = ⟨[0, 0], -1⟩ → psi ≠ [] → box.length = 2 →
      (∀ k, k < 2 → 0 < extent box k) → Resolves F rest box →
      (∀ rest', rest = rest' + 1 → ∀ (d : Nat) (acts : List (Action K)), d < 2 → ¬ Resolved F box →
        (ctorBox E F 2 (ctor E F 1) [true, true] [] rest' psi 1 (lowerHalf box d) = some acts → FineC E F (lowerHalf box d) acts) ∧
        (ctorBox E F 2 (ctor E F 1) [true, true] [] rest' psi 1 (upperHalf box d) = some acts → FineC E F (upperHalf box d) acts)) →
      ctorBox E F 2 (ctor E F 1) [true, true] [] rest psi 1 box = some acts → FineC E F box acts := by
    intro rest psi box acts hpsi hne hb hext hR hrec hc
    have hprune : prune F [true, true] box E.psi0 1 0 psi =
        if (F.ivl box).uniform then if (F.ivl box).alpha ≤ 0 then some (swap psi 0 0 E.psi0, 0) else none else some (psi, 1) := by
      unfold prune
      rw [hpsi]
      dsimp only
      rw [psiBox_all hb]
      by_cases hu : (F.ivl box).uniform = true
      · rw [if_pos hu, if_pos hu]
        by_cases ha : (F.ivl box).alpha ≤ 0
        · rw [if_pos ha, if_pos (Or.inr ⟨ha, by norm_num⟩)]
          rfl
        · rw [if_neg ha, if_neg]
          rintro (h | h)
          · exact absurd h.2 (by norm_num)
          · exact ha h.1
      · rw [if_neg hu, if_neg hu]
        rfl
    unfold ctorBox at hc
    rw [hprune] at hc
    by_cases hu : (F.ivl box).uniform = true
    · rw [if_pos hu] at hc
      unfold Ival.uniform at hu
      rw [decide_eq_true_eq] at hu
      by_cases hal : (F.ivl box).alpha ≤ 0
      · rw [if_pos hal] at hc
        dsimp only at hc
        rw [if_pos rfl] at hc
        unfold wholeActions fullActions at hc
        simp only [List.isEmpty_nil, if_true] at hc
        rw [hS, if_neg (by simp), if_pos (show 2 = [true, true].length from rfl)] at hc
        rw [← Option.some.inj hc]
        refine fineC_full hb hp.order hext ?_
        intro x hx
        obtain ⟨x1, x2⟩ := (inBox_iff hb).1 hx
        have := hs.value box x hb x1 x2
        rw [abs_of_nonpos hal] at hu
        have := (abs_le.1 this).2
        linarith
      · rw [if_neg hal] at hc
        dsimp only at hc
        rw [← Option.some.inj hc]
        refine fineC_nil ?_
        intro x hx
        obtain ⟨x1, x2⟩ := (inBox_iff hb).1 hx
        have := hs.value box x hb x1 x2
        rw [abs_of_pos (not_le.1 hal)] at hu
        have := (abs_le.1 this).1
        linarith
    · rw [if_neg hu] at hc
      dsimp only at hc
      rw [if_neg (by omega)] at hc
      cases hh : (heightDir F [true, true] box (psi.getD 0 E.psi0)).filter fun k => (psi.take 1).all (dirOk F [true, true] box k) with
      | some k =>
        rw [hh] at hc
        dsimp only at hc
        rw [if_pos (by decide)] at hc
        obtain ⟨f1, f2⟩ := Option.filter_eq_some_iff.1 hh
        obtain ⟨k1, k2⟩ := heightDir_test hb f1
        rw [psiBox_all hb] at hc
        have hg : ((F.grad box).getD k ⟨0, 0⟩).dev < |((F.grad box).getD k ⟨0, 0⟩).alpha| := by
          have := dev_nonneg hs hb hext k1
          linarith
        exact line_cover hp h0 hS hs hi' hpsi hne hb hext k1 hg hc
      | none =>
        have hnr : ¬ Resolved F box := by
          intro hr
          obtain ⟨k, hk⟩ := hres psi box hb hext hpsi hne hr hu
          rw [hk] at hh
          simp at hh
        rw [hh] at hc
        cases rest with
        | zero => exact absurd hR hnr
        | succ rest =>
          dsimp only at hc
          obtain ⟨ds, hds, hc⟩ := Option.bind_eq_some_iff.1 hc
          obtain ⟨a1, ha1, hc⟩ := Option.bind_eq_some_iff.1 hc
          obtain ⟨a2, ha2, hc⟩ := Option.bind_eq_some_iff.1 hc
          obtain ⟨dd, hdd, hd2, _⟩ := splitDir_spec (free := [true, true]) (box := box) (d := 0) (by omega) rfl (hext 0 (by omega))
          rw [hdd] at hds
          have hds := Option.some.inj hds
          rw [hds, hb] at hd2
          rw [← Option.some.inj hc]
          exact fineC_split hb hext hd2 ((hrec rest rfl ds a1 hd2 hnr).1 ha1) ((hrec rest rfl ds a2 hd2 hnr).2 ha2)
  intro rest
  induction rest with
  | zero =>
    intro psi box acts hpsi hne hb hext hR hc
    exact main 0 psi box acts hpsi hne hb hext hR (by intro r hr; omega) hc
  | succ rest ih =>
    intro psi box acts hpsi hne hb hext hR hc
    refine main (rest + 1) psi box acts hpsi hne hb hext hR ?_ hc
    intro r hr dd acts' hdd hnr
    have : r = rest := by omega
    subst this
    have hR' : Resolves F r (lowerHalf box dd) ∧ Resolves F r (upperHalf box dd) := by
      rcases hR with h | h
      · exact absurd h hnr
      · exact h dd (by omega)
    have hW : Wide (0 : K) 2 1 box := by intro k hk; rw [zero_mul]; exact hext k hk
    constructor
    · intro hc'
      refine ih psi (lowerHalf box dd) acts' hpsi hne (by unfold lowerHalf; rw [List.length_set, hb]) ?_ hR'.1 hc'
      intro k hk
      have := Wide.lower (le_refl _) hW hb dd k hk
      rwa [zero_mul] at this
    · intro hc'
      refine ih psi (upperHalf box dd) acts' hpsi hne (by unfold upperHalf; rw [List.length_set, hb]) ?_ hR'.2 hc'
      intro k hk
      have := Wide.upper (le_refl _) hW hb dd k hk
      rwa [zero_mul] at this

end Qugar.General
