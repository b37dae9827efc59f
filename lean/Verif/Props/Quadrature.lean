import Verif.Lemmas.UnfQuadrature
import Verif.Props.Domain
import Verif.Props.Gauss
/-
Property theorems C18-C22, C51: quadrature rules of cells, facets and unfitted boundaries.
-/
namespace Qugar
open Spec
variable {K : Type} [Field K] [LinearOrder K]

/-! ### Independence of the history -/

/-- Two outcomes that differ at most in the static rules. -/
def SameRes (t : QuadType K) {α : Type} (x y : Option (Cache K × α)) : Prop :=
  x.map (·.2) = y.map (·.2) ∧ (∀ a, x = some a → CacheOk t a.1) ∧ (∀ a, y = some a → CacheOk t a.1)

theorem SameRes.some {t : QuadType K} {α : Type} {ch ch' : Cache K} (h : CacheOk t ch) (h' : CacheOk t ch') (a : α) :
    SameRes t (some (ch, a)) (some (ch', a)) := by
  refine ⟨rfl, ?_, ?_⟩ <;> intro x hx <;> injection hx with hx <;> subst hx <;> assumption

theorem SameRes.none {t : QuadType K} {α : Type} : SameRes t (α := α) none none := by
  refine ⟨rfl, ?_, ?_⟩ <;> intro x hx <;> simp at hx

theorem SameRes.bind {t : QuadType K} {α β : Type} {x y : Option (Cache K × α)} (h : SameRes t x y)
    {F : Cache K → α → Option (Cache K × β)}
    (hF : ∀ ch ch' a, CacheOk t ch → CacheOk t ch' → SameRes t (F ch a) (F ch' a)) :
    SameRes t (x.bind fun z => F z.1 z.2) (y.bind fun z => F z.1 z.2) := by
  obtain ⟨h1, h2, h3⟩ := h
  cases x with
  | none => cases y with
    | none => exact SameRes.none
    | some b => simp at h1
  | some a => cases y with
    | none => simp at h1
    | some b =>
      simp only [Option.map_some, Option.some.injEq] at h1
      simp only [Option.bind_some]
      rw [h1]
      exact hF _ _ _ (h2 a rfl) (h3 b rfl)

theorem SameRes.bindO {t : QuadType K} {α β : Type} (x : Option α) {F G : α → Option (Cache K × β)}
    (h : ∀ a, SameRes t (F a) (G a)) : SameRes t (x.bind F) (x.bind G) := by
  cases x with
  | none => exact SameRes.none
  | some a => exact h a

theorem SameRes.map {t : QuadType K} {α β : Type} (F : α → β) {x y : Option (Cache K × α)} (h : SameRes t x y) :
    SameRes t (x.map fun z => (z.1, F z.2)) (y.map fun z => (z.1, F z.2)) := by
  have := SameRes.bind (F := fun ch a => Option.some (ch, F a)) h (fun ch ch' a h h' => SameRes.some h h' _)
  cases x <;> cases y <;> exact this

theorem cellQuad_same (t : QuadType K) (o : QOracle K) (g : Grid K) (d : Dom) (n c : Nat)
    (hg : g.length = 2 ∨ g.length = 3) (q : CellsQuad K) (ch ch' : Cache K) (h : CacheOk t ch) (h' : CacheOk t ch') :
    SameRes t (cellQuad t o g d n c ch q) (cellQuad t o g d n c ch' q) := by
  refine ⟨?_, fun a ha => (cellQuad_spec t o g d n c ch hg h q a ha).1,
    fun a ha => (cellQuad_spec t o g d n c ch' hg h' q a ha).1⟩
  unfold cellQuad
  split
  · cases d.isCutCell c with
    | none => rfl
    | some cut =>
      simp only [Option.bind_some]
      split
      · cases g.cellDomain c <;> rfl
      · cases d.isFullCell c with
        | none => rfl
        | some full =>
          simp only [Option.bind_some]
          split
          · rw [refreshRule_eq t _ n _ (cellSetSize_eq _ n hg) (by omega) _ (h.1 _),
              refreshRule_eq t _ n _ (cellSetSize_eq _ n hg) (by omega) _ (h'.1 _)]
            cases create01 t g.length n <;> rfl
          · rfl
  · rfl

theorem cellLoop_same (t : QuadType K) (o : QOracle K) (g : Grid K) (d : Dom) (n : Nat)
    (hg : g.length = 2 ∨ g.length = 3) (cs : List Nat) (q : CellsQuad K) (ch ch' : Cache K) (h : CacheOk t ch)
    (h' : CacheOk t ch') : SameRes t (cellLoop t o g d n cs ch q) (cellLoop t o g d n cs ch' q) := by
  induction cs generalizing q ch ch' with
  | nil => exact SameRes.some h h' q
  | cons c cs ih =>
    exact SameRes.bind (F := fun ch q => cellLoop t o g d n cs ch q) (cellQuad_same t o g d n c hg q ch ch' h h')
      (fun ch ch' a h h' => ih a ch ch' h h')

theorem facetQuad_same (debug : Bool) (t : QuadType K) (o : QOracle K) (g : Grid K) (d : Dom) (n c f : Nat)
    (remUnf remCut : Bool) (hg : g.length = 2 ∨ g.length = 3) (q : FacetsQuad K) (ch ch' : Cache K)
    (h : CacheOk t ch) (h' : CacheOk t ch') :
    SameRes t (facetQuad debug t o g d n c f remUnf remCut ch q)
      (facetQuad debug t o g d n c f remUnf remCut ch' q) := by
  unfold facetQuad
  split
  · refine SameRes.bindO _ fun fullUnf => SameRes.bindO _ fun full => ?_
    split
    · split
      · exact SameRes.some h h' _
      · dsimp only
        rw [refreshRule_eq t _ n _ (facetSetSize_eq _ n hg) (by omega) _ (h.2 _),
          refreshRule_eq t _ n _ (facetSetSize_eq _ n hg) (by omega) _ (h'.2 _)]
        cases hc : create01 t (g.length - 1) n with
        | none => exact SameRes.none
        | some r =>
          rw [Option.map_some, Option.map_some]
          apply SameRes.some
          · refine ⟨h.1, ?_⟩
            intro k r' hr
            dsimp only at hr
            split at hr
            · rename_i hk
              injection hr with hr
              exact ⟨n, by rw [hk, ← hr]; exact hc⟩
            · exact h.2 k r' hr
          · refine ⟨h'.1, ?_⟩
            intro k r' hr
            dsimp only at hr
            split at hr
            · rename_i hk
              injection hr with hr
              exact ⟨n, by rw [hk, ← hr]; exact hc⟩
            · exact h'.2 k r' hr
    · refine SameRes.bindO _ fun cut => SameRes.bindO _ fun b => ?_
      split
      · refine SameRes.bindO _ fun q1 => ?_
        cases purgeFacet o g d c f remUnf true remCut q1 with
        | none => exact SameRes.none
        | some q2 => exact SameRes.some h h' _
      · exact SameRes.some h h' _
  · exact SameRes.none

theorem facetCreator_same (debug : Bool) (t : QuadType K) (o : QOracle K) (g : Grid K) (d : Dom) (n : Nat)
    (kind : FacetIntegral) (c f : Nat) (hg : g.length = 2 ∨ g.length = 3) (q : FacetsQuad K) (ch ch' : Cache K)
    (h : CacheOk t ch) (h' : CacheOk t ch') :
    SameRes t (facetCreator debug t o g d n kind c f ch q) (facetCreator debug t o g d n kind c f ch' q) := by
  unfold facetCreator
  refine SameRes.bindO _ fun ext => ?_
  cases kind
  · dsimp only
    split
    · exact facetQuad_same debug t o g d n c f _ _ hg q ch ch' h h'
    · exact SameRes.some h h' _
  · dsimp only
    split
    · exact facetQuad_same debug t o g d n c f _ _ hg q ch ch' h h'
    · refine SameRes.bindO _ fun unf => ?_
      split
      · exact facetQuad_same debug t o g d n c f _ _ hg q ch ch' h h'
      · exact SameRes.some h h' _

theorem facetLoop_same (debug : Bool) (t : QuadType K) (o : QOracle K) (g : Grid K) (d : Dom) (n : Nat)
    (kind : FacetIntegral) (hg : g.length = 2 ∨ g.length = 3) (cs : List (Nat × Nat)) (q : FacetsQuad K)
    (ch ch' : Cache K) (h : CacheOk t ch) (h' : CacheOk t ch') :
    SameRes t (facetLoop debug t o g d n kind cs ch q) (facetLoop debug t o g d n kind cs ch' q) := by
  induction cs generalizing q ch ch' with
  | nil => exact SameRes.some h h' q
  | cons cf cs ih =>
    obtain ⟨c, f⟩ := cf
    exact SameRes.bind (F := fun ch q => facetLoop debug t o g d n kind cs ch q)
      (facetCreator_same debug t o g d n kind c f hg q ch ch' h h') (fun ch ch' a h h' => ih a ch ch' h h')

theorem addUnfLoop_same (debug : Bool) (t : QuadType K) (o : QOracle K) (g : Grid K) (d : Dom) (n c : Nat)
    (exclExt : Bool) (hg : g.length = 2 ∨ g.length = 3) (fs : List Nat) (q : UnfQuad K) (ch ch' : Cache K)
    (h : CacheOk t ch) (h' : CacheOk t ch') :
    SameRes t (addUnfLoop debug t o g d n c exclExt fs ch q) (addUnfLoop debug t o g d n c exclExt fs ch' q) := by
  induction fs generalizing q ch ch' with
  | nil => exact SameRes.some h h' q
  | cons f fs ih =>
    rw [addUnfLoop, addUnfLoop]
    refine SameRes.bindO _ fun unf => ?_
    refine SameRes.bind (F := fun ch q => addUnfLoop debug t o g d n c exclExt fs ch q) ?_
      (fun ch ch' a h h' => ih a ch ch' h h')
    split
    · refine SameRes.bindO _ fun skip => ?_
      split
      · exact SameRes.some h h' q
      · unfold addUnfBdry
        refine SameRes.bindO _ fun unf' => ?_
        split
        · have := facetQuad_same debug t o g d n c f false true hg ⟨[], [], [], [], []⟩ ch ch' h h'
          exact SameRes.map (fun y : FacetsQuad K =>
            ((y.points.zip y.weights).take (y.nPts.getLastD 0).toNat).foldl (addUnfPoint g.length f) q) this
        · exact SameRes.some h h' q
    · exact SameRes.some h h' q

theorem unfLoop_same (debug : Bool) (t : QuadType K) (o : QOracle K) (g : Grid K) (d : Dom) (n : Nat)
    (incl exclExt : Bool) (hg : g.length = 2 ∨ g.length = 3) (cs : List Nat) (q : UnfQuad K)
    (ch ch' : Cache K) (h : CacheOk t ch) (h' : CacheOk t ch') :
    SameRes t (unfLoop debug t o g d n incl exclExt cs ch q) (unfLoop debug t o g d n incl exclExt cs ch' q) := by
  induction cs generalizing q ch ch' with
  | nil => exact SameRes.some h h' q
  | cons c cs ih =>
    refine SameRes.bind (F := fun ch q => unfLoop debug t o g d n incl exclExt cs ch q) ?_
      (fun ch ch' a h h' => ih a ch ch' h h')
    unfold unfQuad
    split
    · refine SameRes.bindO _ fun w => ?_
      split
      · exact SameRes.some h h' _
      · refine SameRes.bindO _ fun cut => SameRes.bindO _ fun q1 => ?_
        split
        · exact addUnfLoop_same debug t o g d n c exclExt hg _ q1 ch ch' h h'
        · exact SameRes.some h h' _
    · exact SameRes.none

/-- The dimension of the grid of a call. -/
def QuadCall.dim : QuadCall K → Nat
  | .cells _ g _ _ _ => g.length
  | .facets _ g _ _ _ _ _ => g.length
  | .unfitted _ g _ _ _ _ _ => g.length

theorem exec_same (debug : Bool) (t : QuadType K) (call : QuadCall K) (hd : call.dim = 2 ∨ call.dim = 3)
    (ch ch' : Cache K) (h : CacheOk t ch) (h' : CacheOk t ch') :
    SameRes t (call.exec debug t ch) (call.exec debug t ch') := by
  cases call with
  | cells o g d cs n =>
    refine SameRes.map QuadResult.cells ?_
    unfold createQuadrature
    split
    · exact cellLoop_same t o g d n hd cs _ ch ch' h h'
    · exact SameRes.none
  | facets o g d kind cs fs n =>
    refine SameRes.map QuadResult.facets ?_
    unfold createFacetsQuadrature
    split
    · exact facetLoop_same debug t o g d n kind hd _ _ ch ch' h h'
    · exact SameRes.none
  | unfitted o g d cs n incl exclExt =>
    refine SameRes.map QuadResult.unfitted ?_
    unfold createUnfQuadrature
    split
    · exact unfLoop_same debug t o g d n incl exclExt hd cs _ ch ch' h h'
    · exact SameRes.none

theorem execAll_ok (debug : Bool) (t : QuadType K) (history : List (QuadCall K))
    (hd : ∀ c ∈ history, c.dim = 2 ∨ c.dim = 3) (ch ch' : Cache K) (h : CacheOk t ch)
    (hr : QuadCall.execAll debug t history ch = some ch') : CacheOk t ch' := by
  induction history generalizing ch with
  | nil => simp only [QuadCall.execAll, Option.some.injEq] at hr; rw [← hr]; exact h
  | cons c cs ih =>
    rw [QuadCall.execAll] at hr
    obtain ⟨x, h1, h2⟩ := Option.bind_eq_some_iff.1 hr
    exact ih (fun c hc => hd c (by simp [hc])) x.1
      ((exec_same debug t c (hd c (by simp)) ch ch h h).2.1 x h1) h2

/-- **C21**. Whatever calls (for grids of dimension 2 or 3, with any numbers of points) were executed before in the same
process, a call returns the same object as in a fresh process (and fails exactly if it fails in a fresh process). -/
theorem C21_results_do_not_depend_on_history (debug : Bool) (t : QuadType K) (history : List (QuadCall K))
    (hd : ∀ c ∈ history, c.dim = 2 ∨ c.dim = 3) (ch : Cache K)
    (hr : QuadCall.execAll debug t history Cache.init = some ch) (call : QuadCall K)
    (hc : call.dim = 2 ∨ call.dim = 3) :
    (call.exec debug t ch).map (·.2) = (call.exec debug t Cache.init).map (·.2) :=
  (exec_same debug t call hc ch Cache.init (execAll_ok debug t history hd _ ch (CacheOk.init t) hr)
    (CacheOk.init t)).1

/-! ### Bookkeeping -/

/-- **C18**. After any history, the rule created for a list of cells: the cells are the requested ones, points and
weights have the same length, there is one count per cell, the counts add up to the number of points, and the vectors
are the concatenation, in the requested order, of the rules that the status of each cell prescribes (the cut rule
mapped to the unit cube, the unit tensor-product rule, nothing). -/
theorem C18_cell_quadrature (debug : Bool) (t : QuadType K) (history : List (QuadCall K))
    (hd : ∀ c ∈ history, c.dim = 2 ∨ c.dim = 3) (ch ch' : Cache K)
    (hr : QuadCall.execAll debug t history Cache.init = some ch) (o : QOracle K) (g : Grid K)
    (hg : g.length = 2 ∨ g.length = 3) (d : Dom) (cells : List Nat) (n : Nat) (q : CellsQuad K)
    (h : createQuadrature t o g d cells n ch = some (ch', q)) :
    q.cells = cells ∧ q.points.length = q.weights.length ∧ q.nPts.length = cells.length ∧
      q.nPts.sum = q.points.length ∧
      ∃ blocks, List.Forall₂ (IsCellRule t o g d n) cells blocks ∧ Stored blocks q.nPts q.points q.weights := by
  unfold createQuadrature at h
  split at h
  · obtain ⟨_, bs, h1, h2, h3⟩ := cellLoop_spec t o g d n hg cells ch
      (execAll_ok debug t history hd _ ch (CacheOk.init t) hr) _ [] stored_nil _ h
    rw [List.nil_append] at h2
    obtain ⟨l1, l2, l3⟩ := Stored.lengths h2
    exact ⟨h3, l1, by rw [l3, h1.length_eq], l2, bs, h1, h2⟩
  · simp at h

/-- **C19**. The same for the facet rules of interior and exterior integrals: one entry per requested facet, in order,
equal lengths, counts that add up, and each block is the rule that status and position of the facet prescribe. -/
theorem C19_facet_quadrature (debug : Bool) (t : QuadType K) (history : List (QuadCall K))
    (hd : ∀ c ∈ history, c.dim = 2 ∨ c.dim = 3) (ch ch' : Cache K)
    (hr : QuadCall.execAll debug t history Cache.init = some ch) (o : QOracle K) (g : Grid K)
    (hg : g.length = 2 ∨ g.length = 3) (d : Dom) (kind : FacetIntegral) (cells facets : List Nat) (n : Nat)
    (q : FacetsQuad K) (h : createFacetsQuadrature debug t o g d kind cells facets n ch = some (ch', q)) :
    q.cells = cells ∧ q.facets = facets ∧ cells.length = facets.length ∧ q.points.length = q.weights.length ∧
      q.nPts.length = cells.length ∧ q.nPts.sum = q.points.length ∧
      ∃ blocks, List.Forall₂ (fun cf => IsIntegralFacetRule t o g d n kind cf.1 cf.2) (cells.zip facets) blocks ∧
        Stored blocks q.nPts q.points q.weights := by
  unfold createFacetsQuadrature at h
  split at h
  · rename_i hlen
    obtain ⟨_, bs, h1, h2, h3, h4⟩ := facetLoop_spec debug t o g d n kind hg (cells.zip facets) ch
      (execAll_ok debug t history hd _ ch (CacheOk.init t) hr) _ [] stored_nil _ h
    rw [List.nil_append] at h2
    obtain ⟨l1, l2, l3⟩ := Stored.lengths h2
    have := h1.length_eq
    rw [List.length_zip] at this
    exact ⟨h3, h4, hlen.1, l1, by rw [l3]; omega, l2, bs, h1, h2⟩
  · simp at h

/-- **C51**. The same for the rules of the unfitted boundary (with normals): equal lengths, counts that add up, and each
block is the rule of the unfitted boundary of the cell: nothing for cells without unfitted boundary; otherwise the
surface rule of a cut cell without the points that lie on facets with unfitted boundary, followed (if requested) by the
rules of these facets, with the outer unit normal of the facet, without the exterior ones if these are excluded. -/
theorem C51_unfitted_boundary_quadrature (debug : Bool) (t : QuadType K) (history : List (QuadCall K))
    (hd : ∀ c ∈ history, c.dim = 2 ∨ c.dim = 3) (ch ch' : Cache K)
    (hr : QuadCall.execAll debug t history Cache.init = some ch) (o : QOracle K) (g : Grid K)
    (hg : g.length = 2 ∨ g.length = 3) (d : Dom) (cells : List Nat) (n : Nat) (incl exclExt : Bool) (q : UnfQuad K)
    (h : createUnfQuadrature debug t o g d cells n incl exclExt ch = some (ch', q)) :
    q.cells = cells ∧ q.points.length = q.weights.length ∧ q.points.length = q.normals.length ∧
      q.nPts.length = cells.length ∧ q.nPts.sum = q.points.length ∧
      ∃ blocks, List.Forall₂ (IsUnfRule t o g d n incl exclExt) cells blocks ∧
        UStored blocks q.nPts q.points q.weights q.normals := by
  unfold createUnfQuadrature at h
  split at h
  · obtain ⟨_, bs, h1, h2, h3⟩ := unfLoop_spec debug t o g d n incl exclExt hg cells ch
      (execAll_ok debug t history hd _ ch (CacheOk.init t) hr) _ [] ⟨rfl, rfl, rfl, rfl⟩ _ h
    rw [List.nil_append] at h2
    obtain ⟨l1, l2, l3, l4⟩ := UStored.lengths h2
    exact ⟨h3, l1, l2, by rw [l4, h1.length_eq], l3, bs, h1, h2⟩
  · simp at h

/-! ### Removing points -/

/-- **C20**. Erasing a list of distinct valid positions, in whatever order they are listed, keeps exactly the points,
weights (and normals) at the other positions, in order, and decreases only the last count, by the number of erased
points. -/
theorem C20_erase_keeps_exactly_the_others (ids : List Nat) (hn : ids.Nodup) (q : FacetsQuad K) (u : UnfQuad K)
    (hq : ∀ i ∈ ids, i < q.points.length) (hq' : q.points.length = q.weights.length)
    (hu : ∀ i ∈ ids, i < u.points.length) (hu' : u.points.length = u.weights.length)
    (hu'' : u.points.length = u.normals.length) :
    ((eraseFacet ids q).points = keepOthers ids q.points ∧ (eraseFacet ids q).weights = keepOthers ids q.weights ∧
      (eraseFacet ids q).nPts = q.nPts.dropLast ++ [q.nPts.getLastD 0 - ids.length] ∧
      (eraseFacet ids q).cells = q.cells ∧ (eraseFacet ids q).facets = q.facets) ∧
    ((eraseUnf ids u).points = keepOthers ids u.points ∧ (eraseUnf ids u).weights = keepOthers ids u.weights ∧
      (eraseUnf ids u).normals = keepOthers ids u.normals ∧
      (eraseUnf ids u).nPts = u.nPts.dropLast ++ [u.nPts.getLastD 0 - ids.length] ∧
      (eraseUnf ids u).cells = u.cells) := by
  refine ⟨⟨erasePoints_eq _ _ hn hq, erasePoints_eq _ _ hn (by rw [← hq']; exact hq), rfl, rfl, rfl⟩,
    ⟨erasePoints_eq _ _ hn hu, erasePoints_eq _ _ hn (by rw [← hu']; exact hu),
      erasePoints_eq _ _ hn (by rw [← hu'']; exact hu), rfl, rfl⟩⟩

/-- **C20**, purge of a facet rule. Purging after the rule `b` of a facet has been appended removes exactly the points
of `b` to be removed (see `FacetPointRemoved`), with their weights, and touches nothing appended before. -/
theorem C20_purge_facet (o : QOracle K) (g : Grid K) (d : Dom) (c f : Nat) (remUnf remCut : Bool) (pre : List (Node K))
    (nPts : List Int) (cells facets : List Nat) (b : List (Node K)) (dom : Box K) (hdom : g.cellDomain c = some dom)
    (isCut : Bool) (hcut : d.isCutFacet c f = some isCut) (q' : FacetsQuad K)
    (h : purgeFacet o g d c f remUnf true remCut ⟨cells, facets, nPts ++ [(b.length : Int)],
      pre.map (·.1) ++ b.map (·.1), pre.map (·.2) ++ b.map (·.2)⟩ = some q') :
    ∃ hasUnf, d.hasUnfFacet c f = some hasUnf ∧
      let kept := b.filter fun x => !decide (FacetPointRemoved o dom f hasUnf isCut remUnf remCut x.1)
      q' = ⟨cells, facets, nPts ++ [(kept.length : Int)], pre.map (·.1) ++ kept.map (·.1),
        pre.map (·.2) ++ kept.map (·.2)⟩ := by
  have hl : (pre.map fun x : Node K => x.1).length = (pre.map fun x : Node K => x.2).length := by simp
  generalize (pre.map fun x : Node K => x.1) = p at h hl ⊢
  generalize (pre.map fun x : Node K => x.2) = w at h hl ⊢
  obtain ⟨hasUnf, h1, h2⟩ := purgeFacet_spec o g d c f remUnf remCut ⟨cells, facets, nPts, p, w⟩ b hl dom hdom isCut
    hcut q' h
  exact ⟨hasUnf, h1, h2⟩

/-- **C20**, purge of an unfitted boundary rule on the facets `fs`. -/
theorem C20_purge_unfitted (o : QOracle K) (g : Grid K) (d : Dom) (c : Nat) (fs : List Nat) (pre b : List (UNode K))
    (nPts : List Int) (cells : List Nat) (dom : Box K) (hdom : g.cellDomain c = some dom) (q' : UnfQuad K)
    (h : purgeUnfLoop o g d c fs ⟨cells, nPts ++ [(b.length : Int)],
      pre.map (·.1) ++ b.map (·.1), pre.map (·.2.1) ++ b.map (·.2.1), pre.map (·.2.2) ++ b.map (·.2.2)⟩ = some q') :
    let kept := b.filter fun x => decide (∀ f ∈ fs, d.hasUnfFacet c f = some true → ¬ OnFacet o dom f x)
    q' = ⟨cells, nPts ++ [(kept.length : Int)], pre.map (·.1) ++ kept.map (·.1),
      pre.map (·.2.1) ++ kept.map (·.2.1), pre.map (·.2.2) ++ kept.map (·.2.2)⟩ := by
  have hl : (pre.map fun x : UNode K => x.1).length = (pre.map fun x : UNode K => x.2.1).length := by simp
  have hn : (pre.map fun x : UNode K => x.1).length = (pre.map fun x : UNode K => x.2.2).length := by simp
  generalize (pre.map fun x : UNode K => x.1) = p at h hl hn ⊢
  generalize (pre.map fun x : UNode K => x.2.1) = w at h hl ⊢
  generalize (pre.map fun x : UNode K => x.2.2) = m at h hn ⊢
  exact (purgeUnfLoop_spec o g d c dom hdom ⟨cells, nPts, p, w, m⟩ hl hn fs b q' h).1

end Qugar
