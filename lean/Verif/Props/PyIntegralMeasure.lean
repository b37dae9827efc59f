import Verif.Props.PyIntegral
import Verif.Props.Integrals
/-
C94: the functional that DOLFINx assembles over cells of an unfitted domain is the integral over the part of those cells inside of the
domain.
-/
namespace Qugar.Py.Integral

open Pack Assemble Quad Spec BoxMeasure Integrals
open MeasureTheory hiding integral

/-! ### Specification -/

/-- The points of the cells `vs` of the grid. -/
def cellsRegion (g : Grid ℝ) (vs : List Nat) : Set (Fin g.length → ℝ) := {x | ∃ v ∈ vs, x ∈ region g.length (boxOf g v)}

/-- The kernel generated by FFCx computes the integral of `F` in the cell `v`, whose coordinates and constants are `U` and whose coefficients
are `row`: with any points in the unit cube, it adds what the rule gives for `F` in the box of the cell; with its static data, the integral
of `F` in the cell up to an error of `δ` per unit of volume. -/
structure Computes {P : Type} (S : Scalars ℝ ℝ) (B : Tables.Basix P ℝ) (I : Kernel.Info) (tables : List (List (Tables.Table P)))
    (first : Kernel.Loop ℝ) (rest : List (Kernel.Loop ℝ)) (ratio : Nat) (g : Grid ℝ) (F : List ℝ → ℝ) (δ : ℝ) (row : List ℝ) (v : Nat)
    (U : Kernel.Values ℝ) : Prop where
  rule : ∀ nodes : List (UNode ℝ), (∀ x ∈ nodes, x.1.length = g.length ∧ InUnitCube x.1) → ∃ a,
    cellSum (atNode S B tables (coefOf S ratio row) U) I first.pre (fun _ => nodes) (first :: rest) = some a ∧
    a 0 = ruleSum (boxOf g v) (nodes.map fun x => x.1) (nodes.map fun x => x.2.1) F
  static : ∃ a, Kernel.run { U with input := fun a k => if a = 0 then (coefOf S ratio row k).getD (U.input 0 k) else U.input a k } I.tdim
      ((first :: rest).map (Kernel.skip I)) .empty [] 0 = some a ∧
    |a 0 - integralOver (region g.length (boxOf g v)) F| ≤ δ * boxVolume (boxOf g v)

/-- Entry `d` of the global tensor gets the entries of the element tensor numbered `d`. -/
def entry (dofs : List Nat) (a : Nat → ℝ) (d : Nat) : ℝ := ((dofs.zipIdx.filter fun p => p.1 == d).map fun p => a p.2).sum

/-- The same for element tensors: entry `d` of the global tensor gets the integral of `F d`. -/
structure ComputesTensor {P : Type} (S : Scalars ℝ ℝ) (B : Tables.Basix P ℝ) (I : Kernel.Info) (tables : List (List (Tables.Table P)))
    (first : Kernel.Loop ℝ) (rest : List (Kernel.Loop ℝ)) (ratio : Nat) (g : Grid ℝ) (F : Nat → List ℝ → ℝ) (δ : ℝ) (row : List ℝ) (v : Nat)
    (U : Kernel.Values ℝ) (dofs : List Nat) : Prop where
  rule : ∀ nodes : List (UNode ℝ), (∀ x ∈ nodes, x.1.length = g.length ∧ InUnitCube x.1) → ∃ a,
    cellSum (atNode S B tables (coefOf S ratio row) U) I first.pre (fun _ => nodes) (first :: rest) = some a ∧
    ∀ d, entry dofs a d = ruleSum (boxOf g v) (nodes.map fun x => x.1) (nodes.map fun x => x.2.1) (F d)
  static : ∃ a, Kernel.run { U with input := fun a k => if a = 0 then (coefOf S ratio row k).getD (U.input 0 k) else U.input a k } I.tdim
      ((first :: rest).map (Kernel.skip I)) .empty [] 0 = some a ∧
    ∀ d, |entry dofs a d - integralOver (region g.length (boxOf g v)) (F d)| ≤ δ * boxVolume (boxOf g v)

/-- The points that Algoim gives in the cells of the grid near the interface are in them. -/
structure PointsInside (oo : Oracles ℝ) (o : QOracle ℝ) (g : Grid ℝ) (n : Nat) : Prop where
  general : o.isBezier = false → ∀ c ∈ nearCells oo g, ∀ x ∈ o.volGen (boxOf g c) n, InClosedBox 0 (boxOf g c) x.1
  bezier : o.isBezier = true → ∀ c ∈ nearCells oo g, ∀ x ∈ o.volBzr (boxOf g c) n, InUnitCube x.1

/-! ### Proofs -/

theorem integral_some_cells (g : Grid ℝ) (hv : g.Valid) (S : Set (Fin g.length → ℝ)) (hS : MeasurableSet S) (F : List ℝ → ℝ)
    (hF : IntegrableOn (fun x => F (List.ofFn x)) (region g.length g.domain)) :
    ∀ vs : List Nat, vs.Nodup → (∀ v ∈ vs, v < g.numCells) →
      integralOver (S ∩ cellsRegion g vs) F = (vs.map fun c => integralOver (S ∩ region g.length (boxOf g c)) F).sum ∧
      MeasurableSet (cellsRegion g vs) ∧ cellsRegion g vs ⊆ region g.length g.domain := by
  intro vs
  induction vs with
  | nil =>
    intro _ _
    have e : cellsRegion g [] = ∅ := by ext x; simp [cellsRegion]
    rw [e]
    simp [integralOver]
  | cons v vs ih =>
    intro hnd hlt
    obtain ⟨hv1, hv2⟩ := List.nodup_cons.1 hnd
    obtain ⟨i1, i2, i3⟩ := ih hv2 fun w hw => hlt w (List.mem_cons_of_mem _ hw)
    obtain ⟨s1, s2, s3, s4⟩ := boxOf_spec g hv v (hlt v List.mem_cons_self)
    have e : cellsRegion g (v :: vs) = region g.length (boxOf g v) ∪ cellsRegion g vs := by
      ext x
      simp [cellsRegion]
    have hm := measurable_region (d := g.length) s2
    rw [e]
    refine ⟨?_, hm.union i2, Set.union_subset s4 i3⟩
    rw [List.map_cons, List.sum_cons, ← i1, Set.inter_union_distrib_left]
    unfold integralOver
    refine integral_union_ae ?_ (hS.inter i2).nullMeasurableSet (hF.mono_set (Set.inter_subset_right.trans s4))
      (hF.mono_set (Set.inter_subset_right.trans i3))
    refine AEDisjoint.mono ?_ Set.inter_subset_right Set.inter_subset_right
    have : cellsRegion g vs = ⋃ w : {w // w ∈ vs}, region g.length (boxOf g w.1) := by
      ext x
      simp [cellsRegion]
    rw [this, AEDisjoint.iUnion_right_iff]
    rintro ⟨w, hw⟩
    obtain ⟨a, b, h1, h2, h3⟩ := Grid.C07_cells_disjoint g hv v w (hlt v List.mem_cons_self) (hlt w (List.mem_cons_of_mem _ hw))
      (by rintro rfl; exact hv1 hw)
    have ea : boxOf g v = a := by rw [boxOf, h1]; rfl
    have eb : boxOf g w = b := by rw [boxOf, h2]; rfl
    exact aedisjoint s2 (boxOf_spec g hv w (hlt w (List.mem_cons_of_mem _ hw))).2.1 (by rw [ea, eb]; exact h3)

/-- The errors of some cells. -/
theorem some_error (oo : Oracles ℝ) (g : Grid ℝ) (hv : g.Valid) (phi : List ℝ → ℝ) (hO : MeasurableSet (inside g.length phi)) (F : List ℝ → ℝ)
    (hF : IntegrableOn (fun x => F (List.ofFn x)) (region g.length g.domain)) (B δ : ℝ) (r : Nat → ℝ) (vs : List Nat) (hnd : vs.Nodup)
    (hlt : ∀ v ∈ vs, v < g.numCells)
    (h : ∀ c ∈ vs, |r c - integralOver (inside g.length phi ∩ region g.length (boxOf g c)) F| ≤
      (if c ∈ nearCells oo g then B else 0) + δ * boxVolume (boxOf g c)) :
    |(vs.map r).sum - integralOver (inside g.length phi ∩ cellsRegion g vs) F| ≤
      (vs.filter fun v => decide (v ∈ nearCells oo g)).length * B + δ * (vs.map fun v => boxVolume (boxOf g v)).sum := by
  rw [(integral_some_cells g hv _ hO F hF vs hnd hlt).1]
  clear hnd hlt
  induction vs with
  | nil => simp
  | cons c l ih =>
    have i1 := h c List.mem_cons_self
    have i2 := ih fun c hc => h c (List.mem_cons_of_mem _ hc)
    simp only [List.map_cons, List.sum_cons, List.filter_cons, decide_eq_true_eq]
    rw [abs_le] at i1 i2 ⊢
    by_cases hc : c ∈ nearCells oo g
    · rw [if_pos hc] at i1 ⊢
      rw [List.length_cons]
      push_cast
      constructor <;> linarith [i1.1, i1.2, i2.1, i2.2]
    · rw [if_neg hc] at i1 ⊢
      constructor <;> linarith [i1.1, i1.2, i2.1, i2.2]

theorem points_of_rule {K : Type} [Field K] [LinearOrder K] {o : QOracle K} {g : Grid K} (hp : PointDims o g) {c n : Nat} {dom : Box K}
    (hc : g.cellDomain c = some dom) (hl : dom.length = g.length) : ∀ x ∈ cutCellRule o dom n, x.1.length = g.length := by
  intro x hx
  unfold cutCellRule at hx
  split at hx
  · obtain ⟨y, hy, rfl⟩ := List.mem_map.1 (List.mem_filter.1 hx).1
    simp [hp.volBzr c dom n hc y hy]
  · obtain ⟨y, hy, rfl⟩ := List.mem_map.1 hx
    simp [Box.scaleTo01, hp.volGen c dom n hc y hy, hl]

theorem scaled_inside : ∀ (b : List (ℝ × ℝ)) (p : List ℝ), (∀ iv ∈ b, iv.1 < iv.2) → InClosedBox 0 b p → InUnitCube (Box.scaleTo01 b p)
  | [], _, _, h => by cases h; simp [InUnitCube, Box.scaleTo01]
  | iv :: b, _, hlt, h => by
    obtain ⟨h1, h2⟩ | _ := h
    rename_i x p h1 h2
    have hiv := sub_pos.2 (hlt iv List.mem_cons_self)
    intro t ht
    simp only [Box.scaleTo01, List.zipWith_cons_cons, List.mem_cons] at ht
    rcases ht with rfl | ht
    · rw [le_div_iff₀ hiv, div_le_one hiv]
      constructor <;> linarith [h1.1, h1.2]
    · exact scaled_inside b p (fun iv hiv => hlt iv (List.mem_cons_of_mem _ hiv)) h2 t ht

/-- Cut cells are near the interface. -/
theorem cut_near {debug : Bool} {oo : Oracles ℝ} {g : Grid ℝ} (hv : g.Valid) (hne : g ≠ []) (hm : 0 ≤ oo.margin) {phi : List ℝ → ℝ}
    (hs : SoundSign phi oo.sign) {d : Dom} (h1 : build debug oo g none = .ok d) {c : Nat} (hc : c < g.numCells)
    (hst : HasStatus d.n d.tree c .cut) : c ∈ nearCells oo g := by
  obtain ⟨d', h1', hreach, hcells⟩ := C12_decomposition_sound debug oo g hv hne hm phi hs
  have : d = d' := by rw [h1] at h1'; simpa using h1'
  subst this
  obtain ⟨d', h1'', hn', _⟩ := build_summary debug oo g none hv hne (Or.inr rfl)
  have : d = d' := by rw [h1] at h1''; simpa using h1''
  subst this
  obtain ⟨d', hb1, hb2, -⟩ := build_facts debug oo g none hv hne (Or.inr rfl)
  have : d = d' := by rw [h1] at hb1; simpa using hb1
  subst this
  have hN : g.numCells = listProd g.numCellsDir := tsize_eq _
  have huniq {a b} (h : HasStatus d.n d.tree c a) (h' : HasStatus d.n d.tree c b) : a = b :=
    (Tree.WF.of_reachable hb2.shape.2 hb2.reach).1.hasStatus_unique h h'
  obtain ⟨s1, s2, s3, s4⟩ := boxOf_spec g hv c hc
  obtain ⟨b', hb', hunk, hcase⟩ := hcells c (by omega)
  rw [s1] at hb'
  obtain rfl := Option.some.inj hb'
  rw [← hn'] at hcase
  rcases hcase with ⟨q1, _, q2⟩ | ⟨q1, _, q2⟩ | ⟨q1, q2, _⟩
  · exact absurd (huniq q1 hst) (by decide)
  · exact absurd (huniq q1 hst) (by decide)
  · unfold nearCells
    rw [List.mem_filter]
    exact ⟨List.mem_range.2 hc, by simpa [Box.extendDelta] using q1⟩

theorem rule_inside {oo : Oracles ℝ} {o : QOracle ℝ} {g : Grid ℝ} (hv : g.Valid) {n c : Nat} (hp : PointsInside oo o g n) (hc : c ∈ nearCells oo g) :
    ∀ x ∈ cutCellRule o (boxOf g c) n, InUnitCube x.1 := by
  intro x hx
  unfold cutCellRule at hx
  split at hx
  · rename_i hb
    obtain ⟨y, hy, rfl⟩ := List.mem_map.1 (List.mem_filter.1 hx).1
    intro t ht
    exact hp.bezier hb c hc y hy t (by simpa using ht)
  · rename_i hb
    obtain ⟨y, hy, rfl⟩ := List.mem_map.1 hx
    exact scaled_inside _ _ (boxOf_spec g hv c (List.mem_range.1 (List.mem_filter.1 hc).1)).2.2.1 (hp.general (by simpa using hb) c hc y hy)

/-- What a cell has to add, and the errors of its parts. -/
theorem cell_adds {P : Type} {B : Tables.Basix P ℝ} {I : Kernel.Info} {tables : List (List (Tables.Table P))}
    {first : Kernel.Loop ℝ} {rest : List (Kernel.Loop ℝ)} {q : QDomain ℝ} {nRows : Nat} {types : Types} {cols : Nat} {old : List (List ℝ)}
    {domain : List Nat} {sp : QuadSpec} (S : Scalars ℝ ℝ)
    (G : Good B I tables first rest q nRows types cols old domain [sp]) (hsp : sp.boundary = false)
    (debug : Bool) (oo : Oracles ℝ) (hd : build debug oo q.grid none = .ok q.u.dom) (hm : 0 ≤ oo.margin)
    (phi : List ℝ → ℝ) (hsound : SoundSign phi oo.sign) (hO : MeasurableSet (inside q.grid.length phi))
    (F : Nat → List ℝ → ℝ) (hF : ∀ k, IntegrableOn (fun x => F k (List.ofFn x)) (region q.grid.length q.grid.domain)) (M : ℝ) (hM0 : 0 ≤ M)
    (hM : ∀ k, ∀ x ∈ region q.grid.length q.grid.domain, |F k (List.ofFn x)| ≤ M) (κ η δ : ℝ) (hκ : 0 ≤ κ) (hδ : 0 ≤ δ)
    (hA : ∀ k, Accurate oo q.oracle q.grid phi (F k) (UDomain.numGaussPoints sp.degree) κ η)
    (hin : PointsInside oo q.oracle q.grid (UDomain.numGaussPoints sp.degree))
    {e c v : Nat} {row : List ℝ} (hec : domain[e]? = some c) (hcv : q.u.mesh.OrigCell c v) (hrow : old[e]? = some row)
    (U : Kernel.Values ℝ) (L : Nat → (Nat → ℝ) → ℝ) (hL : ∀ k, L k 0 = 0)
    (hrule : ∀ nodes : List (UNode ℝ), (∀ x ∈ nodes, x.1.length = q.grid.length ∧ InUnitCube x.1) → ∃ a,
      cellSum (atNode S B tables (coefOf S types.ratio row) U) I first.pre (fun _ => nodes) (first :: rest) = some a ∧
      ∀ k, L k a = ruleSum (boxOf q.grid v) (nodes.map fun x => x.1) (nodes.map fun x => x.2.1) (F k))
    (hstatic : ∃ a, Kernel.run { U with input := fun a k => if a = 0 then (coefOf S types.ratio row k).getD (U.input 0 k) else U.input a k } I.tdim
        ((first :: rest).map (Kernel.skip I)) .empty [] 0 = some a ∧
      ∀ k, |L k a - integralOver (region q.grid.length (boxOf q.grid v)) (F k)| ≤ δ * boxVolume (boxOf q.grid v)) :
    ∃ δe : Nat → ℝ, Adds S B I tables first rest q [sp] types.ratio row v U δe ∧
      ∀ k, |L k δe - integralOver (inside q.grid.length phi ∩ region q.grid.length (boxOf q.grid v)) (F k)| ≤
        (if v ∈ nearCells oo q.grid then max η (M * κ) else 0) + δ * boxVolume (boxOf q.grid v) := by
  have hv := G.built.valid
  have hdim := G.built.dim
  have hne : q.grid ≠ [] := by intro h; rw [h] at hdim; simp at hdim
  have hlt := G.built.cells c v hcv
  obtain ⟨d, h17, _, _, _, _, hcut, _⟩ := C17_full_cells_with_unfitted_boundary debug oo q.grid none hv hne (Or.inr rfl)
  have : q.u.dom = d := by rw [hd] at h17; simpa using h17
  subst this
  obtain ⟨s1, s2, s3, s4⟩ := boxOf_spec q.grid hv v hlt
  have hu {a b} := hasStatus_unique (v := v) (a := a) (b := b) G.mesh
  have hpts := points_of_rule G.points (n := UDomain.numGaussPoints sp.degree) s1 s2
  have hrule' : HasStatus q.u.dom.n q.u.dom.tree v .cut → ∃ a,
      cellSum (atNode S B tables (coefOf S types.ratio row) U) I first.pre
        (fun _ => (cutCellRule q.oracle (boxOf q.grid v) (UDomain.numGaussPoints sp.degree)).map fun x => (x.1, x.2, [])) (first :: rest) = some a ∧
      ∀ k, L k a = ruleSum (boxOf q.grid v)
        (((cutCellRule q.oracle (boxOf q.grid v) (UDomain.numGaussPoints sp.degree)).map fun x => ((x.1, x.2, []) : UNode ℝ)).map fun x => x.1)
        (((cutCellRule q.oracle (boxOf q.grid v) (UDomain.numGaussPoints sp.degree)).map fun x => ((x.1, x.2, []) : UNode ℝ)).map fun x => x.2.1)
        (F k) := by
    intro hst
    have hnear := cut_near hv hne hm hsound hd hlt hst
    refine hrule _ ?_
    intro x hx
    obtain ⟨y, hy, rfl⟩ := List.mem_map.1 hx
    exact ⟨hpts y hy, rule_inside hv hin hnear y hy⟩
  obtain ⟨a2, c1, c2⟩ := hstatic
  have hgoal : ∀ δe : Nat → ℝ, (HasStatus q.u.dom.n q.u.dom.tree v .cut → ∀ a1,
      cellSum (atNode S B tables (coefOf S types.ratio row) U) I first.pre
        (fun _ => (cutCellRule q.oracle (boxOf q.grid v) (UDomain.numGaussPoints sp.degree)).map fun x => (x.1, x.2, [])) (first :: rest) = some a1 → δe = a1) →
      (HasStatus q.u.dom.n q.u.dom.tree v .empty → δe = 0) →
      (¬ HasStatus q.u.dom.n q.u.dom.tree v .cut → ¬ HasStatus q.u.dom.n q.u.dom.tree v .empty → δe = a2) →
      Adds S B I tables first rest q [sp] types.ratio row v U δe ∧
      ∀ k, |L k δe - integralOver (inside q.grid.length phi ∩ region q.grid.length (boxOf q.grid v)) (F k)| ≤
          (if v ∈ nearCells oo q.grid then max η (M * κ) else 0) + δ * boxVolume (boxOf q.grid v) := by
    intro δe d1 d2 d3
    refine ⟨⟨?_, d2, ?_⟩, fun k => ?_⟩
    · intro hst
      obtain ⟨a1, b1, b2⟩ := hrule' hst
      refine ⟨_, ?_, by rw [d1 hst a1 b1]; exact b1⟩
      intro m n s _ hs'
      rcases m with _ | m
      · obtain rfl : sp = s := by simpa using hs'
        unfold IsRule
        rw [hsp, if_neg (by simp)]
        exact ⟨_, .inl ⟨(hcut _).2 hst, _, s1, rfl⟩, rfl⟩
      · simp at hs'
    · intro g1 g2
      rw [d3 g1 g2]
      exact c1
    · refine cell_error debug oo q.grid hv hne hm phi hsound hO (F k) (hF k) M hM0 (hM k) q.oracle (UDomain.numGaussPoints sp.degree) κ η δ hκ hδ
        (hA k) hd hlt ?_ ?_ ?_
      · intro hst
        obtain ⟨a1, b1, b2⟩ := hrule' hst
        rw [d1 hst a1 b1, b2, List.map_map, List.map_map]
        exact ruleSum_cut q.oracle _ s3 _ (F k) (fun _ x hx => by rw [s2]; exact G.points.volGen _ _ _ s1 x hx)
      · intro hst
        rw [d3 (fun h => absurd (hu h hst) (by decide)) (fun h => absurd (hu h hst) (by decide))]
        exact c2 k
      · intro hst
        rw [d2 hst]
        exact hL k
  by_cases g1 : HasStatus q.u.dom.n q.u.dom.tree v .cut
  · obtain ⟨a1, b1, b2⟩ := hrule' g1
    exact ⟨a1, hgoal a1 (fun _ a h => Option.some.inj (b1.symm.trans h)) (fun h => absurd (hu h g1) (by decide)) (fun h => absurd g1 h)⟩
  · by_cases g2 : HasStatus q.u.dom.n q.u.dom.tree v .empty
    · exact ⟨0, hgoal 0 (fun h => absurd h g1) (fun _ => rfl) (fun _ h => absurd g2 h)⟩
    · exact ⟨a2, hgoal a2 (fun h => absurd h g1) (fun h => absurd h g2) (fun _ _ => rfl)⟩

theorem orig_of {q : QDomain ℝ} {domain vs : List Nat} (hvs : List.Forall₂ q.u.mesh.OrigCell domain vs) {e v : Nat} (he : vs[e]? = some v) :
    ∃ c, domain[e]? = some c ∧ q.u.mesh.OrigCell c v := by
  obtain ⟨hel, rfl⟩ := List.getElem?_eq_some_iff.1 he
  have hel' : e < domain.length := by rw [hvs.length_eq]; exact hel
  exact ⟨domain[e], List.getElem?_eq_getElem hel', hvs.get hel' hel⟩

/-- Sums over the positions of the cells. -/
theorem sum_positions {n : Nat} {vs : List Nat} (hlen : n = vs.length) (hnd : vs.Nodup) (f : Nat → ℝ) :
    ((List.range n).map f).sum = (vs.map fun v => f (vs.idxOf v)).sum := by
  congr 1
  apply List.ext_getElem
  · simp [hlen]
  · intro k k1 k2
    simp only [List.getElem_map, List.getElem_range]
    rw [hnd.idxOf_getElem k (by simpa using k2)]

/-- **C94**. The functional assembled by DOLFINx with the generated functions over cells of the mesh: it succeeds, whatever was asked of the
domain, of the C++ library and of the thread before, and adds the integral of `F` over the part of those cells where the level set function
is negative. The error is at most `δ` per unit of volume (the kernel of FFCx in full cells) plus, for each of those cells near the interface,
the greatest of the errors of Algoim's rule and of the classification. -/
theorem C94_functional {P : Type} [DecidableEq P] {B : Tables.Basix P ℝ} {I : Kernel.Info} {tables : List (List (Tables.Table P))}
    {first : Kernel.Loop ℝ} {rest : List (Kernel.Loop ℝ)} {q : QDomain ℝ} {nRows : Nat} {types : Types} {cols : Nat} {old : List (List ℝ)}
    {domain : List Nat} {sp : QuadSpec} {argsort : List Int → List Nat} (hs : ∀ l, IsArgsort l (argsort l))
    (toNat : ℝ → Nat) (hn : ∀ n : Nat, toNat (n : ℝ) = n) (S : Scalars ℝ ℝ)
    (G : Good B I tables first rest q nRows types cols old domain [sp]) (hsp : sp.boundary = false)
    (debug : Bool) (oo : Oracles ℝ) (hd : build debug oo q.grid none = .ok q.u.dom) (hm : 0 ≤ oo.margin)
    (phi : List ℝ → ℝ) (hsound : SoundSign phi oo.sign) (hO : MeasurableSet (inside q.grid.length phi))
    (F : List ℝ → ℝ) (hF : IntegrableOn (fun x => F (List.ofFn x)) (region q.grid.length q.grid.domain)) (M : ℝ) (hM0 : 0 ≤ M)
    (hM : ∀ x ∈ region q.grid.length q.grid.domain, |F (List.ofFn x)| ≤ M) (κ η δ : ℝ) (hκ : 0 ≤ κ) (hδ : 0 ≤ δ)
    (hA : Accurate oo q.oracle q.grid phi F (UDomain.numGaussPoints sp.degree) κ η)
    (hin : PointsInside oo q.oracle q.grid (UDomain.numGaussPoints sp.degree))
    (vs : List Nat) (hvs : List.Forall₂ q.u.mesh.OrigCell domain vs) (hnd : vs.Nodup) (U : Nat → Kernel.Values ℝ)
    (hU : ∀ (e v : Nat) row, vs[e]? = some v → old[e]? = some row →
      Computes S B I tables first rest types.ratio q.grid F δ row v (U e))
    {s : UDomain.Caches} (hk : UDomain.CellCachesOk argsort q.u s) {ch : Cache ℝ} (hr : Reached q ch) {st : Tables.State P ℝ}
    (hst : Tables.Reachable B st) (A : Nat → ℝ) :
    ∃ s' ch' i mem st' A', cellInput argsort q types cols old domain [sp] s ch = some ((s', ch'), i) ∧ pack i = some mem ∧
      assembleScalar (⟨toNat, S, B, I, false, tables, first :: rest, types, cols, mem⟩ : Job P ℝ ℝ)
        ((List.range domain.length).map fun e => (i.rowPos e, U e)) st A = some (st', A') ∧
      |A' 0 - (A 0 + integralOver (inside q.grid.length phi ∩ cellsRegion q.grid vs) F)| ≤
        (vs.filter fun v => decide (v ∈ nearCells oo q.grid)).length * max η (M * κ) +
          δ * (vs.map fun v => boxVolume (boxOf q.grid v)).sum := by
  obtain ⟨s', ch', i, mem, h1, h2, -, -⟩ := C90_total hs toNat hn G hk hr
  have hlen := hvs.length_eq
  have hlt : ∀ v ∈ vs, v < q.grid.numCells := by
    intro v hv
    obtain ⟨e, he, rfl⟩ := List.mem_iff_getElem.1 hv
    obtain ⟨c, -, h⟩ := orig_of hvs (List.getElem?_eq_getElem he)
    exact G.built.cells c _ h
  have hcell : ∀ e, ∃ δe : Nat → ℝ, e < vs.length → ∃ c v row, domain[e]? = some c ∧ vs[e]? = some v ∧ q.u.mesh.OrigCell c v ∧
      old[e]? = some row ∧ Adds S B I tables first rest q [sp] types.ratio row v (U e) δe ∧
      |δe 0 - integralOver (inside q.grid.length phi ∩ region q.grid.length (boxOf q.grid v)) F| ≤
        (if v ∈ nearCells oo q.grid then max η (M * κ) else 0) + δ * boxVolume (boxOf q.grid v) := by
    intro e
    by_cases he : e < vs.length
    swap
    · exact ⟨0, fun h => absurd h he⟩
    have hev := List.getElem?_eq_getElem he
    obtain ⟨c, hec, hcv⟩ := orig_of hvs hev
    have heo : e < old.length := by rw [G.rows, hlen]; exact he
    have hrow := List.getElem?_eq_getElem heo
    have hC := hU e _ _ hev hrow
    obtain ⟨δe, a1, a2⟩ := cell_adds S G hsp debug oo hd hm phi hsound hO (fun _ => F) (fun _ => hF) M hM0 (fun _ => hM) κ η δ hκ hδ
      (fun _ => hA) hin hec hcv hrow (U e) (fun _ a => a 0) (fun _ => rfl)
      (fun nodes hn => by
        obtain ⟨a, b1, b2⟩ := hC.rule nodes hn
        exact ⟨a, b1, fun _ => b2⟩)
      (by
        obtain ⟨a, b1, b2⟩ := hC.static
        exact ⟨a, b1, fun _ => b2⟩)
    exact ⟨δe, fun _ => ⟨c, _, _, hec, hev, hcv, hrow, a1, a2 0⟩⟩
  choose δs hδs using hcell
  obtain ⟨st', e1, -⟩ := C90_scalar_partial hs toNat hn S G hk hr h1 h2 U δs (by
    intro e he
    obtain ⟨c, v, row, a1, -, a2, a3, a4, -⟩ := hδs e (by omega)
    exact ⟨c, v, row, a1, a2, a3, a4⟩) hst A
  refine ⟨s', ch', i, mem, st', _, h1, h2, e1, ?_⟩
  have hsum : (A + ((List.range domain.length).map δs).sum) 0 = A 0 + (vs.map fun v => δs (vs.idxOf v) 0).sum := by
    rw [Pi.add_apply]
    congr 1
    have key : ∀ l : List Nat, ((l.map δs).sum : Nat → ℝ) 0 = (l.map fun e => δs e 0).sum := by
      intro l
      induction l with
      | nil => rfl
      | cons e l ih => rw [List.map_cons, List.sum_cons, List.map_cons, List.sum_cons, Pi.add_apply, ih]
    rw [key, sum_positions hlen hnd]
  rw [hsum, add_sub_add_left_eq_sub]
  refine some_error oo q.grid G.built.valid phi hO F hF _ δ _ vs hnd hlt ?_
  intro v hv
  have hidx := List.idxOf_lt_length_iff.2 hv
  obtain ⟨c, v', row, -, a1, -, -, -, a2⟩ := hδs (vs.idxOf v) hidx
  have : vs[vs.idxOf v]? = some v := by rw [List.getElem?_eq_getElem hidx, List.getElem_idxOf hidx]
  rw [this] at a1
  obtain rfl := Option.some.inj a1
  exact a2

/-- **C94** (vectors and matrices): entry `d` of the global tensor gets the integral of `F d` over the part of the cells where the level set
function is negative, for all the entries. `dofs e` has the numbers of the entries of the element tensor of the cell. -/
theorem C94_tensor {P : Type} [DecidableEq P] {B : Tables.Basix P ℝ} {I : Kernel.Info} {tables : List (List (Tables.Table P))}
    {first : Kernel.Loop ℝ} {rest : List (Kernel.Loop ℝ)} {q : QDomain ℝ} {nRows : Nat} {types : Types} {cols : Nat} {old : List (List ℝ)}
    {domain : List Nat} {sp : QuadSpec} {argsort : List Int → List Nat} (hs : ∀ l, IsArgsort l (argsort l))
    (toNat : ℝ → Nat) (hn : ∀ n : Nat, toNat (n : ℝ) = n) (S : Scalars ℝ ℝ)
    (G : Good B I tables first rest q nRows types cols old domain [sp]) (hsp : sp.boundary = false)
    (debug : Bool) (oo : Oracles ℝ) (hd : build debug oo q.grid none = .ok q.u.dom) (hm : 0 ≤ oo.margin)
    (phi : List ℝ → ℝ) (hsound : SoundSign phi oo.sign) (hO : MeasurableSet (inside q.grid.length phi))
    (F : Nat → List ℝ → ℝ) (hF : ∀ d, IntegrableOn (fun x => F d (List.ofFn x)) (region q.grid.length q.grid.domain)) (M : ℝ) (hM0 : 0 ≤ M)
    (hM : ∀ d, ∀ x ∈ region q.grid.length q.grid.domain, |F d (List.ofFn x)| ≤ M) (κ η δ : ℝ) (hκ : 0 ≤ κ) (hδ : 0 ≤ δ)
    (hA : ∀ d, Accurate oo q.oracle q.grid phi (F d) (UDomain.numGaussPoints sp.degree) κ η)
    (hin : PointsInside oo q.oracle q.grid (UDomain.numGaussPoints sp.degree))
    (vs : List Nat) (hvs : List.Forall₂ q.u.mesh.OrigCell domain vs) (hnd : vs.Nodup) (U : Nat → Kernel.Values ℝ)
    (dofs : Nat → List Nat) (hU : ∀ (e v : Nat) row, vs[e]? = some v → old[e]? = some row →
      ComputesTensor S B I tables first rest types.ratio q.grid F δ row v (U e) (dofs e))
    {s : UDomain.Caches} (hk : UDomain.CellCachesOk argsort q.u s) {ch : Cache ℝ} (hr : Reached q ch) {st : Tables.State P ℝ}
    (hst : Tables.Reachable B st) (b : Nat → ℝ) :
    ∃ s' ch' i mem st' b', cellInput argsort q types cols old domain [sp] s ch = some ((s', ch'), i) ∧ pack i = some mem ∧
      assembleVector (⟨toNat, S, B, I, false, tables, first :: rest, types, cols, mem⟩ : Job P ℝ ℝ)
        ((List.range domain.length).map fun e => (i.rowPos e, U e, dofs e)) st b = some (st', b') ∧
      ∀ d, |b' d - (b d + integralOver (inside q.grid.length phi ∩ cellsRegion q.grid vs) (F d))| ≤
        (vs.filter fun v => decide (v ∈ nearCells oo q.grid)).length * max η (M * κ) +
          δ * (vs.map fun v => boxVolume (boxOf q.grid v)).sum := by
  obtain ⟨s', ch', i, mem, h1, h2, -, -⟩ := C90_total hs toNat hn G hk hr
  have hlen := hvs.length_eq
  have hlt : ∀ v ∈ vs, v < q.grid.numCells := by
    intro v hv
    obtain ⟨e, he, rfl⟩ := List.mem_iff_getElem.1 hv
    obtain ⟨c, -, h⟩ := orig_of hvs (List.getElem?_eq_getElem he)
    exact G.built.cells c _ h
  have hcell : ∀ e, ∃ δe : Nat → ℝ, e < vs.length → ∃ c v row, domain[e]? = some c ∧ vs[e]? = some v ∧ q.u.mesh.OrigCell c v ∧
      old[e]? = some row ∧ Adds S B I tables first rest q [sp] types.ratio row v (U e) δe ∧
      ∀ d, |entry (dofs e) δe d - integralOver (inside q.grid.length phi ∩ region q.grid.length (boxOf q.grid v)) (F d)| ≤
        (if v ∈ nearCells oo q.grid then max η (M * κ) else 0) + δ * boxVolume (boxOf q.grid v) := by
    intro e
    by_cases he : e < vs.length
    swap
    · exact ⟨0, fun h => absurd h he⟩
    have hev := List.getElem?_eq_getElem he
    obtain ⟨c, hec, hcv⟩ := orig_of hvs hev
    have heo : e < old.length := by rw [G.rows, hlen]; exact he
    have hrow := List.getElem?_eq_getElem heo
    have hC := hU e _ _ hev hrow
    obtain ⟨δe, a1, a2⟩ := cell_adds S G hsp debug oo hd hm phi hsound hO F hF M hM0 hM κ η δ hκ hδ hA hin hec hcv hrow (U e)
      (fun d a => entry (dofs e) a d) (fun d => by simp [entry]) hC.rule hC.static
    exact ⟨δe, fun _ => ⟨c, _, _, hec, hev, hcv, hrow, a1, a2⟩⟩
  choose δs hδs using hcell
  obtain ⟨st', b', e1, -, e2⟩ := C90_vector_partial hs toNat hn S G hk hr h1 h2 U dofs δs (by
    intro e he
    obtain ⟨c, v, row, a1, -, a2, a3, a4, -⟩ := hδs e (by omega)
    exact ⟨c, v, row, a1, a2, a3, a4⟩) hst b
  refine ⟨s', ch', i, mem, st', b', h1, h2, e1, fun d => ?_⟩
  rw [e2 d, add_sub_add_left_eq_sub]
  have := sum_positions hlen hnd fun e => entry (dofs e) (δs e) d
  unfold entry at this
  rw [this]
  refine some_error oo q.grid G.built.valid phi hO (F d) (hF d) _ δ _ vs hnd hlt ?_
  intro v hv
  have hidx := List.idxOf_lt_length_iff.2 hv
  obtain ⟨c, v', row, -, a1, -, -, -, a2⟩ := hδs (vs.idxOf v) hidx
  have : vs[vs.idxOf v]? = some v := by rw [List.getElem?_eq_getElem hidx, List.getElem_idxOf hidx]
  rw [this] at a1
  obtain rfl := Option.some.inj a1
  exact a2 d

theorem near_count (oo : Oracles ℝ) (g : Grid ℝ) {vs : List Nat} (hall : vs.Perm (List.range g.numCells)) :
    (vs.filter fun v => decide (v ∈ nearCells oo g)).length = (nearCells oo g).length := by
  rw [(hall.filter _).length_eq]
  congr 1
  unfold nearCells
  apply List.filter_congr
  intro v hv
  simp only [List.mem_filter, hv, true_and, decide_eq_decide, Bool.decide_eq_true]

/-- **C94** (all the cells): when the cells of the integral are all the cells of the grid, in any order, the functional is the integral
over the part of the domain of the grid where the level set function is negative. -/
theorem C94_whole {P : Type} [DecidableEq P] {B : Tables.Basix P ℝ} {I : Kernel.Info} {tables : List (List (Tables.Table P))}
    {first : Kernel.Loop ℝ} {rest : List (Kernel.Loop ℝ)} {q : QDomain ℝ} {nRows : Nat} {types : Types} {cols : Nat} {old : List (List ℝ)}
    {domain : List Nat} {sp : QuadSpec} {argsort : List Int → List Nat} (hs : ∀ l, IsArgsort l (argsort l))
    (toNat : ℝ → Nat) (hn : ∀ n : Nat, toNat (n : ℝ) = n) (S : Scalars ℝ ℝ)
    (G : Good B I tables first rest q nRows types cols old domain [sp]) (hsp : sp.boundary = false)
    (debug : Bool) (oo : Oracles ℝ) (hd : build debug oo q.grid none = .ok q.u.dom) (hm : 0 ≤ oo.margin)
    (phi : List ℝ → ℝ) (hsound : SoundSign phi oo.sign) (hO : MeasurableSet (inside q.grid.length phi))
    (F : List ℝ → ℝ) (hF : IntegrableOn (fun x => F (List.ofFn x)) (region q.grid.length q.grid.domain)) (M : ℝ) (hM0 : 0 ≤ M)
    (hM : ∀ x ∈ region q.grid.length q.grid.domain, |F (List.ofFn x)| ≤ M) (κ η δ : ℝ) (hκ : 0 ≤ κ) (hδ : 0 ≤ δ)
    (hA : Accurate oo q.oracle q.grid phi F (UDomain.numGaussPoints sp.degree) κ η)
    (hin : PointsInside oo q.oracle q.grid (UDomain.numGaussPoints sp.degree))
    (vs : List Nat) (hvs : List.Forall₂ q.u.mesh.OrigCell domain vs) (hall : vs.Perm (List.range q.grid.numCells)) (U : Nat → Kernel.Values ℝ)
    (hU : ∀ (e v : Nat) row, vs[e]? = some v → old[e]? = some row →
      Computes S B I tables first rest types.ratio q.grid F δ row v (U e))
    {s : UDomain.Caches} (hk : UDomain.CellCachesOk argsort q.u s) {ch : Cache ℝ} (hr : Reached q ch) {st : Tables.State P ℝ}
    (hst : Tables.Reachable B st) (A : Nat → ℝ) :
    ∃ s' ch' i mem st' A', cellInput argsort q types cols old domain [sp] s ch = some ((s', ch'), i) ∧ pack i = some mem ∧
      assembleScalar (⟨toNat, S, B, I, false, tables, first :: rest, types, cols, mem⟩ : Job P ℝ ℝ)
        ((List.range domain.length).map fun e => (i.rowPos e, U e)) st A = some (st', A') ∧
      |A' 0 - (A 0 + integralOver (inside q.grid.length phi ∩ region q.grid.length q.grid.domain) F)| ≤
        (nearCells oo q.grid).length * max η (M * κ) + δ * boxVolume q.grid.domain := by
  obtain ⟨s', ch', i, mem, st', A', h1, h2, h3, h4⟩ := C94_functional hs toNat hn S G hsp debug oo hd hm phi hsound hO F hF M hM0 hM κ η δ hκ hδ hA hin
    vs hvs (hall.nodup_iff.2 List.nodup_range) U hU hk hr hst A
  refine ⟨s', ch', i, mem, st', A', h1, h2, h3, ?_⟩
  have e1 : cellsRegion q.grid vs = region q.grid.length q.grid.domain := by
    rw [region_domain q.grid G.built.valid]
    ext x
    simp only [cellsRegion, Set.mem_setOf_eq, Set.mem_iUnion]
    constructor
    · rintro ⟨v, hv, hx⟩
      exact ⟨⟨v, List.mem_range.1 (hall.mem_iff.1 hv)⟩, hx⟩
    · rintro ⟨v, hx⟩
      exact ⟨v.1, hall.mem_iff.2 (List.mem_range.2 v.2), hx⟩
  have e2 : (vs.map fun v => boxVolume (boxOf q.grid v)).sum = boxVolume q.grid.domain := by
    rw [(hall.map _).sum_eq, sum_volumes]
  have e3 := near_count oo q.grid hall
  rw [e1, e2, e3] at h4
  exact h4

/-- **C94** (processes): when the cells of the grid are shared among processes, each cell of one, the sum of the functionals of the processes
is the integral, with the same error. -/
theorem C94_processes (oo : Oracles ℝ) (g : Grid ℝ) (hv : g.Valid) (phi : List ℝ → ℝ) (hO : MeasurableSet (inside g.length phi))
    (F : List ℝ → ℝ) (hF : IntegrableOn (fun x => F (List.ofFn x)) (region g.length g.domain)) (B δ : ℝ) (parts : List (List Nat × ℝ))
    (hall : (parts.flatMap fun p => p.1).Perm (List.range g.numCells))
    (h : ∀ p ∈ parts, |p.2 - integralOver (inside g.length phi ∩ cellsRegion g p.1) F| ≤
      (p.1.filter fun v => decide (v ∈ nearCells oo g)).length * B + δ * (p.1.map fun v => boxVolume (boxOf g v)).sum) :
    |(parts.map fun p => p.2).sum - integralOver (inside g.length phi ∩ region g.length g.domain) F| ≤
      (nearCells oo g).length * B + δ * boxVolume g.domain := by
  rw [integral_cells g hv _ hO F hF, ← (hall.map _).sum_eq, ← near_count oo g hall, ← sum_volumes, ← (hall.map _).sum_eq]
  have hnd : (parts.flatMap fun p => p.1).Nodup := hall.nodup_iff.2 List.nodup_range
  have hlt : ∀ v ∈ parts.flatMap fun p => p.1, v < g.numCells := fun v hv => List.mem_range.1 (hall.mem_iff.1 hv)
  clear hall
  induction parts with
  | nil => simp
  | cons p parts ih =>
    rw [List.flatMap_cons] at hnd hlt
    have i1 := h p List.mem_cons_self
    have i2 := ih (fun p hp => h p (List.mem_cons_of_mem _ hp)) (List.nodup_append.1 hnd).2.1
      fun v hv => hlt v (List.mem_append_right _ hv)
    rw [(integral_some_cells g hv _ hO F hF p.1 (List.nodup_append.1 hnd).1 fun v hv => hlt v (List.mem_append_left _ hv)).1] at i1
    simp only [List.flatMap_cons, List.map_cons, List.sum_cons, List.map_append, List.sum_append, List.filter_append, List.length_append]
    push_cast
    rw [abs_le] at i1 i2 ⊢
    constructor <;> linarith [i1.1, i1.2, i2.1, i2.2]

end Qugar.Py.Integral
