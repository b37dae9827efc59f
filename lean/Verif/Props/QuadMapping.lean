import Verif.Props.QuadRules
/-
Property theorem C24: mapping rules to the reference cell.
-/
namespace Qugar
open Spec
variable {K : Type} [Field K] [LinearOrder K] [IsStrictOrderedRing K]

/-- Proper boxes have positive volume. -/
theorem volume_pos (b : Box K) (hb : ∀ iv ∈ b, iv.1 < iv.2) : 0 < b.volume := by
  rw [volume_prod]
  apply List.prod_pos
  intro x hx
  obtain ⟨iv, h, rfl⟩ := List.mem_map.1 hx
  have := hb iv h
  linarith

/-- A rule on the box `dom` and its image in the unit cube assign the same values, up to the volume of the box. -/
def SameIntegrals (dom : List (K × K)) (cellNodes : List (Node K)) (unitNodes : List (Node K)) : Prop :=
  unitNodes.length = cellNodes.length ∧
  (∀ i (h : i < cellNodes.length) (h' : i < unitNodes.length),
    Box.scaleFrom01 dom unitNodes[i].1 = cellNodes[i].1 ∧
    unitNodes[i].2 * (dom.map fun iv => iv.2 - iv.1).prod = cellNodes[i].2) ∧
  ∀ F : List K → K,
    (unitNodes.map fun x => x.2 * F (Box.scaleFrom01 dom x.1)).sum * (dom.map fun iv => iv.2 - iv.1).prod =
      (cellNodes.map fun x => x.2 * F x.1).sum

theorem sameIntegrals_map (dom : Box K) (hb : ∀ iv ∈ dom, iv.1 < iv.2) (l : List (Node K))
    (hl : ∀ x ∈ l, x.1.length = dom.length) :
    SameIntegrals dom l (l.map fun x => (dom.scaleTo01 x.1, x.2 / dom.volume)) := by
  have hv := volume_pos dom hb
  refine ⟨by simp, ?_, ?_⟩
  · intro i h h'
    simp only [List.getElem_map]
    refine ⟨(Box.C25_scale_roundtrip dom hb _ (hl _ (List.getElem_mem h))).1, ?_⟩
    rw [← volume_prod]
    field_simp
  · intro F
    rw [List.map_map, ← List.sum_map_mul_right]
    congr 1
    apply List.map_congr_left
    intro x hx
    simp only [Function.comp]
    rw [(Box.C25_scale_roundtrip dom hb _ (hl x hx)).1, ← volume_prod]
    field_simp

/-- **C24**, cells. Requesting the rule of a cut cell (general implicit functions) returns the points that Algoim
generates in the cell at the same relative position in the unit cube, with weights divided by the volume of the cell:
integrals of every function agree up to that factor; in particular (`F = 1`) the weights add up to measure / volume. -/
theorem C24_cell_rule (debug : Bool) (t : QuadType K) (history : List (QuadCall K))
    (hd : ∀ c ∈ history, c.dim = 2 ∨ c.dim = 3) (ch ch' : Cache K)
    (hr : QuadCall.execAll debug t history Cache.init = some ch) (o : QOracle K) (ho : o.isBezier = false) (g : Grid K)
    (hg : g.length = 2 ∨ g.length = 3) (d : Dom) (c n : Nat) (hc : d.isCutCell c = some true)
    (dom : Box K) (hdom : g.cellDomain c = some dom) (hb : ∀ iv ∈ dom, iv.1 < iv.2)
    (hl : ∀ x ∈ o.volGen dom n, x.1.length = dom.length) (q : CellsQuad K)
    (h : createQuadrature t o g d [c] n ch = some (ch', q)) :
    ∃ nodes, q.points = nodes.map (·.1) ∧ q.weights = nodes.map (·.2) ∧ SameIntegrals dom (o.volGen dom n) nodes := by
  obtain ⟨_, _, _, _, blocks, h1, h2, h3, h4⟩ := C18_cell_quadrature debug t history hd ch ch' hr o g hg d [c] n q h
  cases h1 with
  | @cons _ b _ bs hb' hbs =>
    cases hbs
    refine ⟨b, by simpa using h3, by simpa using h4, ?_⟩
    rcases hb' with ⟨_, dom', k1, k2⟩ | ⟨k, _⟩ | ⟨k, _⟩
    · rw [hdom] at k1
      injection k1 with k1
      subst k1
      rw [k2, cutCellRule, ho]
      exact sameIntegrals_map dom hb _ hl
    · rw [hc] at k; simp at k
    · rw [hc] at k; simp at k

/-- **C24**, facets. The rule of a facet before removals: relative positions in the facet are kept and the weights are
divided by the measure of the facet. -/
theorem C24_facet_rule (o : QOracle K) (ho : o.isBezier = false) (dom : Box K) (hb : ∀ iv ∈ dom, iv.1 < iv.2)
    (f n : Nat) (hf : f < dom.length * 2)
    (hl : ∀ x ∈ o.facetGen dom (f / 2) (f % 2) n, x.1.length = dom.length) :
    SameIntegrals (dom.eraseIdx (f / 2))
      ((o.facetGen dom (f / 2) (f % 2) n).map fun x => (x.1.eraseIdx (f / 2), x.2)) (cutFacetRule o dom f n) := by
  have h := sameIntegrals_map (dom.eraseIdx (f / 2)) (fun iv h => hb iv (List.mem_of_mem_eraseIdx h))
    ((o.facetGen dom (f / 2) (f % 2) n).map fun x => (x.1.eraseIdx (f / 2), x.2)) (by
      intro x hx
      obtain ⟨y, hy, rfl⟩ := List.mem_map.1 hx
      have := hl y hy
      rw [List.length_eraseIdx_of_lt (by omega), List.length_eraseIdx_of_lt (by omega), this])
  rw [List.map_map] at h
  rw [cutFacetRule, ho]
  exact h

/-- `f` is the Euclidean norm. -/
def IsEuclideanNorm (f : List K → K) : Prop := ∀ v, 0 ≤ f v ∧ f v * f v = (v.map fun x => x * x).sum

theorem IsEuclideanNorm.smul {f : List K → K} (hf : IsEuclideanNorm f) (v : List K) (a : K) (ha : 0 ≤ a) :
    f (v.map (· * a)) = f v * a := by
  have h1 := hf (v.map (· * a))
  have h2 := hf v
  have : f (v.map (· * a)) * f (v.map (· * a)) = (f v * a) * (f v * a) := by
    rw [h1.2, List.map_map]
    have : (f v * a) * (f v * a) = (f v * f v) * (a * a) := by ring
    rw [this, h2.2, ← List.sum_map_mul_right]
    congr 1
    apply List.map_congr_left
    intro x _
    simp only [Function.comp]
    ring
  exact (mul_self_inj_of_nonneg h1.1 (mul_nonneg h2.1 ha)).1 this

theorem IsEuclideanNorm.pos {f : List K → K} (hf : IsEuclideanNorm f) (v : List K) (x : K) (hx : x ∈ v) (h0 : x ≠ 0) :
    0 < f v := by
  have h := hf v
  rcases h.1.lt_or_eq with h1 | h1
  · exact h1
  · exfalso
    have h2 := h.2
    rw [← h1, mul_zero] at h2
    have h3 : x * x ≤ (v.map fun x => x * x).sum := by
      apply List.single_le_sum
      · intro y hy
        obtain ⟨z, _, rfl⟩ := List.mem_map.1 hy
        exact mul_self_nonneg z
      · exact List.mem_map_of_mem hx
    have : 0 < x * x := mul_self_pos.2 h0
    linarith

theorem IsEuclideanNorm.normalized {f : List K → K} (hf : IsEuclideanNorm f) (v : List K) (hp : 0 < f v) :
    f (v.map (· / f v)) = 1 := by
  have := hf.smul v (1 / f v) (by positivity)
  simp only [mul_one_div] at this
  rw [this]
  field_simp

/-- **C24**, unfitted boundary (general implicit functions). The mapped normal is a unit vector, the mapped point keeps
its relative position, and weight and normal obey the change of variables of surface measures (Nanson's formula for the
map `x_i = a_i + L_i xi_i`, volume `V`): `V w_ref N_ref,i / L_i = w n_i` with `n` the unit normal in the cell. -/
theorem C24_unfitted_rule (o : QOracle K) (ho : o.isBezier = false) (hnorm : IsEuclideanNorm o.norm) (dom : Box K)
    (hb : ∀ iv ∈ dom, iv.1 < iv.2) (n : Nat)
    (hx : ∀ x ∈ o.surfGen dom n, x.1.length = dom.length ∧ (o.grad x.1).length = dom.length ∧ ∃ y ∈ o.grad x.1, y ≠ 0) :
    (cutSurfaceRule o dom n).length = (o.surfGen dom n).length ∧
    ∀ i (h : i < (o.surfGen dom n).length) (h' : i < (cutSurfaceRule o dom n).length),
      let u := (o.surfGen dom n)[i]
      let r := (cutSurfaceRule o dom n)[i]
      Box.scaleFrom01 dom r.1 = u.1 ∧ o.norm r.2.2 = 1 ∧ r.2.2.length = dom.length ∧
      ∀ j < dom.length,
        (dom.map fun iv => iv.2 - iv.1).prod * r.2.1 * r.2.2.getD j 0 /
            ((dom.getD j (0, 0)).2 - (dom.getD j (0, 0)).1) =
          u.2 * ((o.grad u.1).getD j 0 / o.norm (o.grad u.1)) := by
  have hcut : cutSurfaceRule o dom n = (o.surfGen dom n).map (unfNode o dom) := by
    rw [cutSurfaceRule, ho]; rfl
  refine ⟨by rw [hcut]; simp, ?_⟩
  intro i h h'
  have hr : (cutSurfaceRule o dom n)[i] = unfNode o dom (o.surfGen dom n)[i] := by
    simp only [hcut, List.getElem_map]
  rw [hr]
  obtain ⟨h1, h2, y, hy, hy0⟩ := hx _ (List.getElem_mem h)
  generalize (o.surfGen dom n)[i] = u at h1 h2 hy
  have hv := volume_pos dom hb
  obtain ⟨k, hk, rfl⟩ := List.getElem_of_mem hy
  have hg : 0 < o.norm (o.grad u.1) := hnorm.pos _ _ (List.getElem_mem hk) hy0
  have hL : ∀ j (hj : j < dom.length), 0 < dom[j].2 - dom[j].1 := by
    intro j hj
    have := hb _ (List.getElem_mem hj)
    linarith
  dsimp only [unfNode]
  generalize hm : List.zipWith (· * ·) ((o.grad u.1).map (· / o.norm (o.grad u.1))) dom.lengths = m
  have hml : m.length = dom.length := by rw [← hm]; simp [Box.lengths, h2]
  have hmj : ∀ j (hj : j < dom.length), m[j]'(by omega) =
      (o.grad u.1)[j]'(by omega) / o.norm (o.grad u.1) * (dom[j].2 - dom[j].1) := by
    intro j hj
    subst hm
    simp [Box.lengths]
  have hmp : 0 < o.norm m := by
    refine hnorm.pos m _ (List.getElem_mem (show k < m.length by omega)) ?_
    rw [hmj k (by omega)]
    have := hL k (by omega)
    positivity
  refine ⟨(Box.C25_scale_roundtrip dom hb _ h1).1, hnorm.normalized m hmp, by simp [hml], ?_⟩
  intro j hj
  have e1 : (m.map (· / o.norm m)).getD j 0 = m[j]'(by omega) / o.norm m := by
    simp [List.getElem?_eq_getElem (show j < m.length by omega)]
  have e2 : (o.grad u.1).getD j 0 = (o.grad u.1)[j]'(by omega) := by
    simp [List.getElem?_eq_getElem (show j < (o.grad u.1).length by omega)]
  have e3 : dom.getD j (0, 0) = dom[j] := by
    simp [List.getElem?_eq_getElem hj]
  have hLj := hL j hj
  rw [e1, e2, e3, hmj j hj, ← volume_prod]
  field_simp

/-- **C24**, unfitted boundary (Bezier functions). Algoim works in the unit cube already, with reversed directions:
points, weights and normals keep their values, directions are put in order, and normals are unit vectors. -/
theorem C24_unfitted_rule_bezier (o : QOracle K) (ho : o.isBezier = true) (hnorm : IsEuclideanNorm o.norm) (dom : Box K)
    (n : Nat) (hx : ∀ x ∈ o.surfBzr dom n, ∃ y ∈ o.bzrGrad dom x.1, y ≠ 0) :
    (cutSurfaceRule o dom n).length = (o.surfBzr dom n).length ∧
    ∀ i (h : i < (o.surfBzr dom n).length) (h' : i < (cutSurfaceRule o dom n).length),
      let u := (o.surfBzr dom n)[i]
      let r := (cutSurfaceRule o dom n)[i]
      r.1.reverse = u.1 ∧ r.2.1 = u.2 ∧ o.norm r.2.2 = 1 ∧
      r.2.2.reverse.map (· * o.norm (o.bzrGrad dom u.1)) = o.bzrGrad dom u.1 := by
  have hcut : cutSurfaceRule o dom n = (o.surfBzr dom n).map (unfNodeBzr o dom) := by
    rw [cutSurfaceRule, ho]; rfl
  refine ⟨by rw [hcut]; simp, ?_⟩
  intro i h h'
  have hr : (cutSurfaceRule o dom n)[i] = unfNodeBzr o dom (o.surfBzr dom n)[i] := by
    simp only [hcut, List.getElem_map]
  rw [hr]
  obtain ⟨y, hy, hy0⟩ := hx _ (List.getElem_mem h)
  generalize (o.surfBzr dom n)[i] = u at hy
  have hg := hnorm.pos _ _ hy hy0
  have hrev : ∀ v : List K, o.norm v.reverse = o.norm v := by
    intro v
    refine (mul_self_inj_of_nonneg (hnorm _).1 (hnorm _).1).1 ?_
    rw [(hnorm _).2, (hnorm _).2, List.map_reverse, List.sum_reverse]
  refine ⟨by simp [unfNodeBzr], rfl, ?_, ?_⟩
  · show o.norm (List.reverse _) = 1
    rw [hrev]
    exact hnorm.normalized _ hg
  · simp only [unfNodeBzr, List.reverse_reverse, List.map_map]
    conv_rhs => rw [← List.map_id (o.bzrGrad dom u.1)]
    apply List.map_congr_left
    intro x _
    simp only [Function.comp, id]
    field_simp

/-- The square root of the sum of squares is such a norm. -/
example : IsEuclideanNorm (fun v : List ℝ => Real.sqrt (v.map fun x => x * x).sum) := by
  intro v
  refine ⟨Real.sqrt_nonneg _, Real.mul_self_sqrt ?_⟩
  apply List.sum_nonneg
  intro y hy
  obtain ⟨z, _, rfl⟩ := List.mem_map.1 hy
  exact mul_self_nonneg z

/-- A cell of sides 2 and 1: the surface point in its middle. -/
example : cutSurfaceRule Example.qo [((2 : ℚ), 4), (0, 1)] 1 = [([1 / 2, 1 / 2], 1, [1, 0])] := by decide +kernel

end Qugar
