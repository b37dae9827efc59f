import Verif.Props.MeshOrient
/-
Property theorems on the orientation of the cells of level sets of given functions.
-/
namespace Qugar.Mesh
open Poly Spec TS

theorem minFunc_spec {K : Type} [Field K] [LinearOrder K] (p : List K) : ∀ (fs : List ((List K → K) × (List K → List K)))
    (f : (List K → K) × (List K → List K)), minFunc p f fs ∈ f :: fs ∧ ∀ g ∈ f :: fs, (minFunc p f fs).1 p ≤ g.1 p := by
  intro fs
  induction fs with
  | nil => intro f; simp [minFunc]
  | cons a fs ih =>
    intro f
    obtain ⟨h1, h2⟩ := ih (if a.1 p < f.1 p then a else f)
    have e : minFunc p f (a :: fs) = minFunc p (if a.1 p < f.1 p then a else f) fs := rfl
    rw [e]
    refine ⟨?_, ?_⟩
    · rcases List.mem_cons.1 h1 with h | h
      · rw [h]; split <;> simp
      · simp [h]
    · intro g hg
      have h3 := h2 _ (List.mem_cons_self ..)
      rcases List.mem_cons.1 hg with rfl | hg
      · refine le_trans h3 ?_
        split
        · next h => exact le_of_lt h
        · exact le_refl _
      · rcases List.mem_cons.1 hg with rfl | hg
        · refine le_trans h3 ?_
          split
          · exact le_refl _
          · next h => exact not_lt.1 h
        · exact h2 g (List.mem_cons_of_mem _ hg)

theorem spec_dot_comm (u v : List ℝ) : Spec.dot u v = Spec.dot v u := by
  unfold Spec.dot
  rw [List.zipWith_comm]
  congr 2
  funext a b
  exact mul_comm _ _

/-- **C41** (level sets of functions): orienting the cells along given functions flips exactly the listed cells whose normal
at the centre has a negative scalar product with the gradient of the function with the smallest value there, and afterwards no listed cell
has a negative one. -/
theorem C41_orient_functions_partial (cheb : Nat → Nat → ℝ) (norm : List ℝ → ℝ) (hnorm : EuclideanNorm norm) (m : Mesh ℝ) (h : WellShaped m)
    (hd : m.dim = 1 ∨ m.dim = 2) (hr : m.range = m.dim + 1) (hn : ∀ i < m.order, pointIn01 cheb m.order i = cheb i m.order)
    (hs : m.dim = 1 → ∀ i < m.order, cheb (m.order - 1 - i) m.order = 1 - cheb i m.order)
    (funcs : List ((List ℝ → ℝ) × (List ℝ → List ℝ))) (hne : funcs ≠ []) (hg : ∀ f ∈ funcs, ∀ p, (f.2 p).length = m.range)
    (cells : List Nat) (hc : ∀ c ∈ cells, c < cellCount m) :
    ∃ (pick : List ℝ → (List ℝ → ℝ) × (List ℝ → List ℝ)) (side : (List Nat → List ℝ) → ℝ), (∀ p, pick p ∈ funcs ∧ ∀ g ∈ funcs, (pick p).1 p ≤ g.1 p) ∧
      (∀ v, side v = Spec.dot (cellNormalAt (pointIn01 cheb m.order) m.dim m.order v)
        ((pick (centrePoint (pointIn01 cheb m.order) m.dim m.range m.order v)).2 (centrePoint (pointIn01 cheb m.order) m.dim m.range m.order v))) ∧
      ∃ m', orientLevelsetFuncs cheb norm m funcs cells = some m' ∧ m'.dim = m.dim ∧ m'.range = m.range ∧ m'.order = m.order ∧
        m'.points = m.points ∧ m'.wires = m.wires ∧ m'.conn.Perm m.conn ∧
        (∀ c, ∀ t ∈ indices (List.replicate m.dim m.order), vertex m.dim m.order m.points m'.conn c t =
          if c ∈ cells ∧ side (vertex m.dim m.order m.points m.conn c) < 0 then
            flipped m.dim m.order (vertex m.dim m.order m.points m.conn c) t
          else vertex m.dim m.order m.points m.conn c t) ∧
        ∀ c ∈ cells, 0 ≤ side (vertex m.dim m.order m.points m'.conn c) := by
  match funcs, hne with
  | f :: fs, _ =>
  have hsp := fun p => minFunc_spec p fs f
  have hiff : ∀ (n : List ℝ) (p : List ℝ), Spec.dot n (((minFunc p f fs).2 p).map (· / norm ((minFunc p f fs).2 p))) < 0 ↔
      Spec.dot n ((minFunc p f fs).2 p) < 0 := by
    intro n p
    rw [spec_dot_comm, normalise_sign norm hnorm, spec_dot_comm]
  refine ⟨fun p => minFunc p f fs, fun v => _, hsp, fun v => rfl, ?_⟩
  obtain ⟨m', e1, e2, e3, e4, e5, e6, e7, e8, e9⟩ := C41_orient_levelset_partial cheb norm hnorm m h hd hr hn hs
    (fun p => ((minFunc p f fs).2 p).map (· / norm ((minFunc p f fs).2 p)))
    (fun p => by rw [List.length_map]; exact hg _ (hsp p).1 p) cells hc _ rfl
  refine ⟨m', e1, e2, e3, e4, e5, e6, e7, ?_, ?_⟩
  · intro c t ht
    rw [e8 c t ht]
    simp only [hiff]
  · intro c hcc
    have h1 := e9 c hcc
    exact not_lt.1 fun hlt => absurd ((hiff _ _).2 hlt) (not_lt.2 (le_of_le_of_eq (abs_nonneg _) h1.symm))

/-- The same for one function: the normals point to the side where it grows. -/
theorem C41_orient_function_partial (cheb : Nat → Nat → ℝ) (norm : List ℝ → ℝ) (hnorm : EuclideanNorm norm) (m : Mesh ℝ) (h : WellShaped m)
    (hd : m.dim = 1 ∨ m.dim = 2) (hr : m.range = m.dim + 1) (hn : ∀ i < m.order, pointIn01 cheb m.order i = cheb i m.order)
    (hs : m.dim = 1 → ∀ i < m.order, cheb (m.order - 1 - i) m.order = 1 - cheb i m.order)
    (val : List ℝ → ℝ) (grad : List ℝ → List ℝ) (hg : ∀ p, (grad p).length = m.range) :
    ∃ m', orientAllLevelsetFuncs cheb norm m [(val, grad)] = some m' ∧ m'.points = m.points ∧ m'.wires = m.wires ∧ m'.conn.Perm m.conn ∧
      ∀ c, c < cellCount m → 0 ≤ Spec.dot (cellNormalAt (pointIn01 cheb m.order) m.dim m.order (vertex m.dim m.order m.points m'.conn c))
        (grad (centrePoint (pointIn01 cheb m.order) m.dim m.range m.order (vertex m.dim m.order m.points m'.conn c))) := by
  obtain ⟨pick, side, p1, p2, m', e1, _, _, _, e5, e6, e7, _, e9⟩ := C41_orient_functions_partial cheb norm hnorm m h hd hr hn hs [(val, grad)] (by simp)
    (by simpa using hg) (List.range (cellCount m)) (by simp)
  refine ⟨m', ?_, e5, e6, e7, ?_⟩
  · unfold orientAllLevelsetFuncs
    rw [show numCells m = some (cellCount m) by
      unfold numCells; rw [if_pos (show m.conn.length % ppc m = 0 from h.whole)]; rfl]
    exact e1
  · intro c hc
    have := e9 c (List.mem_range.2 hc)
    rw [p2] at this
    have hp : ∀ p, pick p = (val, grad) := fun p => by simpa using (p1 p).1
    rw [hp] at this
    exact this

/-- A segment of order 2 in the plane and a function with the gradient `(0, 1)` meet the hypotheses of both theorems. -/
example : let m : Mesh ℝ := ⟨1, 2, 2, [[0, 0], [1, 0]], [0, 1], []⟩
    let cheb : Nat → Nat → ℝ := fun i _ => i
    WellShaped m ∧ (m.dim = 1 ∨ m.dim = 2) ∧ m.range = m.dim + 1 ∧ (∀ i < m.order, pointIn01 cheb m.order i = cheb i m.order) ∧
      (m.dim = 1 → ∀ i < m.order, cheb (m.order - 1 - i) m.order = 1 - cheb i m.order) ∧ cellCount m = 1 := by
  refine ⟨⟨by decide, by decide, by decide⟩, Or.inl rfl, rfl, ?_, ?_, rfl⟩
  · intro i hi
    have : i < 2 := hi
    interval_cases i <;> simp [pointIn01]
  · intro _ i hi
    have : i < 2 := hi
    interval_cases i <;> simp

/-- The segment is turned along the gradient of one function. -/
example : orientAllLevelsetFuncs (fun i _ => (i : ℚ)) (fun _ => 1) ⟨1, 2, 2, [[0, 0], [1, 0]], [0, 1], []⟩ [(fun p => vat p 1, fun _ => [0, 1])] =
    some ⟨1, 2, 2, [[0, 0], [1, 0]], [1, 0], []⟩ := by decide +kernel

/-- **C41** fails for several functions: the boundary of the region where `y` and `-1 - y` are negative, at `y = 0`, is oriented along the
gradient of `-1 - y`, to the inside of the region, since that function is the smallest one (it is the largest one that vanishes at the boundary). -/
theorem C41_several_functions_fail (cheb : Nat → Nat → ℚ) (h0 : cheb 0 2 = 0) (h1 : cheb 1 2 = 1) (norm : List ℚ → ℚ) (hnorm : norm [0, -1] = 1) :
    ∃ (m m' : Mesh ℚ) (f g : (List ℚ → ℚ) × (List ℚ → List ℚ)), (∀ x y, f.1 [x, y] = y ∧ g.1 [x, y] = -1 - y) ∧ (∀ p, f.2 p = [0, 1] ∧ g.2 p = [0, -1]) ∧
      m.dim = 1 ∧ m.range = 2 ∧ m.order = 2 ∧ m.conn = [0, 1] ∧ (∀ p ∈ m.points, f.1 p = 0 ∧ g.1 p < 0) ∧
      orientAllLevelsetFuncs cheb norm m [f, g] = some m' ∧
      ∃ a b, m'.points[m'.conn.getD 0 0]? = some a ∧ m'.points[m'.conn.getD 1 0]? = some b ∧
        Spec.dot [vat b 1 - vat a 1, -(vat b 0 - vat a 0)] (f.2 a) < 0 := by
  refine ⟨⟨1, 2, 2, [[0, 0], [1, 0]], [0, 1], []⟩, ⟨1, 2, 2, [[0, 0], [1, 0]], [0, 1], []⟩, (fun p => vat p 1, fun _ => [0, 1]),
    (fun p => -1 - vat p 1, fun _ => [0, -1]), fun _ _ => ⟨rfl, rfl⟩, fun _ => ⟨rfl, rfl⟩, rfl, rfl, rfl, rfl, ?_, ?_, [0, 0], [1, 0], rfl, rfl, ?_⟩
  · intro p hp
    simp only [List.mem_cons, List.not_mem_nil, or_false] at hp
    rcases hp with rfl | rfl <;> (constructor <;> simp [vat])
  · have v : Lagrange.values (Lagrange.getCoord cheb 2 false) 2 (1 / 2) = [1 / 2, 1 / 2] := by
      simp [Lagrange.values, Lagrange.getCoord, List.range, List.range.loop, h0, h1]
      norm_num
    have d : Lagrange.derivatives (Lagrange.getCoord cheb 2 false) 2 (1 / 2) = [-1, 1] := by
      simp [Lagrange.derivatives, Lagrange.getCoord, List.range, List.range.loop, h0, h1]
    have b1 : Lagrange.basis cheb [1 / 2] [2] false = some [1 / 2, 1 / 2] := by
      unfold Lagrange.basis
      simp only [List.zip_cons_cons, List.zip_nil_right, List.mapM_cons, List.mapM_nil, Lagrange.basis1D, v]
      decide +kernel
    have b2 : Lagrange.derivative cheb [1 / 2] [2] false = some [[-1, 1]] := by
      unfold Lagrange.derivative
      simp only [List.zip_cons_cons, List.zip_nil_right, List.mapM_cons, List.mapM_nil, Lagrange.basis1D, Lagrange.basisDer1D, v, d]
      decide +kernel
    have c1 : cellSum (⟨1, 2, 2, [[0, 0], [1, 0]], [0, 1], []⟩ : Mesh ℚ) 0 [1 / 2, 1 / 2] = [1 / 2, 0] := by decide +kernel
    have c2 : cellSum (⟨1, 2, 2, [[0, 0], [1, 0]], [0, 1], []⟩ : Mesh ℚ) 0 [-1, 1] = [1, 0] := by decide +kernel
    have c3 : cellNormal 1 [[(1 : ℚ), 0]] = [0, -1] := by decide +kernel
    have c4 : (minFunc [1 / 2, 0] ((fun p => vat p 1, fun _ => [0, 1]) : (List ℚ → ℚ) × (List ℚ → List ℚ)) [(fun p => -1 - vat p 1, fun _ => [0, -1])]).2
        [1 / 2, 0] = [0, -1] := by decide +kernel
    have c5 : Mesh.dot 2 [(0 : ℚ), -1] [0, -1] = 1 := by decide +kernel
    have hnum : numCells (⟨1, 2, 2, [[0, 0], [1, 0]], [0, 1], []⟩ : Mesh ℚ) = some 1 := by decide +kernel
    unfold orientAllLevelsetFuncs orientLevelsetFuncs orientLevelset
    rw [hnum]
    simp only [Option.bind_eq_bind, Option.bind_some, List.replicate_succ, List.replicate_zero, b1, b2, List.range_one, List.foldlM_cons, List.foldlM_nil,
      hnum, List.map_cons, List.map_nil, c1, c2, c3, c4, hnorm, div_one, c5]
    rw [if_pos (by norm_num), if_neg (by norm_num)]
    rfl
  · simp [Spec.dot, vat]

end Qugar.Mesh
