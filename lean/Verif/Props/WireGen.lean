import Verif.Lemmas.MeshWires
import Mathlib.Tactic.Linarith
import Mathlib.Data.Finset.Card
/-
Property theorems on the generation of wirebaskets (C52).
-/
namespace Qugar.Mesh
open Spec Poly TS
variable {K : Type} [Field K] [LinearOrder K] [IsStrictOrderedRing K]

/-- Two coordinates are both on the lower, or both on the upper, end of an interval. -/
def SameEnd (tol : K) (iv : K × K) (x y : K) : Prop :=
  (|x - iv.1| ≤ tol ∧ |y - iv.1| ≤ tol) ∨ (|x - iv.2| ≤ tol ∧ |y - iv.2| ≤ tol)

/-- There are at least `n` directions in which two points are on the same side of the box. -/
def SharesSides (tol : K) (domain : Box K) (n : Nat) (p q : List K) : Prop :=
  ∃ D : Finset Nat, n ≤ D.card ∧ ∀ d ∈ D, ∃ iv x y, domain[d]? = some iv ∧ p[d]? = some x ∧ q[d]? = some y ∧ SameEnd tol iv x y

/-- What is added to the wirebasket, for an edge with the points `ps`: its points are not all the same, and either it is on an
edge of the domain (all the points share `range - 1` sides with the first one) or the function vanishes at all its points and,
in 3D, it is on a face of the domain (all the points share a side with the first one). -/
def WireEdge (tol : K) (domain : Box K) (range : Nat) (f : List K → K) (ps : List (List K)) : Prop :=
  (∃ p ∈ ps, ∃ d < range, tol < |vat (ps.headD []) d - vat p d|) ∧
  ((∀ p ∈ ps, SharesSides tol domain (range - 1) (ps.headD []) p) ∨
    ((∀ p ∈ ps, |f p| ≤ tol) ∧ (range = 2 ∨ ∀ p ∈ ps, SharesSides tol domain 1 (ps.headD []) p)))

theorem shares_count (tol : K) : ∀ (domain : Box K) (p q : List K), (∀ iv ∈ domain, iv.1 + 2 * tol < iv.2) →
    ∀ n, SharesSides tol domain n p q ↔ n ≤ ((List.zip (getBounds tol domain p) (getBounds tol domain q)).filter
      fun xy => decide (0 ≤ xy.1) && decide (xy.1 = xy.2)).length := by
  intro domain
  induction domain with
  | nil =>
    intro p q _ n
    simp only [getBounds, List.zipWith_nil_left, List.zip_nil_left, List.filter_nil, List.length_nil, Nat.le_zero]
    constructor
    · rintro ⟨D, hD, h⟩
      have : D = ∅ := by
        apply Finset.eq_empty_of_forall_notMem
        intro d hd
        obtain ⟨iv, x, y, h1, _⟩ := h d hd
        simp at h1
      rw [this] at hD
      simpa using hD
    · rintro rfl; exact ⟨∅, by simp, by simp⟩
  | cons iv domain ih =>
    intro p q hw n
    have hempty : ∀ p q : List K, (p = [] ∨ q = []) → (SharesSides tol (iv :: domain) n p q ↔ n = 0) := by
      intro p q hpq
      constructor
      · rintro ⟨D, hD, h⟩
        have : D = ∅ := by
          apply Finset.eq_empty_of_forall_notMem
          intro d hd
          obtain ⟨iv, x, y, _, h2, h3, _⟩ := h d hd
          rcases hpq with rfl | rfl
          · simp at h2
          · simp at h3
        rw [this] at hD
        simpa using hD
      · rintro rfl; exact ⟨∅, by simp, by simp⟩
    cases p with
    | nil => rw [hempty [] q (Or.inl rfl)]; simp [getBounds]
    | cons x p =>
      cases q with
      | nil => rw [hempty (x :: p) [] (Or.inr rfl)]; simp [getBounds]
      | cons y q =>
        have ih := ih p q fun iv hiv => hw iv (by simp [hiv])
        have hwi := hw iv (by simp)
        obtain ⟨cnt, hcnt⟩ : ∃ cnt, cnt = ((List.zip (getBounds tol domain p) (getBounds tol domain q)).filter
          fun xy => decide (0 ≤ xy.1) && decide (xy.1 = xy.2)).length := ⟨_, rfl⟩
        rw [← hcnt] at ih
        have hhead : (((List.zip (getBounds tol (iv :: domain) (x :: p)) (getBounds tol (iv :: domain) (y :: q))).filter
            fun xy => decide (0 ≤ xy.1) && decide (xy.1 = xy.2)).length = cnt + 1 ∧ SameEnd tol iv x y) ∨
            (((List.zip (getBounds tol (iv :: domain) (x :: p)) (getBounds tol (iv :: domain) (y :: q))).filter
            fun xy => decide (0 ≤ xy.1) && decide (xy.1 = xy.2)).length = cnt ∧ ¬ SameEnd tol iv x y) := by
          unfold getBounds at hcnt ⊢
          simp only [List.zipWith_cons_cons, List.zip_cons_cons, List.filter_cons]
          have h3 : ∀ z : K, |z - iv.1| ≤ tol → ¬ |z - iv.2| ≤ tol := by
            intro z h1 h2
            rw [abs_le] at h1 h2
            linarith [h1.2, h2.1]
          unfold SameEnd
          simp only [Tol.equal, decide_eq_true_eq] at hcnt ⊢
          by_cases a1 : |x - iv.1| ≤ tol
          · have a2 := h3 x a1
            by_cases b1 : |y - iv.1| ≤ tol
            · left; simp [a1, b1, hcnt]
            · right
              by_cases b2 : |y - iv.2| ≤ tol
              · simp [a1, a2, b1, b2, hcnt]
              · simp [a1, a2, b1, b2, hcnt]
          · by_cases a2 : |x - iv.2| ≤ tol
            · by_cases b1 : |y - iv.1| ≤ tol
              · have b2 := h3 y b1
                right; simp [a1, a2, b1, b2, hcnt]
              · by_cases b2 : |y - iv.2| ≤ tol
                · left; simp [a1, a2, b1, b2, hcnt]
                · right; simp [a1, a2, b1, b2, hcnt]
            · right; simp [a1, a2, hcnt]
        -- shift of the direction sets
        have hshift : ∀ n, SharesSides tol domain n p q → ∃ D : Finset Nat, n ≤ D.card ∧ 0 ∉ D ∧
            ∀ d ∈ D, ∃ iv' x' y', (iv :: domain)[d]? = some iv' ∧ (x :: p)[d]? = some x' ∧ (y :: q)[d]? = some y' ∧ SameEnd tol iv' x' y' := by
          rintro n ⟨D, hD, h⟩
          refine ⟨D.map ⟨Nat.succ, Nat.succ_injective⟩, by rwa [Finset.card_map], by simp, ?_⟩
          intro d hd
          obtain ⟨e, he, rfl⟩ := Finset.mem_map.1 hd
          simpa using h e he
        have hback : ∀ D : Finset Nat, (∀ d ∈ D, ∃ iv' x' y', (iv :: domain)[d]? = some iv' ∧ (x :: p)[d]? = some x' ∧
            (y :: q)[d]? = some y' ∧ SameEnd tol iv' x' y') → 0 ∉ D → SharesSides tol domain D.card p q := by
          intro D h h0
          refine ⟨D.image Nat.pred, ?_, ?_⟩
          · rw [Finset.card_image_of_injOn]
            intro a ha b hb hab
            have : a ≠ 0 := by rintro rfl; exact h0 ha
            have : b ≠ 0 := by rintro rfl; exact h0 hb
            simp only [Nat.pred_eq_sub_one] at hab
            omega
          · intro d hd
            obtain ⟨e, he, rfl⟩ := Finset.mem_image.1 hd
            cases e with
            | zero => exact absurd he h0
            | succ e => simpa using h _ he
        constructor
        · rintro ⟨D, hD, h⟩
          rcases hhead with ⟨hl, _⟩ | ⟨hl, hns⟩
          · rw [hl]
            have hb := hback (D.erase 0) (fun d hd => h d (Finset.mem_of_mem_erase hd)) (by simp)
            have h1 := (ih _).1 hb
            have h2 := Finset.pred_card_le_card_erase (s := D) (a := 0)
            omega
          · rw [hl]
            have h0 : 0 ∉ D := by
              intro h0
              obtain ⟨iv', x', y', e1, e2, e3, e4⟩ := h 0 h0
              simp only [List.getElem?_cons_zero, Option.some.injEq] at e1 e2 e3
              subst e1; subst e2; subst e3
              exact hns e4
            have h1 := (ih _).1 (hback D h h0)
            omega
        · intro hn
          rcases hhead with ⟨hl, hse⟩ | ⟨hl, _⟩
          · rw [hl] at hn
            obtain ⟨D, h1, h2, h3⟩ := hshift cnt ((ih cnt).2 le_rfl)
            refine ⟨insert 0 D, by rw [Finset.card_insert_of_notMem h2]; omega, ?_⟩
            intro d hd
            rcases Finset.mem_insert.1 hd with rfl | hd
            · exact ⟨iv, x, y, rfl, rfl, rfl, hse⟩
            · exact h3 d hd
          · rw [hl] at hn
            obtain ⟨D, h1, h2, h3⟩ := hshift n ((ih n).2 hn)
            exact ⟨D, h1, h3⟩

theorem subB_iff (tol : K) (domain : Box K) (hw : ∀ iv ∈ domain, iv.1 + 2 * tol < iv.2) (n : Nat) (ps : List (List K)) :
    subB tol domain n ps = true ↔ ∀ p ∈ ps, SharesSides tol domain n (ps.headD []) p := by
  unfold subB
  rw [List.all_eq_true]
  refine forall₂_congr fun p _ => ?_
  rw [shares_count tol domain _ _ hw]
  simp

theorem degB_iff (m : Mesh K) (tol : K) (ps : List (List K)) :
    degB m tol ps = false ↔ ∃ p ∈ ps, ∃ d < m.range, tol < |vat (ps.headD []) d - vat p d| := by
  unfold degB coincident Tol.equal
  rw [List.all_eq_false]
  simp only [List.all_eq_true, List.mem_range, decide_eq_true_eq, not_forall, not_le]
  constructor
  · rintro ⟨p, h1, d, h2, h3⟩; exact ⟨p, h1, d, h2, h3⟩
  · rintro ⟨p, h1, d, h2, h3⟩; exact ⟨p, h1, d, h2, h3⟩

/-- The point ids of an edge of a cell, in the order of the parameter. -/
def edgeIds (m : Mesh K) (cell edge : Nat) : List Nat :=
  (List.range m.order).map fun j =>
    m.conn.getD (cell * m.order ^ m.dim + flatIndex (edgeIndex m.dim m.order edge j) (List.replicate m.dim m.order)) 0

/-- **C52** The wirebasket of a list of cells: the points and cells of the mesh, and the wirebasket it had, do not change; for
each cell of the list, and each of its edges, in this order, the edge is appended iff it satisfies `WireEdge`. An edge is stored
with its points in one order or the other. -/
theorem C52_wirebasket (m : Mesh K) (f : List K → K) (cells : List Nat) (domain : Box K) (tol : K)
    (hd : m.dim = 2 ∨ m.dim = 3) (hr : m.range = 2 ∨ m.range = 3) (ho : 1 < m.order) (hw : ∀ iv ∈ domain, iv.1 + 2 * tol < iv.2)
    (hc : ∀ c ∈ cells, c < m.conn.length / m.order ^ m.dim)
    (hconn : ∀ c ∈ cells, ∀ k, c * m.order ^ m.dim ≤ k → k < (c + 1) * m.order ^ m.dim → ∀ i, m.conn[k]? = some i → i < m.points.length) :
    ∃ (store : Nat → Nat → List Nat) (keep : List Nat → Bool),
      (∀ c e, store c e = edgeIds m c e ∨ store c e = (edgeIds m c e).reverse) ∧
      (∀ e, keep e = true ↔ WireEdge tol domain m.range f (e.map fun i => m.points.getD i [])) ∧
      generateWirebasket m [f] cells domain tol = some { m with wires := m.wires ++
        ((cells.flatMap fun c => (List.range (if m.dim = 2 then 4 else 12)).map fun e => store c e).filter keep).flatten } := by
  refine ⟨edgeOf m, fun e => keepB m tol domain (fun p => [f].any fun f => Tol.isZero tol (f p))
      (fun p => decide (m.range - 1 ≤ [f].length) && decide (m.range - 1 ≤ ([f].filter fun f => Tol.isZero tol (f p)).length)) (ptsOf m e),
    ?_, ?_, ?_⟩
  · intro c e
    exact sortEdge_cases m.order (rawEdge m c e)
  · intro e
    obtain ⟨ps, hps⟩ : ∃ ps, ps = ptsOf m e := ⟨_, rfl⟩
    have e2 : (e.map fun i => m.points.getD i []) = ps := hps.symm
    rw [e2]
    dsimp only
    rw [← hps]
    unfold keepB WireEdge
    rw [Bool.and_eq_true, Bool.not_eq_true', degB_iff, Bool.or_eq_true, subB_iff tol domain hw]
    refine and_congr_right fun _ => or_congr_right ?_
    have hz : (ps.all fun p => [f].any fun f => Tol.isZero tol (f p)) = true ↔ ∀ p ∈ ps, |f p| ≤ tol := by
      simp [Tol.isZero]
    rw [← subB_iff tol domain hw]
    rcases hr with hr | hr
    · rw [hr]
      split
      · rw [hz]; simp
      · have : (ps.all fun p => decide (2 - 1 ≤ [f].length) && decide (2 - 1 ≤ ([f].filter fun f => Tol.isZero tol (f p)).length)) = true ↔
            ∀ p ∈ ps, |f p| ≤ tol := by
          rw [List.all_eq_true]
          refine forall₂_congr fun p _ => ?_
          by_cases h : Tol.isZero tol (f p) = true
          · have h' : |f p| ≤ tol := by simpa [Tol.isZero] using h
            simp [h, h']
          · have h' : ¬ |f p| ≤ tol := by simpa [Tol.isZero] using h
            simp [h, h']
        rw [this]; simp
    · rw [hr]
      by_cases hs : subB tol domain 1 ps = true
      · rw [if_pos hs, hz]; simp [hs]
      · rw [if_neg hs]
        constructor
        · intro h
          exfalso
          apply hs
          have hne : ps = [] := by
            cases ps with
            | nil => rfl
            | cons p ps => simp at h
          rw [hne]; rfl
        · rintro ⟨_, h | h⟩
          · omega
          · exact absurd h hs
  · unfold generateWirebasket
    rw [if_pos (by simp), addWires_eq m cells domain tol _ _ hd ho hc hconn]
    unfold newWires
    have hne : numEdges m.dim = if m.dim = 2 then 4 else 12 := by
      unfold numEdges
      rcases hd with hd | hd <;> simp [hd]
    rw [hne]

/-- A curved surface patch: its first edge goes from a corner of the cube, through the face `x = 0`, to the face `y = 0`. -/
def exPatch : Mesh ℚ := ⟨2, 3, 3, [[0, 0, 0], [0, 1/2, 1/2], [1/2, 0, 1], [1/2, 1/2, 0], [1/2, 1/2, 1/2], [1/2, 1/2, 3/4],
  [3/4, 1/2, 0], [3/4, 1/2, 1/2], [3/4, 1/2, 3/4]], [0, 3, 6, 1, 4, 7, 2, 5, 8], []⟩

/-- **C52** (curved edges). An edge is compared with its first point only: an edge that starts at a corner of the domain is taken
for an edge on a face although no face of the domain contains its points. -/
theorem C52_curved_edges_fail :
    generateWirebasket exPatch [fun p => if vat p 0 * vat p 1 = 0 then 0 else 1] [0] [(0, 1), (0, 1), (0, 1)] (1/100) =
        some { exPatch with wires := [0, 1, 2] } ∧
      ∀ (d : Nat) (iv : ℚ × ℚ), [((0 : ℚ), (1 : ℚ)), (0, 1), (0, 1)][d]? = some iv →
        ¬ (∀ i ∈ [0, 1, 2], |vat (exPatch.points.getD i []) d - iv.1| ≤ 1/100) ∧
        ¬ (∀ i ∈ [0, 1, 2], |vat (exPatch.points.getD i []) d - iv.2| ≤ 1/100) := by
  refine ⟨by decide +kernel, ?_⟩
  intro d iv h
  rcases d with _ | _ | _ | d
  · simp only [List.getElem?_cons_zero, Option.some.injEq] at h
    subst h
    constructor <;> decide +kernel
  · simp only [List.getElem?_cons_succ, List.getElem?_cons_zero, Option.some.injEq] at h
    subst h
    constructor <;> decide +kernel
  · simp only [List.getElem?_cons_succ, List.getElem?_cons_zero, Option.some.injEq] at h
    subst h
    constructor <;> decide +kernel
  · simp at h

-- The hypotheses are met: the square [0,1/2]×[0,1] cut from the unit square, the level set being its right side.
example : generateWirebasket (⟨2, 2, 2, [[0, 0], [1/2, 0], [0, 1], [1/2, 1]], [0, 1, 2, 3], []⟩ : Mesh ℚ) [fun p => vat p 0 - 1/2] [0]
    [(0, 1), (0, 1)] (1/100) = some ⟨2, 2, 2, [[0, 0], [1/2, 0], [0, 1], [1/2, 1]], [0, 1, 2, 3], [0, 2, 1, 3, 0, 1, 2, 3]⟩ := by
  decide +kernel

example : generateWirebasket (⟨2, 2, 2, [[0, 0], [1/2, 0], [0, 1], [1/2, 1]], [0, 1, 2, 3], []⟩ : Mesh ℚ) [fun p => vat p 0 - 1/3] [0]
    [(0, 1), (0, 1)] (1/100) = some ⟨2, 2, 2, [[0, 0], [1/2, 0], [0, 1], [1/2, 1]], [0, 1, 2, 3], [0, 2, 0, 1, 2, 3]⟩ := by
  decide +kernel

end Qugar.Mesh
