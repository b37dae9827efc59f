import Verif.Props.Grid
import Mathlib.Data.List.InsertIdx
import Mathlib.Data.List.Forall2
/-
The cells on a side of the boundary of a grid are the cells of the grid of that side.
-/
namespace Qugar.Grid
open Spec
variable {K : Type} [Field K] [LinearOrder K]

theorem forall2_insert {r : Nat → Nat → Prop} : ∀ (s : List Nat) (i : Nat) (t : List Nat) (e : Nat) (hi : i < s.length), r e s[i] →
    List.Forall₂ r t (s.eraseIdx i) → List.Forall₂ r (t.insertIdx i e) s
  | [], _, _, _, h, _, _ => by simp at h
  | a :: s, 0, t, e, _, h1, h => by simpa using ⟨h1, h⟩
  | a :: s, i + 1, t, e, hi, h1, h => by
    rw [List.eraseIdx_cons_succ] at h
    cases h with
    | cons h3 h4 =>
      rw [List.insertIdx_succ_cons]
      exact .cons h3 (forall2_insert s i _ e (by simpa using hi) (by simpa using h1) h4)

theorem forall2_erase {α β : Type} {r : α → β → Prop} : ∀ (s : List β) (i : Nat) (t : List α), List.Forall₂ r t s →
    List.Forall₂ r (t.eraseIdx i) (s.eraseIdx i)
  | _, _, _, .nil => by simp
  | _, 0, _, .cons _ h => by simpa using h
  | _, i + 1, _, .cons h1 h => by simpa using ⟨h1, forall2_erase _ i _ h⟩

theorem zipWith_erase {α β γ : Type} (f : α → β → γ) : ∀ (a : List α) (b : List β) (i : Nat), a.length = b.length →
    (List.zipWith f a b).eraseIdx i = List.zipWith f (a.eraseIdx i) (b.eraseIdx i)
  | [], [], _, _ => by simp
  | [], _ :: _, _, h => by simp at h
  | _ :: _, [], _, h => by simp at h
  | _ :: _, _ :: _, 0, _ => by simp
  | _ :: a, _ :: b, i + 1, h => by simpa using zipWith_erase f a b i (by simpa using h)

/-- The position of the cells on side `f`, in its direction. -/
def sidePos (g : Grid K) (f : Nat) : Nat := if f % 2 = 0 then 0 else g.numCellsDir.getD (f / 2) 0 - 1

/-- The cell of the grid on side `f` that is the cell `c` of the grid of the side. -/
def sideCell (g : Grid K) (f c : Nat) : Nat :=
  flatIndex ((unflatRec (Grid.numCellsDir (g.eraseIdx (f / 2))) c).insertIdx (f / 2) (g.sidePos f)) g.numCellsDir

theorem numCellsDir_erase (g : Grid K) (i : Nat) : Grid.numCellsDir (g.eraseIdx i) = g.numCellsDir.eraseIdx i := by
  simp [numCellsDir, List.eraseIdx_map]

theorem dirs_pos {g : Grid K} (hv : g.Valid) : 0 < listProd g.numCellsDir := by
  rw [listProd_pos]
  intro k hk
  have hk' : k < g.length := by simpa [numCellsDir] using hk
  have := (hv _ (List.getElem_mem hk')).1
  rw [numCellsDir, List.getD_eq_getElem?_getD, List.getElem?_map, List.getElem?_eq_getElem hk']
  simp
  omega

theorem valid_erase {g : Grid K} (hv : g.Valid) (i : Nat) : Grid.Valid (g.eraseIdx i) :=
  fun bs hbs => hv bs (List.mem_of_mem_eraseIdx hbs)

theorem sidePos_lt {g : Grid K} (hv : g.Valid) {f : Nat} (hf : f < 2 * g.length) :
    g.sidePos f < g.numCellsDir[f / 2]'(by simp [numCellsDir]; omega) := by
  have hi : f / 2 < g.numCellsDir.length := by simp [numCellsDir]; omega
  have := (listProd_pos.1 (dirs_pos hv)) (f / 2) hi
  rw [List.getD_eq_getElem?_getD, List.getElem?_eq_getElem hi, Option.getD_some] at this
  unfold sidePos
  rw [List.getD_eq_getElem?_getD, List.getElem?_eq_getElem hi, Option.getD_some]
  split <;> omega

theorem sideCell_tid {g : Grid K} (hv : g.Valid) {f : Nat} (hf : f < 2 * g.length) (c : Nat) :
    List.Forall₂ (· < ·) ((unflatRec (Grid.numCellsDir (g.eraseIdx (f / 2))) c).insertIdx (f / 2) (g.sidePos f)) g.numCellsDir := by
  refine forall2_insert _ _ _ _ (by simp [numCellsDir]; omega) (sidePos_lt hv hf) ?_
  rw [← numCellsDir_erase]
  exact unflatRec_lt (dirs_pos (valid_erase hv _))

theorem unflatRec_len (s : List Nat) (x : Nat) : (unflatRec s x).length = s.length := by
  induction s generalizing x with
  | nil => rfl
  | cons m ns ih => simp [unflatRec, ih]

theorem sideCell_spec {g : Grid K} (hv : g.Valid) {f : Nat} (hf : f < 2 * g.length) (c : Nat) :
    g.sideCell f c < g.numCells ∧ unflatRec g.numCellsDir (g.sideCell f c) =
      (unflatRec (Grid.numCellsDir (g.eraseIdx (f / 2))) c).insertIdx (f / 2) (g.sidePos f) := by
  refine ⟨?_, unflatRec_flatIndex (sideCell_tid hv hf c)⟩
  have : g.numCells = listProd g.numCellsDir := tsize_eq _
  rw [this]
  exact flatIndex_lt (sideCell_tid hv hf c)

theorem onBoundary_eq {g : Grid K} {v f : Nat} (hc : v < g.numCells) (hf : f < 2 * g.length) :
    g.onBoundary v f = some ((unflatRec g.numCellsDir v).getD (f / 2) 0 == g.sidePos f) := by
  have hN : g.numCells = listProd g.numCellsDir := tsize_eq _
  unfold onBoundary
  rw [if_pos (by omega), unflat_eq (by omega)]
  rfl

/-- The cells on a side, one for each cell of the grid of the side. -/
theorem side_cells {g : Grid K} (hv : g.Valid) {f : Nat} (hf : f < 2 * g.length) :
    (((List.range (Grid.numCells (g.eraseIdx (f / 2)))).map (g.sideCell f))).Perm
      ((List.range g.numCells).filter fun v => g.onBoundary v f == some true) := by
  have hi : f / 2 < g.length := by omega
  have hN : g.numCells = listProd g.numCellsDir := tsize_eq _
  have hN' : Grid.numCells (g.eraseIdx (f / 2)) = listProd (Grid.numCellsDir (g.eraseIdx (f / 2))) := tsize_eq _
  have hl : ∀ c, (unflatRec (Grid.numCellsDir (g.eraseIdx (f / 2))) c).length = g.length - 1 := by
    intro c
    rw [unflatRec_len, numCellsDir, List.length_map, List.length_eraseIdx_of_lt hi]
  rw [List.perm_ext_iff_of_nodup]
  · intro v
    simp only [List.mem_map, List.mem_range, List.mem_filter, beq_iff_eq]
    constructor
    · rintro ⟨c, hc, rfl⟩
      obtain ⟨h1, h2⟩ := sideCell_spec hv hf c
      refine ⟨h1, ?_⟩
      rw [onBoundary_eq h1 hf, h2, List.getD_eq_getElem?_getD, List.getElem?_insertIdx_self]
      simp only [hl]
      rw [if_pos (by omega)]
      simp
    · rintro ⟨hc, hb⟩
      rw [onBoundary_eq hc hf] at hb
      have hb' : (unflatRec g.numCellsDir v).getD (f / 2) 0 = g.sidePos f := by simpa using hb
      have hlt : List.Forall₂ (· < ·) (unflatRec g.numCellsDir v) g.numCellsDir := unflatRec_lt (dirs_pos hv)
      have hlt' := forall2_erase _ (f / 2) _ hlt
      rw [← numCellsDir_erase] at hlt'
      refine ⟨flatIndex ((unflatRec g.numCellsDir v).eraseIdx (f / 2)) (Grid.numCellsDir (g.eraseIdx (f / 2))), ?_, ?_⟩
      · rw [hN']
        exact flatIndex_lt hlt'
      · unfold sideCell
        rw [unflatRec_flatIndex hlt']
        have hlen : f / 2 < (unflatRec g.numCellsDir v).length := by rw [unflatRec_len]; simp [numCellsDir]; omega
        rw [List.getD_eq_getElem?_getD, List.getElem?_eq_getElem hlen, Option.getD_some] at hb'
        rw [← hb', List.insertIdx_eraseIdx_getElem hlen, flatIndex_unflatRec (by omega)]
  · refine List.Nodup.map_on ?_ List.nodup_range
    intro x hx y hy h
    have h1 := (sideCell_spec hv hf x).2
    rw [h, (sideCell_spec hv hf y).2] at h1
    have h2 := congrArg (fun l => flatIndex (l.eraseIdx (f / 2)) (Grid.numCellsDir (g.eraseIdx (f / 2)))) h1
    simp only [List.eraseIdx_insertIdx_self] at h2
    rw [flatIndex_unflatRec (by rw [← hN']; simpa using hy), flatIndex_unflatRec (by rw [← hN']; simpa using hx)] at h2
    exact h2.symm
  · exact List.nodup_range.filter _

/-- The box of a cell on a side, without the direction of the side. -/
theorem sideCell_box {g : Grid K} (hv : g.Valid) {f : Nat} (hf : f < 2 * g.length) {c : Nat} (hc : c < Grid.numCells (g.eraseIdx (f / 2))) :
    ∃ b, g.cellDomain (g.sideCell f c) = some b ∧ Grid.cellDomain (g.eraseIdx (f / 2)) c = some (b.eraseIdx (f / 2)) ∧
      (if f % 2 = 0 then (b.getD (f / 2) (0, 0)).1 else (b.getD (f / 2) (0, 0)).2) =
        (if f % 2 = 0 then (g.domain.getD (f / 2) (0, 0)).1 else (g.domain.getD (f / 2) (0, 0)).2) := by
  have hi : f / 2 < g.length := by omega
  have hN : g.numCells = listProd g.numCellsDir := tsize_eq _
  have hN' : Grid.numCells (g.eraseIdx (f / 2)) = listProd (Grid.numCellsDir (g.eraseIdx (f / 2))) := tsize_eq _
  obtain ⟨h1, h2⟩ := sideCell_spec hv hf c
  have hl : (unflatRec (Grid.numCellsDir (g.eraseIdx (f / 2))) c).length = g.length - 1 := by
    rw [unflatRec_len, numCellsDir, List.length_map, List.length_eraseIdx_of_lt hi]
  refine ⟨g.cellDomainTid ((unflatRec (Grid.numCellsDir (g.eraseIdx (f / 2))) c).insertIdx (f / 2) (g.sidePos f)), ?_, ?_, ?_⟩
  · rw [cellDomain, unflat_eq (by omega), h2]
    rfl
  · rw [cellDomain, unflat_eq (by omega), Option.map_some, cellDomainTid, cellDomainTid, zipWith_erase, List.eraseIdx_insertIdx_self]
    rw [List.length_insertIdx, hl, if_pos (by omega)]
    omega
  · have hb := hv _ (List.getElem_mem hi)
    have e1 : (g.cellDomainTid ((unflatRec (Grid.numCellsDir (g.eraseIdx (f / 2))) c).insertIdx (f / 2) (g.sidePos f))).getD (f / 2) (0, 0) =
        spanDir g[f / 2] (g.sidePos f) (g.sidePos f + 1) := by
      rw [cellDomainTid, List.getD_eq_getElem?_getD, List.getElem?_zipWith, List.getElem?_eq_getElem hi, List.getElem?_insertIdx_self, hl,
        if_pos (by omega)]
      rfl
    have e2 : g.domain.getD (f / 2) (0, 0) = (g[f / 2].headD 0, g[f / 2].getLastD 0) := by
      rw [domain, List.getD_eq_getElem?_getD, List.getElem?_map, List.getElem?_eq_getElem hi]
      rfl
    have e3 : g.numCellsDir.getD (f / 2) 0 = g[f / 2].length - 1 := by
      rw [numCellsDir, List.getD_eq_getElem?_getD, List.getElem?_map, List.getElem?_eq_getElem hi]
      rfl
    rw [e1, e2]
    unfold spanDir sidePos
    rw [e3]
    split
    · simp only [List.headD_eq_head?_getD, List.getD_eq_getElem?_getD, List.head?_eq_getElem?]
    · have : g[f / 2].length - 1 - 1 + 1 = g[f / 2].length - 1 := by omega
      rw [this]
      simp only [List.getLastD_eq_getLast?, List.getD_eq_getElem?_getD, List.getLast?_eq_getElem?]

end Qugar.Grid
