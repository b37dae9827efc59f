import Verif.Model.PyCartMesh
import Verif.Props.PyMesh
import Verif.Props.PyTpMesh
import Verif.Props.PyUnfitted
import Verif.Props.Grid
import Mathlib.Tactic.FieldSimp
/-
Property theorems C81 (creation of Cartesian meshes: python/qugar/mesh/tp_mesh.py and unfitted_cart_mesh.py).
-/
namespace Qugar.Py.Cart
open Spec Spec.Cell TS

section
variable {K : Type} [Field K] [LinearOrder K]

/-! ### Specification -/

/-- The numbers of cells the argument stands for: the same in all the directions for a Python integer. -/
def Requested (dim : Nat) (n : List Nat) : NCells → Prop
  | .int k => n = List.replicate dim k.toNat ∧ 0 < k
  | .npInt _ => False
  | .list l => l = n.map Int.ofNat ∧ n.length = dim

/-- The corner that is used: the given one or the default. -/
def given (dim : Nat) (default : K) : Option (Arr K) → List K
  | none => List.replicate dim default
  | some a => a.data

/-- All the types that are given are `t`; if none is given, `t` is double precision. -/
def TypeRule (dtype : Option DType) (xmin xmax : Option (Arr K)) (t : DType) : Prop :=
  (∀ s, dtype = some s → s = t) ∧ (∀ a, xmin = some a → a.dtype = t) ∧ (∀ b, xmax = some b → b.dtype = t) ∧
    (dtype = none → xmin = none → xmax = none → t = .f64)

/-- The grid with `n` equal cells per direction between the corners. -/
def Uniform (n : List Nat) (lo up : List K) (g : Grid K) : Prop :=
  g.length = n.length ∧ ∀ k, k < n.length → ∃ bs, g[k]? = some bs ∧ bs.length = n.getD k 0 + 1 ∧
    ∀ i, i ≤ n.getD k 0 → bs[i]? = some (lo.getD k 0 + (i : K) / (n.getD k 0 : K) * (up.getD k 0 - lo.getD k 0))

/-! ### The grid -/

theorem linspace_pos [CharZero K] (a b : K) (n : Nat) (hn : 0 < n) :
    linspace a b ((n : Int) + 1) = some (Grid.equispacedDir a b n) := by
  obtain ⟨m, rfl⟩ : ∃ m, n = m + 1 := ⟨n - 1, by omega⟩
  have e : (((m + 1 : Nat) : Int) + 1) = Int.ofNat (m + 2) := by simp; omega
  rw [e]
  show some _ = _
  have hm : ((m + 1 : Nat) : K) ≠ 0 := Nat.cast_ne_zero.2 (by omega)
  congr 1
  refine List.ext_getElem (by simp [Grid.equispacedDir]) fun i h1 h2 => ?_
  simp only [List.length_set, List.length_map, List.length_range] at h1
  rw [List.getElem_set]
  simp only [Grid.equispacedDir, List.getElem_map, List.getElem_range]
  split
  · rename_i h
    subst h
    field_simp
    ring
  · ring

theorem linspace_nonpos (a b : K) (m : Int) (hm : m ≤ 0) :
    linspace a b (m + 1) = none ∨ ∃ bs, linspace a b (m + 1) = some bs ∧ bs.length ≤ 1 := by
  rcases h : m + 1 with k | k
  · have : k = 0 ∨ k = 1 := by
      have : (k : Int) = m + 1 := by rw [h]; rfl
      omega
    rcases this with rfl | rfl
    · exact .inr ⟨[], rfl, by simp⟩
    · exact .inr ⟨[a], rfl, by simp⟩
  · exact .inl rfl

theorem equispaced_uniform (n : List Nat) (lo up : List K) :
    Uniform n lo up ((List.range n.length).map fun k => Grid.equispacedDir (lo.getD k 0) (up.getD k 0) (n.getD k 0)) := by
  refine ⟨by simp, fun k hk => ⟨_, by rw [List.getElem?_map, List.getElem?_range hk]; rfl, by simp [Grid.equispacedDir],
    fun i hi => ?_⟩⟩
  simp only [Grid.equispacedDir, List.getElem?_map]
  rw [List.getElem?_range (by omega)]
  simp only [Option.map_some, Option.some.injEq]
  ring

theorem Uniform.unique {n : List Nat} {lo up : List K} {g g' : Grid K} (h : Uniform n lo up g) (h' : Uniform n lo up g') :
    g = g' := by
  refine List.ext_getElem? fun k => ?_
  by_cases hk : k < n.length
  · obtain ⟨bs, e1, e2, e3⟩ := h.2 k hk
    obtain ⟨bs', e1', e2', e3'⟩ := h'.2 k hk
    rw [e1, e1']
    congr 1
    refine List.ext_getElem? fun i => ?_
    by_cases hi : i ≤ n.getD k 0
    · rw [e3 i hi, e3' i hi]
    · rw [List.getElem?_eq_none (by omega), List.getElem?_eq_none (by omega)]
  · rw [List.getElem?_eq_none (by rw [h.1]; omega), List.getElem?_eq_none (by rw [h'.1]; omega)]

variable [IsStrictOrderedRing K]

theorem uniform_valid {n : List Nat} {lo up : List K} {g : Grid K} (h : Uniform n lo up g) (hpos : ∀ m ∈ n, 0 < m)
    (hlt : ∀ k, k < n.length → lo.getD k 0 < up.getD k 0) : g.Valid := by
  intro bs hbs
  obtain ⟨k, hk, rfl⟩ := List.mem_iff_getElem.1 hbs
  have hkn : k < n.length := by rw [← h.1]; exact hk
  have hu := h.unique (equispaced_uniform n lo up)
  have e : g[k] = Grid.equispacedDir (lo.getD k 0) (up.getD k 0) (n.getD k 0) := by
    simp [hu]
  rw [e]
  have hp : 0 < n.getD k 0 := by rw [List.getD_eq_getElem _ _ hkn]; exact hpos _ (List.getElem_mem hkn)
  exact (Grid.C07_equispaced _ _ (hlt k hkn) _ hp).2.2.2.2

theorem gridOf_iff (dim : Nat) (n : List Int) (hn : n.length = dim) (lo up : List K) (g : Grid K) :
    gridOf dim n lo up = some g ↔ lo.length = dim ∧ up.length = dim ∧ (∀ k, k < dim → lo.getD k 0 < up.getD k 0) ∧
      ∃ m : List Nat, n = m.map Int.ofNat ∧ (∀ x ∈ m, 0 < x) ∧ Uniform m lo up g := by
  have hz : lo.length = dim → up.length = dim → ((∀ p ∈ List.zip lo up, p.1 < p.2) ↔ ∀ k, k < dim → lo.getD k 0 < up.getD k 0) := by
    intro hl hu
    constructor
    · intro h k hk
      rw [List.getD_eq_getElem _ _ (by omega), List.getD_eq_getElem _ _ (by omega)]
      have := h (lo[k], up[k]) (List.mem_iff_getElem.2 ⟨k, by simp; omega, by simp⟩)
      exact this
    · intro h p hp
      obtain ⟨k, hk, rfl⟩ := List.mem_iff_getElem.1 hp
      have hk' : k < dim := by simp at hk; omega
      have := h k hk'
      rw [List.getD_eq_getElem _ _ (by omega), List.getD_eq_getElem _ _ (by omega)] at this
      simpa using this
  unfold gridOf
  constructor
  · intro h
    split at h
    · rename_i hc
      obtain ⟨hl, hu, hp⟩ := hc
      have hlt := (hz hl.symm hu.symm).1 hp
      refine ⟨hl.symm, hu.symm, hlt, ?_⟩
      obtain ⟨breaks, hb, hg⟩ := Option.bind_eq_some_iff.1 h
      have hval : (∀ bs ∈ breaks, 1 < bs.length ∧ bs.Pairwise (· < ·)) ∧ breaks = g := by
        unfold createGrid at hg
        split at hg
        · rename_i hv; exact ⟨hv, Option.some.inj hg⟩
        · cases hg
      obtain ⟨hv, rfl⟩ := hval
      obtain ⟨hlen, hall⟩ := mapM_spec hb
      have hpos : ∀ k, k < dim → 0 < n.getD k 0 := by
        intro k hk
        by_contra hneg
        rw [List.length_range] at hlen
        have hf := hall k _ (List.getElem?_range hk)
        rcases linspace_nonpos (lo.getD k 0) (up.getD k 0) (n.getD k 0) (by omega) with h1 | ⟨bs, h1, h2⟩
        · obtain ⟨x, hx, -⟩ := hf
          rw [h1] at hx; cases hx
        · obtain ⟨x, hx, hx'⟩ := hf
          rw [h1] at hx
          cases hx
          have := (hv _ (List.mem_of_getElem? hx')).1
          omega
      refine ⟨n.map Int.toNat, ?_, ?_, ?_⟩
      · rw [List.map_map]
        conv_lhs => rw [← List.map_id n]
        refine List.map_congr_left fun x hx => ?_
        obtain ⟨k, hk, rfl⟩ := List.mem_iff_getElem.1 hx
        have := hpos k (by omega)
        rw [List.getD_eq_getElem _ _ hk] at this
        simp only [Function.comp_apply, id, Int.ofNat_eq_natCast]
        omega
      · intro x hx
        obtain ⟨y, hy, rfl⟩ := List.mem_map.1 hx
        obtain ⟨k, hk, rfl⟩ := List.mem_iff_getElem.1 hy
        have := hpos k (by omega)
        rw [List.getD_eq_getElem _ _ hk] at this
        omega
      · have e : breaks = (List.range (n.map Int.toNat).length).map fun k =>
            Grid.equispacedDir (lo.getD k 0) (up.getD k 0) ((n.map Int.toNat).getD k 0) := by
          have hs : (List.range dim).mapM (fun (k : Nat) => linspace (lo.getD k 0) (up.getD k 0) (n.getD k 0 + 1)) =
              some ((List.range dim).map fun k => Grid.equispacedDir (lo.getD k 0) (up.getD k 0) ((n.map Int.toNat).getD k 0)) := by
            refine mapM_some _ _ _ fun k hk => ?_
            have hk := List.mem_range.1 hk
            have hp := hpos k hk
            have : n.getD k 0 = (((n.map Int.toNat).getD k 0 : Nat) : Int) := by
              rw [List.getD_eq_getElem _ _ (by omega), List.getD_eq_getElem _ _ (by simp; omega)] at *
              rw [List.getElem_map]
              omega
            rw [this]
            refine linspace_pos _ _ _ ?_
            omega
          rw [hs] at hb
          rw [List.length_map, hn]
          exact (Option.some.inj hb).symm
        rw [e]
        exact equispaced_uniform _ _ _
    · cases h
  · rintro ⟨hl, hu, hlt, m, rfl, hpos, hun⟩
    have hm : m.length = dim := by simpa using hn
    rw [if_pos ⟨hl.symm, hu.symm, (hz hl hu).2 hlt⟩]
    have hs : (List.range dim).mapM (fun (k : Nat) => linspace (lo.getD k 0) (up.getD k 0) ((m.map Int.ofNat).getD k 0 + 1)) =
        some ((List.range dim).map fun k => Grid.equispacedDir (lo.getD k 0) (up.getD k 0) (m.getD k 0)) := by
      refine mapM_some _ _ _ fun k hk => ?_
      have hk := List.mem_range.1 hk
      have : (m.map Int.ofNat).getD k 0 = ((m.getD k 0 : Nat) : Int) := by
        rw [List.getD_eq_getElem _ _ (by simp; omega), List.getD_eq_getElem _ _ (by omega), List.getElem_map]
        rfl
      rw [this]
      refine linspace_pos _ _ _ ?_
      rw [List.getD_eq_getElem _ _ (by omega)]
      exact hpos _ (List.getElem_mem _)
    rw [hs]
    have e := hun.unique (equispaced_uniform m lo up)
    rw [hm] at e
    rw [← e]
    have hv := uniform_valid hun hpos (by rw [hm]; exact hlt)
    show createGrid g = some g
    unfold createGrid
    exact if_pos hv

theorem typeRule_iff (dim : Nat) (dtype : Option DType) (xmin xmax : Option (Arr K)) (t : DType) (lo up : List K) :
    (inferType dtype xmin xmax = t ∧ corner dim t 0 xmin = some lo ∧ corner dim t 1 xmax = some up) ↔
      TypeRule dtype xmin xmax t ∧ lo = given dim 0 xmin ∧ up = given dim 1 xmax := by
  have hc : ∀ (def' : K) (x : Option (Arr K)) (l : List K), corner dim t def' x = some l ↔
      (∀ a, x = some a → a.dtype = t) ∧ l = given dim def' x := by
    intro def' x l
    cases x with
    | none => simp [corner, given, eq_comm]
    | some a =>
      by_cases h : a.dtype = t
      · simp [corner, given, h, eq_comm]
      · simp [corner, h]
  rw [hc, hc]
  unfold TypeRule
  constructor
  · rintro ⟨h1, ⟨h2, h2'⟩, h3, h3'⟩
    refine ⟨⟨?_, h2, h3, ?_⟩, h2', h3'⟩
    · rintro s rfl; exact h1
    · rintro rfl rfl rfl; exact h1.symm
  · rintro ⟨⟨h1, h2, h3, h4⟩, h2', h3'⟩
    refine ⟨?_, ⟨h2, h2'⟩, h3, h3'⟩
    unfold inferType
    cases dtype with
    | some s => exact h1 s rfl
    | none => cases xmin with
      | some a => exact h2 a rfl
      | none => cases xmax with
        | some b => exact h3 b rfl
        | none => exact (h4 rfl rfl rfl).symm

/-- **C81** (inputs): exactly the inputs that make sense are accepted: two or three directions; a positive number of cells in each
(one Python integer for all, or one per direction; a numpy integer is refused); corners with one coordinate per direction (by
default 0 and 1), the first one below the second; all the types that are given equal. The grid has that number of equal
cells in each direction between the corners, the type is the given one (by default double precision). -/
theorem C81_inputs (dim : Nat) (nCells : NCells) (xmin xmax : Option (Arr K)) (dtype : Option DType) (g : Grid K) (t : DType) :
    unfittedGrid dim nCells xmin xmax dtype = some (g, t) ↔
      (dim = 2 ∨ dim = 3) ∧ TypeRule dtype xmin xmax t ∧
        (given dim 0 xmin).length = dim ∧ (given dim 1 xmax).length = dim ∧
        (∀ k, k < dim → (given dim 0 xmin).getD k 0 < (given dim 1 xmax).getD k 0) ∧
        ∃ n : List Nat, Requested dim n nCells ∧ (∀ m ∈ n, 0 < m) ∧ Uniform n (given dim 0 xmin) (given dim 1 xmax) g := by
  have key : ∀ n : List Int, n.length = dim →
      ((((corner dim (inferType dtype xmin xmax) 0 xmin).bind fun lo =>
        (corner dim (inferType dtype xmin xmax) 1 xmax).bind fun up =>
          (gridOf dim n lo up).map fun g => (g, inferType dtype xmin xmax)) = some (g, t)) ↔
        TypeRule dtype xmin xmax t ∧ gridOf dim n (given dim 0 xmin) (given dim 1 xmax) = some g) := by
    intro n hn
    constructor
    · intro h
      obtain ⟨lo, h1, h⟩ := Option.bind_eq_some_iff.1 h
      obtain ⟨up, h2, h⟩ := Option.bind_eq_some_iff.1 h
      obtain ⟨g', h3, h⟩ := Option.map_eq_some_iff.1 h
      obtain ⟨rfl, rfl⟩ := Prod.mk.inj h
      obtain ⟨a, rfl, rfl⟩ := (typeRule_iff dim dtype xmin xmax _ lo up).1 ⟨rfl, h1, h2⟩
      exact ⟨a, h3⟩
    · rintro ⟨a, h3⟩
      obtain ⟨e, h1, h2⟩ := (typeRule_iff dim dtype xmin xmax t _ _).2 ⟨a, rfl, rfl⟩
      rw [e, h1, Option.bind_some, h2, Option.bind_some, h3]
      rfl
  unfold unfittedGrid
  by_cases hd : dim < 2 ∨ 3 < dim
  · rw [if_pos hd]
    constructor
    · intro h; cases h
    · rintro ⟨h, -⟩; omega
  rw [if_neg hd]
  have hd' : dim = 2 ∨ dim = 3 := by omega
  cases nCells with
  | int k =>
    simp only [cellsArray, Option.bind_some, Requested]
    rw [key _ (by simp), gridOf_iff _ _ (by simp)]
    constructor
    · rintro ⟨a, b, c, d, m, e, f, u⟩
      have hm : m = List.replicate dim k.toNat := by
        have : (m.map Int.ofNat).map Int.toNat = (List.replicate dim k).map Int.toNat := by rw [← e]
        rw [List.map_map, List.map_replicate] at this
        simpa [Function.comp_def] using this
      have hk : 0 < k := by
        have : k.toNat ∈ m := by rw [hm, List.mem_replicate]; exact ⟨by omega, rfl⟩
        have := f _ this
        omega
      exact ⟨hd', a, b, c, d, m, ⟨hm, hk⟩, f, u⟩
    · rintro ⟨-, a, b, c, d, m, ⟨rfl, hk⟩, f, u⟩
      exact ⟨a, b, c, d, _, by simp [List.map_replicate]; right; omega, f, u⟩
  | npInt k =>
    simp only [cellsArray, Requested]
    rw [if_neg (by omega)]
    simp
  | list l =>
    simp only [cellsArray, Requested]
    by_cases hl : l.length = dim
    · rw [if_pos hl, Option.bind_some, key _ hl, gridOf_iff _ _ hl]
      constructor
      · rintro ⟨a, b, c, d, m, e, f, u⟩
        exact ⟨hd', a, b, c, d, m, ⟨e, by rw [← hl, e]; simp⟩, f, u⟩
      · rintro ⟨-, a, b, c, d, m, ⟨e, -⟩, f, u⟩
        exact ⟨a, b, c, d, m, e, f, u⟩
    · rw [if_neg hl]
      constructor
      · intro h; cases h
      · rintro ⟨-, -, -, -, -, n, ⟨rfl, h⟩, -⟩
        simp at hl; omega

/-! ### The mesh -/

/-- The point at the relative coordinates `s` (of the directions) of the cell `c`, for `n` equal cells between the corners. -/
def cellPoint (n : List Nat) (lo up : List K) (c : List Nat) (s : Nat → K) : List K :=
  (List.range n.length).map fun k =>
    lo.getD k 0 + ((c.getD k 0 : K) + s k) / (n.getD k 0 : K) * (up.getD k 0 - lo.getD k 0)

/-- The box of the cell `c`, for `n` equal cells between the corners. -/
def cellBox (n : List Nat) (lo up : List K) (c : List Nat) : List (K × K) :=
  List.zip (cellPoint n lo up c fun _ => 0) (cellPoint n lo up c fun _ => 1)

omit [IsStrictOrderedRing K] in
theorem Uniform.numCellsDir {n : List Nat} {lo up : List K} {g : Grid K} (h : Uniform n lo up g) : g.numCellsDir = n := by
  refine List.ext_getElem? fun k => ?_
  by_cases hk : k < n.length
  · obtain ⟨bs, e1, e2, -⟩ := h.2 k hk
    rw [Grid.numCellsDir, List.getElem?_map, e1, Option.map_some, List.getElem?_eq_getElem hk, e2, List.getD_eq_getElem _ _ hk]
    simp
  · rw [List.getElem?_eq_none (by simp [Grid.numCellsDir, h.1]; omega), List.getElem?_eq_none (by omega)]

omit [IsStrictOrderedRing K] in
theorem Uniform.getD {n : List Nat} {lo up : List K} {g : Grid K} (h : Uniform n lo up g) {k i : Nat} (hk : k < n.length)
    (hi : i ≤ n.getD k 0) :
    (g.getD k []).getD i 0 = lo.getD k 0 + (i : K) / (n.getD k 0 : K) * (up.getD k 0 - lo.getD k 0) := by
  obtain ⟨bs, e1, -, e3⟩ := h.2 k hk
  simp [List.getD_eq_getElem?_getD, e1, e3 i hi]

omit [IsStrictOrderedRing K] in
theorem Uniform.cellDomain {n : List Nat} {lo up : List K} {g : Grid K} (h : Uniform n lo up g) {c : List Nat}
    (hc : InSize n c) : g.cellDomain (flatIndex c n) = some (cellBox n lo up c) := by
  have hn := h.numCellsDir
  rw [Grid.cellDomain_of_tid (tid := c) (by rw [hn]; exact hc) (by rw [hn]; exact flat_eq hc)]
  congr 1
  refine List.ext_getElem? fun k => ?_
  by_cases hk : k < n.length
  · rw [Grid.cellDomainTid_getElem? g c k (by rw [h.1]; exact hk) (by rw [hc.1, h.1])]
    have hck := hc.2 k hk
    rw [h.getD hk (by omega), h.getD hk (by omega)]
    simp [cellBox, cellPoint, List.zip, List.getElem?_zipWith, hk]
  · rw [List.getElem?_eq_none (by simp [Grid.cellDomainTid, h.1]; omega),
      List.getElem?_eq_none (by simp [cellBox, cellPoint]; omega)]

theorem Uniform.pointOf {n : List Nat} {lo up : List K} {g : Grid K} (h : Uniform n lo up g) (hpos : ∀ m ∈ n, 0 < m) {c t : List Nat}
    (hc : InSize n c) (d : Nat) : pointOf d g c t = cellPoint n lo up c fun k => (t.getD k 0 : K) / (d : K) := by
  unfold Py.pointOf cellPoint
  rw [h.1]
  refine List.map_congr_left fun k hk => ?_
  have hk := List.mem_range.1 hk
  have hck := hc.2 k hk
  have hn : (n.getD k 0 : K) ≠ 0 := Nat.cast_ne_zero.2 (by omega)
  simp only
  rw [h.getD hk (by omega), h.getD hk (by omega)]
  push_cast
  generalize (t.getD k 0 : K) / (d : K) = s
  field_simp
  ring

theorem eq_range_of_sorted {l : List Nat} {N : Nat} (hs : l.Pairwise (· < ·)) (hl : l.length = N) (hlt : ∀ i ∈ l, i < N) :
    l = List.range N := by
  have hnd : l.Nodup := hs.imp fun h => Nat.ne_of_lt h
  have hp : l.Perm (List.range N) :=
    (List.subperm_of_subset hnd fun i hi => List.mem_range.2 (hlt i hi)).perm_of_length_le (by simp [hl])
  exact hp.eq_of_pairwise (fun a b _ _ h1 h2 => by omega) hs List.pairwise_lt_range

/-- The numbers (in the grid) of the cells of the mesh, in the order in which they are passed to DOLFINx. -/
def Passed.Ids (p : Passed K) (total : Nat) (ids : List Nat) : Prop :=
  (p.active = none ∧ ids = List.range total) ∨ p.active = some ids

/-- **C81** (mesh): whenever the inputs are accepted the mesh is created, for every implicit function whose signs are determined
soundly. Its cells are, in increasing order, those of the grid that are not empty, or all of them when asked for, and the
domain is the one built on that grid. Node `j` of each cell is node `j` of the basix element in the box of the cell of the
grid. No part of the domain is lost: the function is positive in the cells left out, or their quadrature finds nothing
inside. In double precision (or when nothing is rounded: for single precision see `C81_single_precision_fails`). -/
theorem C81_unfitted_mesh (debug : Bool) (o : Oracles K) (hm : 0 ≤ o.margin) (phi : List K → K) (hs : SoundSign phi o.sign)
    (round : K → K) (dim : Nat) (nCells : NCells) (xmin xmax : Option (Arr K)) (dtype : Option DType) (g : Grid K) (t : DType)
    (hg : unfittedGrid dim nCells xmin xmax dtype = some (g, t)) (n : List Nat) (hreq : Requested dim n nCells) (degree : Nat)
    (hd : 1 ≤ degree) (hr : t = .f64 ∨ ∀ x, round x = x) (excludeEmpty : Bool) (junk : Nat → K) :
    ∃ dom p ids, createUnfitted debug o round dim nCells xmin xmax degree excludeEmpty dtype junk = some (g, dom, p) ∧
      build debug o g none = .ok dom ∧ p.breaks = g ∧ p.Ids (listProd n) ids ∧
      ids.Pairwise (· < ·) ∧ ids.length = p.conn.length ∧ (∀ i ∈ ids, i < listProd n) ∧
      (∀ c, InSize n c → (flatIndex c n ∈ ids ↔ excludeEmpty = false ∨ ¬ HasStatus n dom.tree (flatIndex c n) .empty)) ∧
      (∀ (e : Nat) (c : List Nat), InSize n c → ids[e]? = some (flatIndex c n) →
        ∃ row, p.conn[e]? = some row ∧ row.length = (degree + 1) ^ dim ∧
          ∀ (j : Nat) (s : List Nat), ((basix dim).nodes dim (degree + 1))[j]? = some s → ∃ id, row[j]? = some id ∧
            p.nodes[id]? = some (cellPoint n (given dim 0 xmin) (given dim 1 xmax) c fun k => (s.getD k 0 : K) / (degree : K))) ∧
      (∀ c, InSize n c → flatIndex c n ∉ ids →
        (∀ x, InClosedBox 0 (cellBox n (given dim 0 xmin) (given dim 1 xmax) c) x → 0 < phi x) ∨
          o.cell (cellBox n (given dim 0 xmin) (given dim 1 xmax) c) = .empty) := by
  obtain ⟨hdim, -, hl, hu, hlt, n', hreq', hpos, hun⟩ := (C81_inputs dim nCells xmin xmax dtype g t).1 hg
  have hnn : n' = n := by
    cases nCells with
    | int k => exact hreq'.1.trans hreq.1.symm
    | npInt k => exact hreq.elim
    | list l =>
      have := hreq'.1.symm.trans hreq.1
      exact List.map_injective_iff.2 (fun a b h => Int.ofNat.inj h) this
  subst hnn
  have hlen : n'.length = dim := by
    cases nCells with
    | int k => rw [hreq.1]; simp
    | npInt k => exact hreq.elim
    | list l => exact hreq.2
  generalize given dim 0 xmin = lo at *
  generalize given dim 1 xmax = up at *
  have hv : g.Valid := uniform_valid hun hpos (by rw [hlen]; exact hlt)
  have hgl : g.length = dim := by rw [hun.1, hlen]
  have hne : g ≠ [] := by rintro rfl; simp at hgl; omega
  have hnum := hun.numCellsDir
  obtain ⟨dom, hb, hreach, hstat⟩ := C12_decomposition_sound debug o g hv hne hm phi hs
  obtain ⟨dom', hb', hF, -⟩ := build_facts debug o g none hv hne (.inr rfl)
  obtain rfl : dom' = dom := by rw [hb] at hb'; cases hb'; rfl
  have hdn : dom'.n = n' := by
    obtain ⟨d2, h1, h2, -⟩ := build_summary debug o g none hv hne (.inr rfl)
    rw [hb] at h1; cases h1
    rw [h2, hnum]
  rw [hnum] at hstat
  -- the nodes and cells
  have hbreaks : (g.map fun bs => bs.map (castTo round t)) = g := by
    have : castTo round t = id := by
      funext x
      rcases hr with rfl | hr
      · rfl
      · cases t
        · exact hr x
        · rfl
    simp [this]
  have hgb : g.map List.length = n'.map (· + 1) := by
    rw [← hnum, Grid.numCellsDir, List.map_map]
    refine List.map_congr_left fun bs hbs => ?_
    have := (hv bs hbs).1
    simp only [Function.comp_apply]
    omega
  obtain ⟨conn, nodes, hconn, hnodes, hcells⟩ := C63_cells (K := K) hd (breaks := g) (by omega) (by omega) n' hpos hgb junk
  have hclen : conn.length = listProd n' := by
    obtain ⟨conn', h1, h2, -⟩ := C63_connectivity (d := degree) (nCells := n') hd (by omega) (by omega) hpos
    rw [hconn] at h1; cases h1; exact h2
  have hrow : ∀ c, InSize n' c → ∃ row, conn[flatIndex c n']? = some row ∧ row.length = (degree + 1) ^ dim ∧
      ∀ (j : Nat) (s : List Nat), ((basix dim).nodes dim (degree + 1))[j]? = some s → ∃ id, row[j]? = some id ∧
        nodes[id]? = some (cellPoint n' lo up c fun k => (s.getD k 0 : K) / (degree : K)) := by
    intro c hc
    obtain ⟨row, h1, h2, h3⟩ := hcells c hc
    rw [hlen] at h2 h3
    refine ⟨row, h1, h2, fun j s hj => ?_⟩
    obtain ⟨id, h4, h5⟩ := h3 j s hj
    exact ⟨id, h4, by rw [h5, hun.pointOf hpos hc]⟩
  have hlost : ∀ c, InSize n' c → HasStatus n' dom'.tree (flatIndex c n') .empty →
      (∀ x, InClosedBox 0 (cellBox n' lo up c) x → 0 < phi x) ∨ o.cell (cellBox n' lo up c) = .empty := by
    intro c hc hemp
    have hclt : flatIndex c n' < listProd n' := flatIndex_lt (forall2_lt_iff_inSize.2 hc)
    obtain ⟨b, hb1, -, hcase⟩ := hstat _ hclt
    rw [hun.cellDomain hc] at hb1
    cases hb1
    have huniq : ∀ st, HasStatus n' dom'.tree (flatIndex c n') st → st = .empty := by
      intro st hst
      have hr' := hF.reach
      rw [hdn] at hr'
      have hsh := hF.shape.2
      rw [hdn] at hsh
      exact (Tree.WF.of_reachable hsh hr').1.hasStatus_unique hst hemp
    rcases hcase with ⟨-, -, h⟩ | ⟨h, -, -⟩ | ⟨-, h, -⟩
    · exact .inl h
    · exact absurd (huniq _ h) (by simp)
    · right
      have := huniq _ h
      unfold classifierVerdict at this
      cases hcell : o.cell (cellBox n' lo up c) <;> rw [hcell] at this <;> simp only at this
      all_goals first | rfl | (cases this; done) | (split at this <;> cases this)
  have hopt : (build debug o g none).toOption = some dom' := by rw [hb]; rfl
  -- the active cells
  obtain ⟨active, ids, hact, hids, hsort, hidlt, hmem⟩ : ∃ (active : Option (List Nat)) (ids : List Nat),
      UDomain.activeCells dom' excludeEmpty = some active ∧
      ((active = none ∧ ids = List.range (listProd n')) ∨ active = some ids) ∧ ids.Pairwise (· < ·) ∧
      (∀ i ∈ ids, i < listProd n') ∧
      (∀ c, InSize n' c → (flatIndex c n' ∈ ids ↔ excludeEmpty = false ∨ ¬ HasStatus n' dom'.tree (flatIndex c n') .empty)) := by
    cases excludeEmpty with
    | false =>
      refine ⟨none, List.range (listProd n'), rfl, .inl ⟨rfl, rfl⟩, List.pairwise_lt_range, fun i hi => List.mem_range.1 hi,
        fun c hc => ?_⟩
      simp only [true_or, iff_true]
      exact List.mem_range.2 (flatIndex_lt (forall2_lt_iff_inSize.2 hc))
    | true =>
      obtain ⟨⟨act, h1, h2, h3⟩, -⟩ := UDomain.C66_active hF
      rw [hdn] at h3
      refine ⟨some act, act, h1, .inr rfl, h2, fun i hi => ?_, fun c hc => ?_⟩
      · rcases (h3 i).1 hi with h | h <;> exact cellIn_lt h.choose_spec.2
      · rw [h3]
        have hclt : flatIndex c n' < listProd n' := flatIndex_lt (forall2_lt_iff_inSize.2 hc)
        have hr' := hF.reach
        rw [hdn] at hr'
        have hsh := hF.shape.2
        rw [hdn] at hsh
        have huniq := fun {s s'} => (Tree.WF.of_reachable hsh hr').1.hasStatus_unique (c := flatIndex c n') (s := s) (s' := s')
        constructor
        · rintro (h | h)
          · exact .inr fun h' => by have := huniq h h'; cases this
          · exact .inr fun h' => by have := huniq h h'; cases this
        · rintro (h | h)
          · cases h
          · obtain ⟨b, -, -, hcase⟩ := hstat _ hclt
            rcases hcase with ⟨h', -⟩ | ⟨h', -⟩ | ⟨-, h', -⟩
            · exact absurd h' h
            · exact .inl h'
            · unfold classifierVerdict at h'
              cases hcell : o.cell b <;> rw [hcell] at h' <;> simp only at h'
              all_goals first | exact absurd h' h | exact .inl h' | exact .inr h' | (split at h' <;> exact .inl h')
  have hstore : storedActive active conn = none ∧ ids = List.range (listProd n') ∨ storedActive active conn = some ids := by
    rcases hids with ⟨rfl, rfl⟩ | rfl
    · exact .inl ⟨rfl, rfl⟩
    · simp only [storedActive]
      split
      · rename_i h
        exact .inl ⟨rfl, eq_range_of_sorted hsort (by omega) hidlt⟩
      · exact .inr rfl
  have hpass : ∃ conn', passedMesh 0 nodes conn active none (fun _ => 0) = some (nodes, conn', []) ∧
      conn'.length = ids.length ∧ ∀ (e i : Nat), ids[e]? = some i → conn'[e]? = conn[i]? := by
    unfold passedMesh
    rcases hstore with ⟨h, rfl⟩ | h
    · rw [h]
      refine ⟨conn, rfl, by simp [hclen], fun e i he => ?_⟩
      obtain ⟨h1, h2⟩ := List.getElem?_eq_some_iff.1 he
      rw [List.getElem_range] at h2
      rw [h2]
    · rw [h]
      obtain ⟨r, hr⟩ := mapM_ok (f := fun i : Nat => conn[i]?) (l := ids) fun i hi => by
        have := hidlt i hi
        rw [List.getElem?_eq_getElem (by omega)]; rfl
      refine ⟨r, ?_, (mapM_spec hr).1, fun e i he => ?_⟩
      · show (take conn ids).bind _ = _
        rw [take, hr]; rfl
      · obtain ⟨b, hb1, hb2⟩ := (mapM_spec hr).2 e i he
        rw [hb2, hb1]
  obtain ⟨conn', hp, hp2, hp3⟩ := hpass
  refine ⟨dom', ⟨g, nodes, conn', storedActive active conn⟩, ids, ?_, hb, rfl, hstore, hsort, hp2.symm, hidlt, hmem,
    fun e c hc he => ?_, fun c hc hnot => ?_⟩
  · unfold createUnfitted
    rw [hg, Option.bind_some, hopt, Option.bind_some, hact, Option.bind_some]
    unfold cartesianMesh
    rw [if_neg (by simp only; omega)]
    simp only [hbreaks, hnodes, Option.bind_some, hnum, hconn, hp, Option.map_some]
  · simp only
    rw [hp3 e _ he]
    exact hrow c hc
  · refine hlost c hc ?_
    by_contra h
    exact hnot ((hmem c hc).2 (.inr h))

/-- A grid of 3 x 1 cells between the default corners, as used below. -/
theorem grid31 (t : DType) : unfittedGrid 2 (.list [3, 1]) (none : Option (Arr ℚ)) none (some t) =
    some ([[0, 1 / 3, 2 / 3, 1], [0, 1]], t) := by
  rw [C81_inputs]
  refine ⟨.inl rfl, ⟨by rintro s ⟨⟩; rfl, by simp, by simp, by simp⟩, rfl, rfl, ?_, [3, 1], ⟨rfl, rfl⟩, by decide, rfl, ?_⟩
  · intro k hk
    have : k = 0 ∨ k = 1 := by omega
    rcases this with rfl | rfl <;> decide +kernel
  · intro k hk
    have : k = 0 ∨ k = 1 := by simp at hk; omega
    rcases this with rfl | rfl
    · refine ⟨_, rfl, rfl, fun i hi => ?_⟩
      have : i = 0 ∨ i = 1 ∨ i = 2 ∨ i = 3 := by simp at hi; omega
      rcases this with rfl | rfl | rfl | rfl <;> decide +kernel
    · refine ⟨_, rfl, rfl, fun i hi => ?_⟩
      have : i = 0 ∨ i = 1 := by simp at hi; omega
      rcases this with rfl | rfl <;> decide +kernel

/-- **C81** fails in single precision: the domain is computed in the grid with the breaks in double precision, but the nodes of
the mesh are the rounded breaks. With 3 x 1 cells in the unit square, whatever the rounding makes of 1/3, the first cell of
the grid ends at 1/3, and that of the mesh at the rounded value. -/
theorem C81_single_precision_fails (debug : Bool) (o : Oracles ℚ) (round : ℚ → ℚ) (hr : round (1 / 3) ≠ 1 / 3) (junk : Nat → ℚ) :
    ∃ g dom p x, createUnfitted debug o round 2 (.list [3, 1]) none none 1 false (some .f32) junk = some (g, dom, p) ∧
      g.cellDomain 0 = some [(0, 1 / 3), (0, 1)] ∧ ((p.conn[0]?).bind fun row => row[1]?) = some 1 ∧
      p.nodes[1]? = some [x, round 0] ∧ x ≠ 1 / 3 := by
  have hv : Grid.Valid ([[0, 1 / 3, 2 / 3, 1], [0, 1]] : Grid ℚ) := by
    intro bs hbs
    simp only [List.mem_cons, List.not_mem_nil, or_false] at hbs
    rcases hbs with rfl | rfl <;> exact ⟨by decide, by decide +kernel⟩
  obtain ⟨dom, hb, -, -⟩ := build_facts debug o ([[0, 1 / 3, 2 / 3, 1], [0, 1]] : Grid ℚ) none hv (by simp) (.inr rfl)
  have hopt : (build debug o ([[0, 1 / 3, 2 / 3, 1], [0, 1]] : Grid ℚ) none).toOption = some dom := by rw [hb]; rfl
  have hb2 : Grid.numCellsDir ([[0, 1 / 3, 2 / 3, 1], [0, 1]] : Grid ℚ) = [3, 1] := rfl
  have hc : meshConn 1 [3, 1] = some [[0, 1, 4, 5], [1, 2, 5, 6], [2, 3, 6, 7]] := by decide +kernel
  have hmesh : cartesianMesh round ([[0, 1 / 3, 2 / 3, 1], [0, 1]] : Grid ℚ) 1 none .f32 junk =
      some ⟨[[round 0, round (1 / 3), round (2 / 3), round 1], [round 0, round 1]],
        [[round 0, round 0], [round (1 / 3), round 0], [round (2 / 3), round 0], [round 1, round 0],
          [round 0, round 1], [round (1 / 3), round 1], [round (2 / 3), round 1], [round 1, round 1]],
        [[0, 1, 4, 5], [1, 2, 5, 6], [2, 3, 6, 7]], none⟩ := by
    unfold cartesianMesh
    rw [if_neg (by decide), hb2, hc]
    rfl
  have hcr : createUnfitted debug o round 2 (.list [3, 1]) none none 1 false (some .f32) junk =
      (cartesianMesh round ([[0, 1 / 3, 2 / 3, 1], [0, 1]] : Grid ℚ) 1 none .f32 junk).map fun p =>
        (([[0, 1 / 3, 2 / 3, 1], [0, 1]] : Grid ℚ), dom, p) := by
    unfold createUnfitted
    rw [grid31, Option.bind_some, hopt, Option.bind_some]
    simp only [UDomain.activeCells, Bool.false_eq_true, if_false, Option.bind_some]
  rw [hmesh, Option.map_some] at hcr
  exact ⟨_, dom, _, round (1 / 3), hcr, by decide +kernel, rfl, rfl, hr⟩

/-! ### `create_Cartesian_mesh` -/

/-- **C81** fails for fitted Cartesian meshes: `create_Cartesian_mesh` raises for all arguments, as the ghost mode is passed to the
constructor in the place of the active cells. -/
theorem C81_create_Cartesian_mesh_fails (round : K → K) (n : List Int) (xmin xmax : Option (Arr K)) (degree : Nat)
    (ghost : GhostMode) (junk : Nat → K) : createCartesian round n xmin xmax degree ghost junk = none := by
  have hcall : ∀ (g : Grid K) (t : DType),
      cartesianMeshCall round g degree (.ghost ghost) (.dtype t) (.dtype .f64) junk = none := fun _ _ => rfl
  unfold createCartesian
  simp only [hcall, Option.bind_fun_none, ite_self]

/-! ### The box of a cell -/

/-- **C81** fails for the tensor index and the bounding box of a cell given by its number (as documented): an exception, for every
mesh and cell. -/
theorem C81_cell_box_fails (m : PyMesh) (nCells : List Nat) (breaks : List (List K)) (l : Nat) :
    cellTensorIndex m nCells (.scalar l) = none ∧ cellBBox m nCells breaks (.scalar l) = none := by
  have h : cellTensorIndex m nCells (.scalar l) = none := by
    unfold cellTensorIndex origCellsNd
    rw [show Nd.index m.cellIndex (.scalar l) = (m.cellIndex[l]?).map .scalar from rfl]
    cases m.cellIndex[l]? with
    | none => rfl
    | some o =>
      rw [Option.map_some, Option.bind_some]
      cases ha : m.active with
      | none => rfl
      | some a =>
        simp only
        rw [show Nd.index a (.scalar o) = (a[o]?).map .scalar from rfl]
        cases h : a[o]? with
        | none => rfl
        | some v => rfl
  exact ⟨h, by rw [cellBBox, h]; rfl⟩

/-- **C81** (boxes): given as an array with one number, the tensor index is the one with the original number of the cell, and the
bounding box is the box of that cell of the grid. The full statement is for numbers: see `C81_cell_box_fails`. -/
theorem C81_cell_box_partial (m : PyMesh) (l v : Nat) (h : m.OrigCell l v) (n : List Nat) (lo up : List K) (g : Grid K)
    (hg : Uniform n lo up g) (hv : v < listProd n) :
    ∃ c, InSize n c ∧ flatIndex c n = v ∧ cellTensorIndex m n (.vec [l]) = some c ∧
      cellBBox m n g (.vec [l]) = some (cellBox n lo up c) := by
  obtain ⟨h1, h2⟩ := C62_flat_tensor n
  obtain ⟨h3, h4⟩ := h2 v hv
  have hnd : origCellsNd m (.vec [l]) = some (.vec [v]) := by
    obtain ⟨o, ho, hm⟩ := (origCell_iff m l v).1 h
    unfold origCellsNd Nd.index
    cases ha : m.active with
    | none =>
      rw [ha] at hm
      simp only at hm
      subst hm
      simp [take, ho]
    | some a =>
      rw [ha] at hm
      simp only at hm
      simp [take, ho, Nd.index, hm]
  have ht : cellTensorIndex m n (.vec [l]) = some (getTensorIndex n v) := by
    rw [cellTensorIndex, hnd]; rfl
  have hf : flatIndex (getTensorIndex n v) n = v := by rw [← (h1 _ h3).1]; exact h4
  refine ⟨getTensorIndex n v, h3, hf, ht, ?_⟩
  rw [cellBBox, ht, Option.bind_some]
  generalize getTensorIndex n v = c at *
  have e : cellBox n lo up c = (List.range n.length).map fun k =>
      (lo.getD k 0 + (c.getD k 0 : K) / (n.getD k 0 : K) * (up.getD k 0 - lo.getD k 0),
        lo.getD k 0 + ((c.getD k 0 + 1 : Nat) : K) / (n.getD k 0 : K) * (up.getD k 0 - lo.getD k 0)) := by
    refine List.ext_getElem (by simp [cellBox, cellPoint]) fun k h1 h2 => ?_
    simp [cellBox, cellPoint]
  rw [e]
  refine mapM_some _ _ _ fun k hk => ?_
  have hk := List.mem_range.1 hk
  obtain ⟨bs, e1, -, e3⟩ := hg.2 k hk
  have hck := h3.2 k hk
  rw [e1, Option.bind_some, List.getElem?_eq_getElem (by rw [h3.1]; exact hk), Option.bind_some]
  have hce : c.getD k 0 = c[k]'(by rw [h3.1]; exact hk) := List.getD_eq_getElem _ _ _
  rw [hce] at hck ⊢
  rw [e3 _ (by omega), e3 _ (by omega)]
  rfl

end

/-! ### Tags of the boundary facets -/

/-- The facets collected for face `f`: those with the local number `f` of the cells of that face. -/
theorem faceFacets_spec {argsort : List Int → List Nat} (hs : ∀ l, IsArgsort l (argsort l)) (m : PyMesh) {nRows : Nat}
    (hm : m.Ok nRows) (nCells : List Nat) (hn : Sizes 1 nCells) (f : Nat) (hf : f < 2 * nCells.length)
    (cellFacets : List (List Nat)) (hlen : cellFacets.length = m.cellIndex.length)
    (hrow : ∀ row ∈ cellFacets, row.length = 2 * nCells.length) :
    ∃ r, faceFacets argsort m nCells cellFacets f = some r ∧
      ∀ x, x ∈ r ↔ ∃ (l : Nat) (t : List Nat) (row : List Nat), OnLexFacet nCells f t ∧ m.OrigCell l (flatIndex t nCells) ∧
        cellFacets[l]? = some row ∧ row[f]? = some x := by
  obtain ⟨cells, h1, -, h3⟩ := C64_face_cells hs m hm nCells hn f hf
  have hl : ∀ l ∈ cells, l < cellFacets.length := by
    intro l hl
    obtain ⟨t, -, ho⟩ := (h3 l).1 hl
    obtain ⟨o, ho, -⟩ := (origCell_iff _ _ _).1 ho
    rw [hlen]; exact (List.getElem?_eq_some_iff.1 ho).1
  have hval : (cells.map Int.ofNat).mapM (fun c : Int => (cellFacets[c.toNat]?).bind fun row => row[f]?) =
      some (cells.map fun l => (cellFacets.getD l []).getD f 0) := by
    rw [List.mapM_map]
    refine mapM_some _ _ _ fun l hlm => ?_
    have hl' := hl l hlm
    have hr := hrow _ (List.getElem_mem hl')
    simp only [Function.comp_apply, Int.ofNat_eq_natCast, Int.toNat_natCast]
    rw [List.getElem?_eq_getElem hl', Option.bind_some, List.getD_eq_getElem _ [] hl', List.getElem?_eq_getElem (by omega),
      List.getD_eq_getElem _ 0 (by omega)]
  obtain ⟨u1, u2⟩ := npUnique_spec (cells.map fun l => (cellFacets.getD l []).getD f 0)
  refine ⟨_, by unfold faceFacets; rw [h1, Option.bind_some, hval, Option.map_some], fun x => ?_⟩
  rw [u2]
  constructor
  · intro hx
    obtain ⟨l, hlm, rfl⟩ := List.mem_map.1 hx
    obtain ⟨t, ht, ho⟩ := (h3 l).1 hlm
    have hl' := hl l hlm
    have hr := hrow _ (List.getElem_mem hl')
    refine ⟨l, t, cellFacets[l], ht, ho, List.getElem?_eq_getElem hl', ?_⟩
    rw [List.getElem?_eq_getElem (by omega), List.getD_eq_getElem _ [] hl', List.getD_eq_getElem _ 0 (by omega)]
  · rintro ⟨l, t, row, ht, ho, hrw, hx⟩
    exact List.mem_map.2 ⟨l, (h3 l).2 ⟨t, ht, ho⟩, by simp [List.getD_eq_getElem?_getD, hrw, hx]⟩

/-- **C81** (boundary tags): the facets passed to DOLFINx are in order, with a tag for each; the facets with tag `f` are those with the
local number `f` (in the order of DOLFINx) of the cells of face `f` (in the lexicographical order). -/
theorem C81_boundary_tags {argsort : List Int → List Nat} (hs : ∀ l, IsArgsort l (argsort l)) (m : PyMesh) {nRows : Nat}
    (hm : m.Ok nRows) (nCells : List Nat) (hn : Sizes 1 nCells)
    (cellFacets : List (List Nat)) (hlen : cellFacets.length = m.cellIndex.length)
    (hrow : ∀ row ∈ cellFacets, row.length = 2 * nCells.length) :
    ∃ facets tags, bdryTags argsort m nCells cellFacets = some (facets, tags) ∧ facets.length = tags.length ∧
      facets.Pairwise (· ≤ ·) ∧
      ∀ x f, (x, f) ∈ List.zip facets tags ↔ f < 2 * nCells.length ∧
        ∃ (l : Nat) (t : List Nat) (row : List Nat), OnLexFacet nCells f t ∧ m.OrigCell l (flatIndex t nCells) ∧
          cellFacets[l]? = some row ∧ row[f]? = some x := by
  have hface : ∀ f, f < 2 * nCells.length → ∃ r, faceFacets argsort m nCells cellFacets f = some r ∧ _ := fun f hf =>
    faceFacets_spec hs m hm nCells hn f hf cellFacets hlen hrow
  have hval : ((List.range (2 * nCells.length)).mapM fun (f : Nat) =>
      (faceFacets argsort m nCells cellFacets f).map fun facets => facets.map fun x => (x, f)) =
      some ((List.range (2 * nCells.length)).map fun f =>
        ((faceFacets argsort m nCells cellFacets f).getD []).map fun x => (x, f)) := by
    refine mapM_some _ _ _ fun f hf => ?_
    obtain ⟨r, h, -⟩ := hface f (List.mem_range.1 hf)
    rw [h]; rfl
  let all := ((List.range (2 * nCells.length)).map fun f =>
        ((faceFacets argsort m nCells cellFacets f).getD []).map fun x => (x, f)).flatten
  have hall : ∀ x f, (x, f) ∈ all ↔ f < 2 * nCells.length ∧
        ∃ (l : Nat) (t : List Nat) (row : List Nat), OnLexFacet nCells f t ∧ m.OrigCell l (flatIndex t nCells) ∧
          cellFacets[l]? = some row ∧ row[f]? = some x := by
    intro x f
    simp only [all, List.mem_flatten, List.mem_map, List.mem_range]
    constructor
    · rintro ⟨l, ⟨f', hf', rfl⟩, hx⟩
      obtain ⟨y, hy, e⟩ := List.mem_map.1 hx
      obtain ⟨rfl, rfl⟩ := Prod.mk.inj e
      obtain ⟨r, h1, h2⟩ := hface f' hf'
      rw [h1] at hy
      exact ⟨hf', (h2 _).1 hy⟩
    · rintro ⟨hf, hx⟩
      obtain ⟨r, h1, h2⟩ := hface f hf
      exact ⟨_, ⟨f, hf, rfl⟩, List.mem_map.2 ⟨x, by rw [h1]; exact (h2 x).2 hx, rfl⟩⟩
  obtain ⟨hp, hsort⟩ := hs (all.map fun p => Int.ofNat p.1)
  have hidx : ∀ i ∈ argsort (all.map fun p => Int.ofNat p.1), i < all.length := by
    intro i hi
    simpa using List.mem_range.1 (hp.mem_iff.1 hi)
  have htake : ∀ {α : Type} (z : Nat × Nat → α) (dflt : Nat × Nat), take (all.map z) (argsort (all.map fun p => Int.ofNat p.1)) =
      some ((argsort (all.map fun p => Int.ofNat p.1)).map fun i => z (all.getD i dflt)) := by
    intro α z dflt
    refine mapM_some _ _ _ fun i hi => ?_
    have := hidx i hi
    rw [List.getElem?_map, List.getElem?_eq_getElem this, List.getD_eq_getElem _ _ this]
    rfl
  refine ⟨(argsort (all.map fun p => Int.ofNat p.1)).map fun i => (all.getD i (0, 0)).1,
    (argsort (all.map fun p => Int.ofNat p.1)).map fun i => (all.getD i (0, 0)).2, ?_, ?_, ?_, ?_⟩
  · unfold bdryTags
    rw [hval]
    simp only [Option.bind_some]
    rw [show ((List.range (2 * nCells.length)).map fun f =>
        ((faceFacets argsort m nCells cellFacets f).getD []).map fun x => (x, f)).flatten = all from rfl,
      htake Prod.fst (0, 0), Option.bind_some, htake Prod.snd (0, 0), Option.map_some]
  · simp
  · rw [List.pairwise_map] at hsort ⊢
    refine hsort.imp_of_mem fun {a b} ha hb h => ?_
    have ha := hidx a ha
    have hb := hidx b hb
    rw [List.getD_eq_getElem _ _ (by simpa using ha), List.getD_eq_getElem _ _ (by simpa using hb)] at h
    rw [List.getD_eq_getElem _ _ ha, List.getD_eq_getElem _ _ hb]
    simpa using h
  · intro x f
    rw [← hall, List.zip_map']
    constructor
    · intro h
      obtain ⟨i, hi, e⟩ := List.mem_map.1 h
      have := hidx i hi
      have e : all.getD i (0, 0) = (x, f) := e
      rw [← e, List.getD_eq_getElem _ _ this]
      exact List.getElem_mem _
    · intro h
      obtain ⟨i, hi, e⟩ := List.mem_iff_getElem.1 h
      refine List.mem_map.2 ⟨i, hp.mem_iff.2 (List.mem_range.2 (by simpa using hi)), ?_⟩
      rw [List.getD_eq_getElem _ _ hi, e]

/-- **C81** (boundary tags) in meshes of segments: the facets with tag `f` are those on side `f` of the cells of that face. The full
statement is for all the dimensions: see `C81_boundary_tags_fail`. -/
theorem C81_boundary_tags_partial {argsort : List Int → List Nat} (hs : ∀ l, IsArgsort l (argsort l)) (m : PyMesh) {nRows : Nat}
    (hm : m.Ok nRows) (n : Nat) (hn : 0 < n) (cellFacets : List (List Nat)) (hlen : cellFacets.length = m.cellIndex.length)
    (hrow : ∀ row ∈ cellFacets, row.length = 2) :
    ∃ facets tags, bdryTags argsort m [n] cellFacets = some (facets, tags) ∧ facets.length = tags.length ∧
      facets.Pairwise (· ≤ ·) ∧
      ∀ x f, (x, f) ∈ List.zip facets tags ↔ f < 2 ∧
        ∃ (l g : Nat) (t : List Nat) (row : List Nat), OnLexFacet [n] f t ∧ m.OrigCell l (flatIndex t [n]) ∧
          SideFacet 1 g f ∧ cellFacets[l]? = some row ∧ row[g]? = some x := by
  obtain ⟨facets, tags, h1, h2, h3, h4⟩ := C81_boundary_tags hs m hm [n] ⟨by simp, by simp, by simpa using Nat.succ_le_of_lt hn⟩ cellFacets hlen
    (by simpa using hrow)
  refine ⟨facets, tags, h1, h2, h3, fun x f => ?_⟩
  rw [h4]
  constructor
  · rintro ⟨hf, l, t, row, a, b, c, d⟩
    exact ⟨hf, l, f, t, row, a, b, (sideFacet_last (dim := 1) (by omega) (by omega) (by simpa using hf) (.inl rfl) f).2 rfl, c, d⟩
  · rintro ⟨hf, l, g, t, row, a, b, e, c, d⟩
    obtain rfl := (sideFacet_last (dim := 1) (by omega) (by omega) (by simpa using hf) (.inl rfl) g).1 e
    exact ⟨hf, l, t, row, a, b, c, d⟩

/-- **C81** (boundary tags) fails in 2D and 3D: for a single cell, however its facets are numbered, the facet on side `f` does not get
the tag `f`, for all the sides but the last. -/
theorem C81_boundary_tags_fail {argsort : List Int → List Nat} (hs : ∀ l, IsArgsort l (argsort l)) (dim f : Nat)
    (hdim : dim = 2 ∨ dim = 3) (hf : f + 1 < 2 * dim) (row : List Nat) (hrow : row.length = 2 * dim) (hnd : row.Nodup) :
    ∃ facets tags, bdryTags argsort ⟨none, [], [0], []⟩ (List.replicate dim 1) [row] = some (facets, tags) ∧
      ∀ g x, SideFacet dim g f → row[g]? = some x → (x, f) ∉ List.zip facets tags := by
  obtain ⟨facets, tags, h1, -, -, h4⟩ := C81_boundary_tags hs ⟨none, [], [0], []⟩ (nRows := 1)
    ⟨by simp, by simp, by simp, by simp⟩ (List.replicate dim 1)
    ⟨by simp; omega, by simp; omega, fun k hk => by simp at hk; simp [hk]⟩ [row] rfl (by simpa using hrow)
  refine ⟨facets, tags, h1, fun g x hg hx hmem => ?_⟩
  obtain ⟨-, l, t, row', -, -, a, b⟩ := (h4 x f).1 hmem
  have hl : l = 0 := by have := (List.getElem?_eq_some_iff.1 a).1; simpa using this
  subst hl
  obtain rfl : row = row' := by simpa using a
  obtain ⟨hgl, hgv⟩ := List.getElem?_eq_some_iff.1 hx
  obtain ⟨hfl, hfv⟩ := List.getElem?_eq_some_iff.1 b
  have hgf : g = f := (List.Nodup.getElem_inj_iff hnd).1 (hgv.trans hfv.symm)
  subst hgf
  obtain ⟨p, hp, he⟩ := hg
  have : ∀ dim, dim < 4 → 2 ≤ dim → ∀ f, f < 2 * dim → f + 1 < 2 * dim →
      (((basix dim).facets dim)[f]?.any fun p => decide (lexFacetCorners (basix dim) f = spanned (basix dim) dim p)) = false := by
    decide
  have := this dim (by omega) (by omega) g (by omega) hf
  rw [hp] at this
  simp at this
  exact this he

/-- **C81** (boundary tags) fails in 2D: interior facets get tags, even two. In the mesh of 2 x 1 cells, the facet between them (local
facet 2 of the first one and 1 of the second one) is passed twice to DOLFINx, with the tags 1 and 2. -/
theorem C81_boundary_tags_twice {argsort : List Int → List Nat} (hs : ∀ l, IsArgsort l (argsort l)) (row0 row1 : List Nat)
    (h0 : row0.length = 4) (h1 : row1.length = 4) (x : Nat) (hx0 : row0[2]? = some x) (hx1 : row1[1]? = some x) :
    ∃ facets tags, bdryTags argsort ⟨none, [], [0, 1], []⟩ [2, 1] [row0, row1] = some (facets, tags) ∧
      (x, 1) ∈ List.zip facets tags ∧ (x, 2) ∈ List.zip facets tags := by
  obtain ⟨facets, tags, e1, -, -, h4⟩ := C81_boundary_tags hs ⟨none, [], [0, 1], []⟩ (nRows := 2)
    ⟨by decide, by decide, by decide, by simp⟩ [2, 1] ⟨by decide, by decide, by decide⟩ [row0, row1] rfl (by simp [h0, h1])
  refine ⟨facets, tags, e1, (h4 x 1).2 ⟨by decide, 1, [1, 0], row1, ?_, ?_, rfl, hx1⟩,
    (h4 x 2).2 ⟨by decide, 0, [0, 0], row0, ?_, ?_, rfl, hx0⟩⟩
  all_goals first | (unfold PyMesh.OrigCell; decide) | (unfold OnLexFacet InSize; decide)

/-- C81 non-vacuity: the example of C12 (the function `x - 1`) on the grid with 4 x 1 cells between (0, 0) and (4, 1) keeps two
cells out of four. -/
example : ∃ g dom p, createUnfitted true exampleOracles (fun x => x) 2 (.list [4, 1]) none (some ⟨.f64, [4, 1]⟩) 1 true none
      (fun _ => 0) = some (g, dom, p) ∧ p.conn = [[0, 1, 5, 6], [1, 2, 6, 7]] ∧ p.active = some [0, 1] ∧
      p.nodes.take 3 = [[0, 0], [1, 0], [2, 0]] := by
  have : (createUnfitted true exampleOracles (fun x => x) 2 (.list [4, 1]) none (some ⟨.f64, [4, 1]⟩) 1 true none
      (fun _ => 0)).any (fun r => decide (r.2.2.conn = [[0, 1, 5, 6], [1, 2, 6, 7]] ∧ r.2.2.active = some [0, 1] ∧
      r.2.2.nodes.take 3 = [[0, 0], [1, 0], [2, 0]])) = true := by decide +kernel
  obtain ⟨r, h1, h2⟩ := (Option.any_eq_true _ _).1 this
  exact ⟨r.1, r.2.1, r.2.2, h1, of_decide_eq_true h2⟩

end Qugar.Py.Cart
