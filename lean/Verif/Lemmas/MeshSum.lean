import Verif.Lemmas.MeshPermute
import Verif.Props.Lagrange
import Verif.Spec.Mesh
/-
Lemmas on the weighted sums of the vertices of a cell.
-/
namespace Qugar.Mesh
open Spec Poly TS Qugar.Lagrange

section
variable {K : Type} [Field K] [LinearOrder K]

theorem sumTo_eq (n : Nat) (f : Nat → K) : sumTo n f = ((List.range n).map f).sum := by
  unfold sumTo
  rw [List.sum_eq_foldl, List.foldl_map]

/-- The vertex of a cell of a mesh. -/
def vert (m : Mesh K) (cell : Nat) (t : List Nat) : List K := vertex m.dim m.order m.points m.conn cell t

/-- A weighted sum of the vertices, over the tensor indices. -/
def vsum (dim order : Nat) (v : List Nat → List K) (c : Nat) (w : List Nat → K) : K :=
  ((indices (List.replicate dim order)).map fun t => vat (v t) c * w t).sum

theorem cellSum_getD (m : Mesh K) (cell : Nat) (w : List K) (c : Nat) (hc : c < m.range) :
    vat (cellSum m cell w) c = vsum m.dim m.order (vert m cell) c fun t => w.getD (flatIndex t (List.replicate m.dim m.order)) 0 := by
  unfold cellSum vat
  rw [getD_map_range _ _ _ _ hc, sumTo_eq]
  have hppc : listProd (List.replicate m.dim m.order) = ppc m := Vtu.listProd_replicate _ _
  rw [← hppc, ← indices_flat, List.map_map, hppc]
  rfl

theorem vsum_mirror (dim order : Nat) (v : List Nat → List K) (c : Nat) (w : List Nat → K) :
    vsum dim order (fun t => v (mirror order t)) c w = vsum dim order v c fun t => w (mirror order t) := by
  unfold vsum
  have hp : ((indices (List.replicate dim order)).map (mirror order)).Perm (indices (List.replicate dim order)) := by
    apply (List.perm_ext_iff_of_nodup ?_ (nodup_indices _)).2
    · intro t
      rw [List.mem_map]
      exact ⟨fun ⟨u, hu, e⟩ => e ▸ mirror_mem hu, fun ht => ⟨mirror order t, mirror_mem ht, mirror_invol ht⟩⟩
    · refine List.Nodup.map_on ?_ (nodup_indices _)
      intro a ha b hb e
      rw [← mirror_invol ha, e, mirror_invol hb]
  rw [← (hp.map fun t => vat (v t) c * w (mirror order t)).sum_eq, List.map_map]
  congr 1
  apply List.map_congr_left
  intro t ht
  simp only [Function.comp_apply]
  rw [mirror_invol ht]

theorem vsum_congr {dim order : Nat} {v v' : List Nat → List K} {c : Nat} {w w' : List Nat → K}
    (h : ∀ t ∈ indices (List.replicate dim order), v t = v' t) (h' : ∀ t ∈ indices (List.replicate dim order), w t = w' t) :
    vsum dim order v c w = vsum dim order v' c w' := by
  unfold vsum
  congr 1
  apply List.map_congr_left
  intro t ht
  rw [h t ht, h' t ht]

theorem vsum_neg (dim order : Nat) (v : List Nat → List K) (c : Nat) (w : List Nat → K) :
    vsum dim order v c (fun t => - w t) = - vsum dim order v c w := by
  unfold vsum
  generalize indices (List.replicate dim order) = L
  induction L with
  | nil => simp
  | cons a L ih => simp only [List.map_cons, List.sum_cons, ih]; ring

/-- The weights of the routines: products of values and derivatives. -/
theorem basis_weights (cheb : Nat → Nat → K) (dim order : Nat) (x : K) (hd : 0 < dim) (ho : 1 < order) :
    ∃ b, Lagrange.basis cheb (List.replicate dim x) (List.replicate dim order) false = some b ∧
      ∀ t ∈ indices (List.replicate dim order), b.getD (flatIndex t (List.replicate dim order)) 0 =
        basisProd (List.replicate dim fun i => lag (fun i => cheb i order) order i x) t := by
  obtain ⟨b, h1, _, h2⟩ := basis_values cheb (List.replicate dim x) (List.replicate dim order) false
    (by simp; omega) (by intro n hn; rw [List.mem_replicate] at hn; omega) (by simp)
  refine ⟨b, h1, fun t ht => ?_⟩
  have e : getCoord cheb order false = fun i => cheb i order := by funext i; simp [getCoord]
  rw [h2 t ht, List.zipWith_replicate, Nat.min_self, e]

theorem derivative_weights (cheb : Nat → Nat → K) (dim order : Nat) (x : K) (hd : 0 < dim) (ho : 1 < order) :
    ∃ D, Lagrange.derivative cheb (List.replicate dim x) (List.replicate dim order) false = some D ∧ D.length = dim ∧
      ∀ d < dim, ∀ t ∈ indices (List.replicate dim order), (D.getD d []).getD (flatIndex t (List.replicate dim order)) 0 =
        basisProd ((List.replicate dim fun i => lag (fun i => cheb i order) order i x).set d
          fun i => lagD (fun i => cheb i order) order i x) t := by
  have h1 : ∀ n ∈ List.replicate dim order, 1 < n := by intro n hn; rw [List.mem_replicate] at hn; omega
  have h2 : ∀ n ∈ List.replicate dim order, 0 < n := by intro n hn; have := h1 n hn; omega
  have h0 : List.replicate dim order ≠ [] := by simp; omega
  refine ⟨_, derivative_eq cheb _ _ false h1, by simp, fun d hd' t ht => ?_⟩
  rw [getD_map_range _ _ _ _ (by simpa using hd'), tensorValues_eq _ h0 h2 _ (by simp), getD_indices_map _ _ _ _ ht,
    List.zipWith_replicate, List.zipWith_replicate, Nat.min_self, List.getD_replicate _ hd', List.map_set, List.map_replicate]
  have ht' := mem_indices_replicate.1 ht
  rw [inSize_replicate] at ht'
  obtain ⟨hl, hb⟩ := ht'
  have key : ∀ (F G : List (Nat → K)) (t : List Nat), F.length = G.length →
      (∀ k < F.length, F.getD k (fun _ => 0) (t.getD k 0) = G.getD k (fun _ => 0) (t.getD k 0)) → basisProd F t = basisProd G t := by
    intro F
    induction F with
    | nil => intro G t h _; have : G = [] := List.length_eq_zero_iff.1 h.symm; rw [this]
    | cons f F ih =>
      intro G t h hk
      match G, t with
      | [], _ => simp at h
      | g :: G, [] => simp [basisProd]
      | g :: G, i :: t =>
        simp only [basisProd]
        rw [ih G t (by simpa using h) fun k hk' => by simpa using hk (k + 1) (by simpa using hk')]
        have := hk 0 (by simp)
        simp only [List.getD_cons_zero] at this
        rw [this]
  apply key
  · simp
  intro k hk
  have hk' : k < dim := by simpa using hk
  have := hb k hk'
  generalize t.getD k 0 = j at this ⊢
  rw [List.getD_eq_getElem?_getD, List.getD_eq_getElem?_getD, List.getElem?_set, List.getElem?_set]
  have e : getCoord cheb order false = fun i => cheb i order := by funext i; simp [getCoord]
  by_cases hkd : d = k
  · subst hkd
    simp only [if_true, List.length_replicate, if_pos hd', Option.getD_some]
    rw [derivatives_eq, getD_map_range _ _ _ _ this, e]
  · simp only [if_neg hkd, List.getElem?_replicate, if_pos hk', Option.getD_some]
    rw [values_eq, getD_map_range _ _ _ _ this, e]

end
end Qugar.Mesh
