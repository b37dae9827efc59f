import Verif.Props.ReparamGeneral
/-
C60: what happens to boxes that are still undecided after the last subdivision.
-/
namespace Qugar.General
open Roots Mesh Poly Reparam
variable {K : Type} [Field K] [LinearOrder K]

/-- The middle of the box in the free directions, with the other coordinates on sides of the box. -/
def facetCentre (free : List Bool) (sides : List Nat) (box : Box K) : List K :=
  (List.range box.length).map fun k => if free.getD k false then 1 / 2 * ((box.getD k (0, 0)).1 + (box.getD k (0, 0)).2)
    else if sides.getD k 0 = 0 then (box.getD k (0, 0)).1 else (box.getD k (0, 0)).2

/-- The sign of the function at the point is not against the required one. -/
def Agrees (F : Fn K) (x : List K) (sign : Int) : Prop := (0 < sign → 0 ≤ F.val x) ∧ (sign < 0 → F.val x < 0)

theorem centreOk_iff (F : Fn K) (free : List Bool) (psi : List Psi) (d : Psi) (n : Nat) (box : Box K) :
    centreOk F free psi d n box = true ↔ ∀ j < n, Agrees F (facetCentre free (psi.getD j d).sides box) (psi.getD j d).sign := by
  unfold centreOk
  rw [List.all_eq_true]
  simp only [List.mem_range]
  refine forall_congr' fun j => imp_congr_right fun _ => ?_
  show (if 0 ≤ F.val (facetCentre free (psi.getD j d).sides box) then decide (0 ≤ (psi.getD j d).sign)
    else decide ((psi.getD j d).sign ≤ 0)) = true ↔ _
  generalize facetCentre free (psi.getD j d).sides box = x
  generalize (psi.getD j d).sign = s
  unfold Agrees
  by_cases h : 0 ≤ F.val x
  · rw [if_pos h, decide_eq_true_eq]
    constructor
    · exact fun hs => ⟨fun _ => h, fun hn => by omega⟩
    · intro hs
      rcases Int.lt_or_le s 0 with hn | hn
      · exact absurd h (not_le.2 (hs.2 hn))
      · exact hn
  · rw [if_neg h, decide_eq_true_eq]
    constructor
    · exact fun hs => ⟨fun hp => by omega, fun _ => not_le.1 h⟩
    · intro hs
      rcases Int.lt_or_le 0 s with hp | hp
      · exact absurd (hs.1 hp) h
      · exact hp

/-- **C60** (the last subdivision): a box that is still undecided after the last subdivision (the function is not known to have one
sign, and no direction is known to be monotone) is taken whole or left out: it is taken if and only if at the centre of every facet
the function does not have the sign that is against the required one. -/
theorem C60_last_subdivision (E : Env K) (F : Fn K) (dim : Nat)
    (lower : List Bool → List Psi → Nat → Box K → List (Level K) → Option (List (Action K))) (free : List Bool) (Ps : List (Level K))
    (psi psi' : List Psi) (count count' : Nat) (box : Box K) (hp : prune F free box E.psi0 count 0 psi = some (psi', count')) (hc : count' ≠ 0)
    (hd : ∀ k, heightDir F free box (psi'.getD 0 E.psi0) = some k → ∃ p ∈ psi'.take count', dirOk F free box k p = false) :
    ((∀ j < nFacets free.length, Agrees F (facetCentre free (psi'.getD j E.psi0).sides box) (psi'.getD j E.psi0).sign) →
      ctorBox E F dim lower free Ps 0 psi count box = wholeActions E F free dim psi' box Ps) ∧
    ((∃ j < nFacets free.length, ¬ Agrees F (facetCentre free (psi'.getD j E.psi0).sides box) (psi'.getD j E.psi0).sign) →
      ctorBox E F dim lower free Ps 0 psi count box = some []) := by
  have hfilter : ((heightDir F free box (psi'.getD 0 E.psi0)).filter fun k => (psi'.take count').all (dirOk F free box k)) = none := by
    rw [Option.filter_eq_none_iff]
    intro k hk
    obtain ⟨p, hp, hf⟩ := hd k hk
    intro hall
    have := List.all_eq_true.1 hall p hp
    rw [hf] at this
    simp at this
  have hbox : ctorBox E F dim lower free Ps 0 psi count box =
      if centreOk F free psi' E.psi0 (nFacets free.length) box then wholeActions E F free dim psi' box Ps else some [] := by
    unfold ctorBox
    rw [hp]
    simp only
    rw [if_neg hc, hfilter]
  constructor
  · intro h
    rw [hbox, if_pos ((centreOk_iff ..).2 h)]
  · rintro ⟨j, hj, h⟩
    rw [hbox, if_neg]
    intro hcen
    exact h ((centreOk_iff ..).1 hcen j hj)

/-! ### An example -/

/-- `(x - 1/4)^2 - y`, with intervals that do not decide anything, and the box `[0, 1]^2`: at the centre the function is negative, and the
region is where it is positive. -/
def deepFn : Fn ℚ where
  val x := (x.getD 0 0 - 1 / 4) ^ 2 - x.getD 1 0
  ivl _ := ⟨-7 / 16, 2⟩
  grad _ := [⟨1 / 2, 1⟩, ⟨-1, 1⟩]
  rootFind _ _ _ _ _ := []
  signs _ _ s := (s, s)

example (psi0 : Psi) : prune deepFn [true, true] [(0, 1), (0, 1)] psi0 1 0 [⟨[0, 0], 1⟩, psi0] = some ([⟨[0, 0], 1⟩, psi0], 1) := by
  rw [prune]
  rw [if_neg (by change ¬ (deepFn.ivl [(0, 1), (0, 1)]).uniform = true; decide +kernel)]
  rfl

example : heightDir deepFn [true, true] [(0, 1), (0, 1)] ⟨[0, 0], 1⟩ = none := by decide +kernel

example : ¬ Agrees deepFn (facetCentre [true, true] [0, 0] [(0, 1), (0, 1)]) 1 := by
  intro h
  exact absurd (h.1 (by decide)) (by decide +kernel)

end Qugar.General
