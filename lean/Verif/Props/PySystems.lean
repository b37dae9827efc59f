import Verif.Model.PySystems
import Verif.Props.RefSystem
import Verif.Props.PyImpl
import Mathlib.Data.List.Forall2
import Mathlib.Data.List.Perm.Basic
/-
Property theorems C93: affine transformations and reference systems created from Python with positional and keyword arguments.
-/
namespace Qugar.Py.Systems
open Impl Spec

/-! ### Specification -/

/-- The call `f(v₁, …, vₘ, nₘ₊₁ = vₘ₊₁, …)`, with the keyword arguments in any order: the values `values` for the parameters `names`. -/
def Supplied (names : List String) (values pos : List Arg) (kw : List (String × Arg)) : Prop :=
  names.length = values.length ∧ ∃ m, pos = values.take m ∧ kw.Perm ((names.zip values).drop m)

/-- A one-dimensional array with the entries `v`, of type float32 or float64. -/
def vec (single : Bool) (v : List ℝ) : Arg := .arr ⟨[v.length], v, single⟩

/-! ### Binding of arguments -/

theorem perm_lookup {n : String} {a : Arg} : ∀ (kw : List (String × Arg)), (kw.map (·.1)).Nodup → kw.lookup n = some a →
    kw.Perm ((n, a) :: kw.filter fun x => x.1 != n)
  | [], _, h => by simp at h
  | (m, b) :: kw, hn, h => by
    rw [List.map_cons, List.nodup_cons] at hn
    by_cases hm : m = n
    · subst hm
      rw [List.lookup_cons_self] at h
      obtain rfl := Option.some.inj h
      rw [List.filter_cons_of_neg (by simp)]
      rw [List.filter_eq_self.2]
      intro x hx
      have : x.1 ≠ m := by
        rintro rfl
        exact hn.1 (List.mem_map_of_mem (f := (·.1)) hx)
      simpa using this
    · have hne : (n == m) = false := by simpa using fun e : n = m => hm e.symm
      rw [List.lookup_cons, hne] at h
      rw [List.filter_cons_of_pos (by simpa using hm)]
      exact ((perm_lookup kw hn.2 h).cons _).trans (List.Perm.swap _ _ _)

theorem lookup_perm {n : String} {a : Arg} (kw : List (String × Arg)) (hn : (kw.map (·.1)).Nodup) (h : (n, a) ∈ kw) : kw.lookup n = some a := by
  induction kw with
  | nil => simp at h
  | cons x kw ih =>
    obtain ⟨m, b⟩ := x
    rw [List.map_cons, List.nodup_cons] at hn
    rcases List.mem_cons.1 h with e | h
    · obtain ⟨rfl, rfl⟩ := Prod.mk.inj e
      rw [List.lookup_cons_self]
    · have : m ≠ n := by rintro rfl; exact hn.1 (List.mem_map_of_mem (f := (·.1)) h)
      have hne : (n == m) = false := by simpa using fun e : n = m => this e.symm
      rw [List.lookup_cons, hne]
      exact ih hn.2 h

theorem bind_iff : ∀ (ps : List (String × Kind)) (pos : List Arg) (kw : List (String × Arg)) (vals : List Arg),
    (ps.map (·.1)).Nodup → (kw.map (·.1)).Nodup →
    (bindArgs ps pos kw = some vals ↔
      Supplied (ps.map (·.1)) vals pos kw ∧ List.Forall₂ (fun p a => p.2.accepts a = true) ps vals)
  | [], pos, kw, vals, _, _ => by
    constructor
    · intro h
      match pos, kw, h with
      | [], [], h =>
        obtain rfl : [] = vals := by simpa [bindArgs] using h
        exact ⟨⟨rfl, 0, rfl, List.Perm.refl _⟩, List.Forall₂.nil⟩
      | [], _ :: _, h => simp [bindArgs] at h
      | _ :: _, _, h => simp [bindArgs] at h
    · rintro ⟨⟨hl, m, h1, h2⟩, h3⟩
      cases h3
      simp only [List.take_nil] at h1
      simp only [List.map_nil, List.zip_nil_left, List.drop_nil, List.perm_nil] at h2
      subst h1 h2
      rfl
  | (n, k) :: ps, a :: pos, kw, vals, hp, hk => by
    rw [List.map_cons, List.nodup_cons] at hp
    have ih := fun vals => bind_iff ps pos kw vals hp.2 hk
    simp only [bindArgs]
    constructor
    · intro h
      split_ifs at h with hacc
      obtain ⟨vs, hvs, rfl⟩ := Option.map_eq_some_iff.1 h
      obtain ⟨⟨hl, m, h1, h2⟩, h3⟩ := (ih vs).1 hvs
      exact ⟨⟨by simpa using hl, m + 1, by simpa using h1, by simpa using h2⟩, List.Forall₂.cons hacc h3⟩
    · rintro ⟨⟨hl, m, h1, h2⟩, h3⟩
      cases h3 with
      | @cons _ v _ vs hacc h3 =>
      cases m with
      | zero => simp at h1
      | succ m =>
        simp only [List.take_succ_cons, List.cons.injEq] at h1
        obtain ⟨rfl, h1⟩ := h1
        have hacc' : k.accepts a = true := hacc
        rw [if_pos hacc', (ih vs).2 ⟨⟨by simpa using hl, m, h1, by simpa using h2⟩, h3⟩]
        rfl
  | (n, k) :: ps, [], kw, vals, hp, hk => by
    rw [List.map_cons, List.nodup_cons] at hp
    have hk' : ((kw.filter fun x => x.1 != n).map (·.1)).Nodup := hk.sublist (List.filter_sublist.map _)
    have ih := fun vals => bind_iff ps [] (kw.filter fun x => x.1 != n) vals hp.2 hk'
    simp only [bindArgs]
    constructor
    · intro h
      cases hlk : kw.lookup n with
      | none => rw [hlk] at h; simp at h
      | some a =>
        rw [hlk] at h
        simp only at h
        split_ifs at h with hacc
        obtain ⟨vs, hvs, rfl⟩ := Option.map_eq_some_iff.1 h
        obtain ⟨⟨hl, m, h1, h2⟩, h3⟩ := (ih vs).1 hvs
        refine ⟨⟨by simpa using hl, 0, rfl, ?_⟩, List.Forall₂.cons hacc h3⟩
        have e : ((ps.map (·.1)).zip vs).drop m = (ps.map (·.1)).zip vs := by
          cases m with
          | zero => rfl
          | succ m =>
            cases vs with
            | nil => simp
            | cons v vs => simp at h1
        rw [e] at h2
        exact (perm_lookup kw hk hlk).trans (h2.cons _)
    · rintro ⟨⟨hl, m, h1, h2⟩, h3⟩
      cases h3 with
      | @cons _ v _ vs hacc h3 =>
      cases m with
      | succ m => simp at h1
      | zero =>
        simp only [List.map_cons, List.zip_cons_cons, List.drop_zero] at h2
        have hmem : (n, v) ∈ kw := h2.mem_iff.2 List.mem_cons_self
        have hacc' : k.accepts v = true := hacc
        rw [lookup_perm kw hk hmem]
        simp only
        rw [if_pos hacc', (ih vs).2 ⟨⟨by simpa using hl, 0, rfl, ?_⟩, h3⟩]
        · rfl
        · refine (h2.filter _).trans ?_
          rw [List.filter_cons_of_neg (by simp), List.filter_eq_self.2]
          · exact List.Perm.refl _
          · rintro ⟨m, b⟩ hx
            have : m ≠ n := by rintro rfl; exact hp.1 (List.of_mem_zip hx).1
            simpa using this

theorem supplied_perm {names : List String} {values pos : List Arg} {kw : List (String × Arg)} (h : Supplied names values pos kw) :
    values.Perm (pos ++ kw.map (·.2)) := by
  obtain ⟨hl, m, rfl, h2⟩ := h
  have h3 := h2.map (·.2)
  rw [List.map_drop, List.map_snd_zip (by omega)] at h3
  calc values = values.take m ++ values.drop m := (List.take_append_drop m values).symm
    _ |>.Perm _ := h3.symm.append_left _


/-! ### Choice of the overload -/

/-- What distinguishes the types of parameters that occur: a number, or an array of `n` entries. -/
def kindTag : Kind → Option Nat
  | .real => some 0
  | .point n => some (n + 1)
  | _ => none

/-- The same for arguments. -/
def argTag : Arg → Option Nat
  | .real _ => some 0
  | .arr ⟨[n], _, _⟩ => some (n + 1)
  | _ => none

theorem tag_of_accepts {k : Kind} {a : Arg} (hk : kindTag k ≠ none) (h : k.accepts a = true) : argTag a = kindTag k := by
  cases k with
  | real => cases a <;> simp [Kind.accepts] at h; rfl
  | point n =>
    cases a with
    | arr x =>
      obtain ⟨sh, dt, sg⟩ := x
      have : sh = [n] := by simpa [Kind.accepts] using h
      subst this
      rfl
    | _ => simp [Kind.accepts] at h
  | _ => simp [kindTag] at hk

theorem tags_of_accepts {ps : List (String × Kind)} {vals : List Arg} (hp : ∀ p ∈ ps, kindTag p.2 ≠ none)
    (h : List.Forall₂ (fun p a => p.2.accepts a = true) ps vals) : vals.map argTag = ps.map fun p => kindTag p.2 := by
  induction h with
  | nil => rfl
  | cons h1 h2 ih =>
    rw [List.map_cons, List.map_cons, ih fun p hp' => hp p (List.mem_cons_of_mem _ hp'), tag_of_accepts (hp _ List.mem_cons_self) h1]

/-- The names of the parameters of each overload are different, and so are the types of the parameters of the first overloads and those of
the overload `i`. -/
def Clear (sigs : List (List (String × Kind))) (i : Nat) : Prop :=
  (∀ ps ∈ sigs, (ps.map (·.1)).Nodup ∧ ∀ p ∈ ps, kindTag p.2 ≠ none) ∧
  ∀ ps ∈ sigs.take i, ¬ (ps.map fun p => kindTag p.2).Perm ((sigs.getD i []).map fun p => kindTag p.2)

instance (sigs i) : Decidable (Clear sigs i) := inferInstanceAs (Decidable (_ ∧ _))

theorem call_overload {ds : List Def} {sigs : List (List (String × Kind))} (hs : ds.map Def.params = sigs) {i : Nat} (hc : Clear sigs i)
    {d : Def} (hd : ds[i]? = some d) {vals pos : List Arg} {kw : List (String × Arg)} (hk : (kw.map (·.1)).Nodup)
    (h : Supplied (d.params.map (·.1)) vals pos kw) (ha : List.Forall₂ (fun p a => p.2.accepts a = true) d.params vals) :
    callKw ds pos kw = d.build vals := by
  obtain ⟨hi, hd'⟩ := List.getElem?_eq_some_iff.1 hd
  have hmem : d.params ∈ sigs := hs ▸ List.mem_map_of_mem (hd' ▸ List.getElem_mem hi)
  obtain ⟨hnd, htag⟩ := hc.1 _ hmem
  have hb := (bind_iff d.params pos kw vals hnd hk).2 ⟨h, ha⟩
  have hget : sigs.getD i [] = d.params := by
    rw [← hs, List.getD_eq_getElem?_getD, List.getElem?_map, hd]
    rfl
  have e : ds = ds.take i ++ d :: ds.drop (i + 1) := by
    rw [← hd', List.getElem_cons_drop, List.take_append_drop]
  have hfirst : (ds.take i).findSome? (fun d => (bindArgs d.params pos kw).map d.build) = none := by
    rw [List.findSome?_eq_none_iff]
    intro d' hd2
    rw [Option.map_eq_none_iff]
    by_contra hne
    obtain ⟨vals', hb'⟩ := Option.ne_none_iff_exists'.1 hne
    have hin : d'.params ∈ sigs.take i := by
      rw [← hs, ← List.map_take]
      exact List.mem_map_of_mem hd2
    obtain ⟨hnd', htag'⟩ := hc.1 _ (List.mem_of_mem_take hin)
    obtain ⟨h', ha'⟩ := (bind_iff d'.params pos kw vals' hnd' hk).1 hb'
    refine hc.2 _ hin ?_
    rw [hget, ← tags_of_accepts htag' ha', ← tags_of_accepts htag ha]
    exact ((supplied_perm h').trans (supplied_perm h).symm).map _
  have : ds.findSome? (fun d => (bindArgs d.params pos kw).map d.build) = some (d.build vals) := by
    rw [e, List.findSome?_append, hfirst, List.findSome?_cons, hb]
    rfl
  unfold callKw
  rw [this]

theorem call_no_overload {ds : List Def} {pos : List Arg} {kw : List (String × Arg)} (hk : (kw.map (·.1)).Nodup)
    (hn : ∀ d ∈ ds, (d.params.map (·.1)).Nodup)
    (h : ∀ d ∈ ds, ∀ vals, Supplied (d.params.map (·.1)) vals pos kw → ¬ List.Forall₂ (fun p a => p.2.accepts a = true) d.params vals) :
    callKw ds pos kw = .error .type := by
  have : ds.findSome? (fun d => (bindArgs d.params pos kw).map d.build) = none := by
    rw [List.findSome?_eq_none_iff]
    intro d hd
    rw [Option.map_eq_none_iff]
    by_contra hne
    obtain ⟨vals, hb⟩ := Option.ne_none_iff_exists'.1 hne
    obtain ⟨h1, h2⟩ := (bind_iff d.params pos kw vals (hn d hd) hk).1 hb
    exact h d hd vals h1 h2
  unfold callKw
  rw [this]

/-- The parameters of the overloads of `create_affine_transformation`. -/
def affineSigs : List (List (String × Kind)) :=
  [[], [("origin", .point 2)], [("origin", .point 2), ("scale", .real)], [("origin", .point 2), ("axis_x", .point 2)],
   [("origin", .point 2), ("axis_x", .point 2), ("scale_x", .real), ("scale_y", .real)], [("coefs", .point 6)],
   [], [("origin", .point 3)], [("origin", .point 3), ("scale", .real)],
   [("origin", .point 3), ("axis_x", .point 3), ("axis_y", .point 3)],
   [("origin", .point 3), ("axis_x", .point 3), ("axis_y", .point 3), ("scale_x", .real), ("scale_y", .real), ("scale_z", .real)],
   [("coefs", .point 12)]]

/-- The parameters of the overloads of `create_ref_system`. -/
def systemSigs : List (List (String × Kind)) :=
  [[], [("origin", .point 2)], [("origin", .point 2), ("axis", .point 2)],
   [], [("origin", .point 3)], [("origin", .point 3), ("axis", .point 3)],
   [("origin", .point 3), ("axis_x", .point 3), ("axis_y", .point 3)]]

theorem affine_params (E : Env) : (affine2 E ++ affine3 E).map Def.params = affineSigs := rfl
theorem system_params (E : Env) : (system2 E ++ system3 E).map Def.params = systemSigs := rfl

theorem affine_clear : ∀ i < 12, i ≠ 6 → Clear affineSigs i := by decide +kernel
theorem system_clear : ∀ i < 7, i ≠ 3 → Clear systemSigs i := by decide +kernel

theorem accepts_vec {n : Nat} {s : Bool} {v : List ℝ} (h : v.length = n) : (Kind.point n).accepts (vec s v) = true := by
  simp [Kind.accepts, vec, h]

theorem accepts_real (r : ℝ) : Kind.real.accepts (.real r) = true := rfl

/-! ### The property theorems -/

/-- **C93** (translations, scalings and coefficients). Given by position or by name, in any order: with an origin the transformation is a
translation, with an origin and a scale a scaling and a translation, and with coefficients the transformation with those coefficients; its
dimension is the one of the arrays. -/
theorem C93_affine (E : Env) (pos : List Arg) (kw : List (String × Arg)) (hk : (kw.map (·.1)).Nodup) (d : Nat) (hd : d = 2 ∨ d = 3)
    (s : Bool) (o : List ℝ) (ho : o.length = d) :
    (Supplied ["origin"] [vec s o] pos kw → ∃ c, createAffine E pos kw = .ok (.aff d c) ∧ c.length = d * (d + 1) ∧
      ∀ p, p.length = d → Affine.transformPoint d c p = List.zipWith (fun a b => a + b) o p) ∧
    (∀ r, Supplied ["origin", "scale"] [vec s o, .real r] pos kw → ∃ c, createAffine E pos kw = .ok (.aff d c) ∧ c.length = d * (d + 1) ∧
      ∀ p, p.length = d → Affine.transformPoint d c p = List.zipWith (fun a b => a + r * b) o p) ∧
    (∀ c, c.length = d * (d + 1) → Supplied ["coefs"] [vec s c] pos kw → createAffine E pos kw = .ok (.aff d c)) := by
  have hsc : ∀ (r : ℝ) (p : List ℝ), p.length = d →
      Affine.transformPoint d (Affine.ofScale d o r) p = List.zipWith (fun a b => a + r * b) o p := by
    intro r p hp
    rcases hd with rfl | rfl
    · obtain ⟨a, b, rfl⟩ := len2 ho
      obtain ⟨x, y, rfl⟩ := len2 hp
      simp [Affine.transformPoint, Affine.ofScale, vat, add_comm]
    · obtain ⟨a, b, c, rfl⟩ := len3 ho
      obtain ⟨x, y, z, rfl⟩ := len3 hp
      simp [Affine.transformPoint, Affine.ofScale, vat, add_comm]
  have hlen : ∀ r : ℝ, (Affine.ofScale d o r).length = d * (d + 1) := by
    intro r
    rcases hd with rfl | rfl <;> simp [Affine.ofScale]
  refine ⟨fun h => ⟨Affine.ofScale d o 1, ?_, hlen 1, fun p hp => ?_⟩, fun r h => ⟨Affine.ofScale d o r, ?_, hlen r, hsc r⟩, fun c hc h => ?_⟩
  · rcases hd with rfl | rfl
    · exact call_overload (affine_params E) (affine_clear 1 (by decide) (by decide)) rfl hk h (.cons (accepts_vec ho) .nil)
    · exact call_overload (affine_params E) (affine_clear 7 (by decide) (by decide)) rfl hk h (.cons (accepts_vec ho) .nil)
  · rw [hsc 1 p hp]
    simp only [one_mul]
  · rcases hd with rfl | rfl
    · exact call_overload (affine_params E) (affine_clear 2 (by decide) (by decide)) rfl hk h
        (.cons (accepts_vec ho) (.cons (accepts_real r) .nil))
    · exact call_overload (affine_params E) (affine_clear 8 (by decide) (by decide)) rfl hk h
        (.cons (accepts_vec ho) (.cons (accepts_real r) .nil))
  · rcases hd with rfl | rfl
    · exact call_overload (affine_params E) (affine_clear 5 (by decide) (by decide)) rfl hk h (.cons (accepts_vec hc) .nil)
    · exact call_overload (affine_params E) (affine_clear 11 (by decide) (by decide)) rfl hk h (.cons (accepts_vec hc) .nil)

/-- **C93** (axes, 2D). With an origin, a non-zero axis and positive scales (1 if they are not given) the transformation maps the point
`(x, y)` to the origin plus `sx x` times the unit vector along the axis plus `sy y` times that vector rotated by 90 degrees. -/
theorem C93_axes_2D (E : Env) (hn : EuclideanNorm E.norm) (pos : List Arg) (kw : List (String × Arg)) (hk : (kw.map (·.1)).Nodup)
    (s s' : Bool) (o ax : List ℝ) (ho : o.length = 2) (hx : ax.length = 2) (h0 : ∃ a ∈ ax, a ≠ 0) (sx sy : ℝ) (hs : 0 < sx ∧ 0 < sy)
    (h : Supplied ["origin", "axis_x", "scale_x", "scale_y"] [vec s o, vec s' ax, .real sx, .real sy] pos kw ∨
      (sx = 1 ∧ sy = 1 ∧ Supplied ["origin", "axis_x"] [vec s o, vec s' ax] pos kw)) :
    ∃ c a b, createAffine E pos kw = .ok (.aff 2 c) ∧ c.length = 6 ∧ Orthonormal [[a, b], [-b, a]] ∧ IsUnitAlong [a, b] ax ∧
      ∀ x y, Affine.transformPoint 2 c [x, y] =
        [o.getD 0 0 + sx * x * a + sy * y * (-b), o.getD 1 0 + sx * x * b + sy * y * a] := by
  obtain ⟨c, a, b, h1, h2, h3, h4, -, h5⟩ := C28_affine_axes_2D E.norm hn o ax sx sy ho hx hs h0
  refine ⟨c, a, b, ?_, h2, h3, h4, fun x y => h5 [x, y] rfl⟩
  rcases h with h | ⟨rfl, rfl, h⟩
  · have := call_overload (affine_params E) (affine_clear 4 (by decide) (by decide)) rfl hk h
      (.cons (accepts_vec ho) (.cons (accepts_vec hx) (.cons (accepts_real sx) (.cons (accepts_real sy) .nil))))
    refine this.trans ?_
    show orAbort (.aff 2) (Affine.ofAxes2 E.norm o ax sx sy) = _
    rw [h1]
    rfl
  · have := call_overload (affine_params E) (affine_clear 3 (by decide) (by decide)) rfl hk h
      (.cons (accepts_vec ho) (.cons (accepts_vec hx) .nil))
    refine this.trans ?_
    show orAbort (.aff 2) (Affine.ofAxes2 E.norm o ax 1 1) = _
    rw [h1]
    rfl

/-- **C93** (axes, 3D). The same with two axes that are not parallel: the point `(x, y, z)` is mapped with a right-handed orthonormal basis whose
first vector is along the first axis and whose third one is orthogonal to both. -/
theorem C93_axes_3D (E : Env) (hn : EuclideanNorm E.norm) (pos : List Arg) (kw : List (String × Arg)) (hk : (kw.map (·.1)).Nodup)
    (s s' s'' : Bool) (o ax ay : List ℝ) (ho : o.length = 3) (hx : ax.length = 3) (hy : ay.length = 3)
    (h0 : ∃ a ∈ crossProduct ax ay, a ≠ 0) (sx sy sz : ℝ) (hs : 0 < sx ∧ 0 < sy ∧ 0 < sz)
    (h : Supplied ["origin", "axis_x", "axis_y", "scale_x", "scale_y", "scale_z"]
        [vec s o, vec s' ax, vec s'' ay, .real sx, .real sy, .real sz] pos kw ∨
      (sx = 1 ∧ sy = 1 ∧ sz = 1 ∧ Supplied ["origin", "axis_x", "axis_y"] [vec s o, vec s' ax, vec s'' ay] pos kw)) :
    ∃ c x y z, createAffine E pos kw = .ok (.aff 3 c) ∧ c.length = 12 ∧ Orthonormal [x, y, z] ∧ triple x y z = 1 ∧ IsUnitAlong x ax ∧
      dot z ay = 0 ∧ 0 < dot y ay ∧ ∀ p : List ℝ, p.length = 3 → ∀ i, i < 3 → (Affine.transformPoint 3 c p).getD i 0 =
        o.getD i 0 + sx * p.getD 0 0 * x.getD i 0 + sy * p.getD 1 0 * y.getD i 0 + sz * p.getD 2 0 * z.getD i 0 := by
  obtain ⟨c, x, y, z, h1, h2, h3, h4, h5, h6, h7, -, h8⟩ := C28_affine_axes_3D E.norm hn o ax ay sx sy sz ho hx hy hs h0
  refine ⟨c, x, y, z, ?_, h2, h3, h4, h5, h6, h7, h8⟩
  rcases h with h | ⟨rfl, rfl, rfl, h⟩
  · have := call_overload (affine_params E) (affine_clear 10 (by decide) (by decide)) rfl hk h
      (.cons (accepts_vec ho) (.cons (accepts_vec hx) (.cons (accepts_vec hy) (.cons (accepts_real sx) (.cons (accepts_real sy)
        (.cons (accepts_real sz) .nil))))))
    refine this.trans ?_
    show orAbort (.aff 3) (Affine.ofAxes3 E.norm o ax ay sx sy sz) = _
    rw [h1]
    rfl
  · have := call_overload (affine_params E) (affine_clear 9 (by decide) (by decide)) rfl hk h
      (.cons (accepts_vec ho) (.cons (accepts_vec hx) (.cons (accepts_vec hy) .nil)))
    refine this.trans ?_
    show orAbort (.aff 3) (Affine.ofAxes3 E.norm o ax ay 1 1 1) = _
    rw [h1]
    rfl

/-- **C93** (reference systems). With an origin the Cartesian system there; in 2D with a non-zero axis the orthonormal system whose first vector
is along the axis, the second one rotated by 90 degrees; in 3D with one axis (longer than the tolerance) a right-handed orthonormal system whose
*third* vector is along the axis; with two axes that are not parallel a right-handed one whose first vector is along the first axis. -/
theorem C93_systems (E : Env) (hE : E.Ok) (pos : List Arg) (kw : List (String × Arg)) (hk : (kw.map (·.1)).Nodup) (s s' s'' : Bool)
    (o : List ℝ) :
    (∀ d, (d = 2 ∨ d = 3) → o.length = d → Supplied ["origin"] [vec s o] pos kw → createSystem E pos kw =
      .ok (.sys d o ((List.range d).map fun i => (List.range d).map fun j => if i = j then 1 else 0))) ∧
    (∀ ax, o.length = 2 → ax.length = 2 → (∃ a ∈ ax, a ≠ 0) → Supplied ["origin", "axis"] [vec s o, vec s' ax] pos kw →
      ∃ a b, createSystem E pos kw = .ok (.sys 2 o [[a, b], [-b, a]]) ∧ Orthonormal [[a, b], [-b, a]] ∧ IsUnitAlong [a, b] ax) ∧
    (∀ ax, o.length = 3 → ax.length = 3 → E.eps < E.norm ax → Supplied ["origin", "axis"] [vec s o, vec s' ax] pos kw →
      ∃ x y z, createSystem E pos kw = .ok (.sys 3 o [x, y, z]) ∧ Orthonormal [x, y, z] ∧ triple x y z = 1 ∧ IsUnitAlong z ax) ∧
    (∀ ax ay, o.length = 3 → ax.length = 3 → ay.length = 3 → (∃ a ∈ crossProduct ax ay, a ≠ 0) →
      Supplied ["origin", "axis_x", "axis_y"] [vec s o, vec s' ax, vec s'' ay] pos kw →
      ∃ x y z, createSystem E pos kw = .ok (.sys 3 o [x, y, z]) ∧ Orthonormal [x, y, z] ∧ triple x y z = 1 ∧ IsUnitAlong x ax ∧
        dot z ay = 0 ∧ 0 < dot y ay) := by
  refine ⟨fun d hd ho h => ?_, fun ax ho hx h0 h => ?_, fun ax ho hx h0 h => ?_, fun ax ay ho hx hy h0 h => ?_⟩
  · rcases hd with rfl | rfl
    · exact call_overload (system_params E) (system_clear 1 (by decide) (by decide)) rfl hk h (.cons (accepts_vec ho) .nil)
    · exact call_overload (system_params E) (system_clear 4 (by decide) (by decide)) rfl hk h (.cons (accepts_vec ho) .nil)
  · obtain ⟨a, b, h1, h2, h3⟩ := (C28_one_axis E.norm hE.norm ax h0).2 hx
    refine ⟨a, b, ?_, h2, h3⟩
    have := call_overload (system_params E) (system_clear 2 (by decide) (by decide)) rfl hk h
      (.cons (accepts_vec ho) (.cons (accepts_vec hx) .nil))
    refine this.trans ?_
    show sysOrAbort 2 o (if E.norm ax = 0 then none else some (RefSystem.ofAxis2 E.norm ax)) = _
    rw [if_neg (norm_pos hE.norm (dot_self_pos h0).ne').ne', h1]
    rfl
  · have hpos : (if E.debug then E.eps else 0) < E.norm ax := by
      split_ifs
      · exact h0
      · exact lt_of_le_of_lt hE.eps0 h0
    have hnn : (0 : ℝ) ≤ if E.debug then E.eps else 0 := by
      split_ifs
      · exact hE.eps0
      · exact le_refl _
    obtain ⟨x, y, z, h1, h2, h3, h4⟩ := (C28_one_axis_3D E.norm hE.norm (if E.debug then E.eps else 0) (1 / 10) (by norm_num) (by norm_num)
      ax hx).2 hnn hpos
    refine ⟨x, y, z, ?_, h2, h3, h4⟩
    have := call_overload (system_params E) (system_clear 5 (by decide) (by decide)) rfl hk h
      (.cons (accepts_vec ho) (.cons (accepts_vec hx) .nil))
    refine this.trans ?_
    show sysOrAbort 3 o (RefSystem.ofAxis3 E.norm (if E.debug then E.eps else 0) (1 / 10) ax) = _
    rw [h1]
    rfl
  · obtain ⟨x, y, z, h1, h2, h3, h4, -, h5, h6⟩ := C28_two_axes E.norm hE.norm ax ay hx hy h0
    refine ⟨x, y, z, ?_, h2, h3, h4, h5, h6⟩
    have := call_overload (system_params E) (system_clear 6 (by decide) (by decide)) rfl hk h
      (.cons (accepts_vec ho) (.cons (accepts_vec hx) (.cons (accepts_vec hy) .nil)))
    refine this.trans ?_
    show sysOrAbort 3 o (RefSystem.ofXY E.norm ax ay) = _
    rw [h1]
    rfl

/-- **C93** (wrong arguments). Calls that do not give values of the right types to the parameters of one of the documented signatures raise
TypeError: missing or repeated arguments, other names, arrays of another dimension, mixed dimensions. -/
theorem C93_type_error (E : Env) (pos : List Arg) (kw : List (String × Arg)) (hk : (kw.map (·.1)).Nodup) :
    ((∀ ps ∈ affineSigs, ∀ vals, Supplied (ps.map (·.1)) vals pos kw → ¬ List.Forall₂ (fun p a => p.2.accepts a = true) ps vals) →
      createAffine E pos kw = .error .type) ∧
    ((∀ ps ∈ systemSigs, ∀ vals, Supplied (ps.map (·.1)) vals pos kw → ¬ List.Forall₂ (fun p a => p.2.accepts a = true) ps vals) →
      createSystem E pos kw = .error .type) := by
  constructor
  · intro h
    refine call_no_overload hk (fun d hd => ?_) fun d hd => h d.params ?_
    · exact ((affine_clear 0 (by decide) (by decide)).1 _ (affine_params E ▸ List.mem_map_of_mem hd)).1
    · exact affine_params E ▸ List.mem_map_of_mem hd
  · intro h
    refine call_no_overload hk (fun d hd => ?_) fun d hd => h d.params ?_
    · exact ((system_clear 0 (by decide) (by decide)).1 _ (system_params E ▸ List.mem_map_of_mem hd)).1
    · exact system_params E ▸ List.mem_map_of_mem hd

/-- **C93** (no arguments). Without arguments both functions always give an object of dimension 2: the identity, and the Cartesian system at the
origin. The objects of dimension 3 cannot be obtained in that way although those overloads are registered. -/
theorem C93_no_arguments (E : Env) :
    createAffine E [] [] = .ok (.aff 2 [1, 0, 0, 1, 0, 0]) ∧ createSystem E [] [] = .ok (.sys 2 [0, 0] [[1, 0], [0, 1]]) := by
  constructor
  · show Except.ok (Arg.aff 2 (identity 2)) = _
    simp [identity, Affine.ofScale, vat]
  · show Except.ok (Arg.sys 2 (zeros 2) (RefSystem.cartesian 2)) = _
    simp [zeros, RefSystem.cartesian, List.range_succ, List.replicate]

/-! ### Concrete calls -/

/-- `create_ref_system(origin, axis=…)` and `create_ref_system(axis=…, origin=…)`: both give the parameters `origin` and `axis`. -/
example (o a : Arg) : Supplied ["origin", "axis"] [o, a] [o] [("axis", a)] ∧
    Supplied ["origin", "axis"] [o, a] [] [("axis", a), ("origin", o)] :=
  ⟨⟨rfl, 1, rfl, List.Perm.refl _⟩, rfl, 0, rfl, List.Perm.swap _ _ _⟩

/-- A repeated argument, an origin and an axis of different dimensions: TypeError. -/
example (E : Env) : createSystem E [vec false [0, 0]] [("origin", vec false [0, 0])] = .error .type ∧
    createSystem E [vec false [0, 0], vec false [1, 0, 0]] [] = .error .type := ⟨rfl, rfl⟩

end Qugar.Py.Systems
