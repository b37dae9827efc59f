import Verif.Model.PyImpl
import Verif.Props.BezierPrimitives
import Verif.Props.BezierArith
import Verif.Props.FuncCombinators
import Verif.Props.Tpms
/-
Property theorems C78: the implicit functions created and evaluated from Python.
-/
namespace Qugar.Py.Impl
open Spec Poly Prim

/-! ### Lookup of the overloads -/

section
variable (E : Env)
theorem reg_disk : (registry E).filter (·.name = "create_disk") = declareDisk E := by rfl
theorem reg_sphere : (registry E).filter (·.name = "create_sphere") = declareSphere E := by rfl
theorem reg_ellipse : (registry E).filter (·.name = "create_ellipse") = declareEllipse E := by rfl
theorem reg_ellipsoid : (registry E).filter (·.name = "create_ellipsoid") = declareEllipsoid E := by rfl
theorem reg_cylinder : (registry E).filter (·.name = "create_cylinder") = declareCylinder E := by rfl
theorem reg_annulus : (registry E).filter (·.name = "create_annulus") = declareAnnulus E := by rfl
theorem reg_torus : (registry E).filter (·.name = "create_torus") = declareTorus E := by rfl
theorem reg_plane : (registry E).filter (·.name = "create_plane") = declarePlane E 3 "create_plane" := by rfl
theorem reg_line : (registry E).filter (·.name = "create_line") = declarePlane E 2 "create_line" := by rfl
theorem reg_constant2 : (registry E).filter (·.name = "create_constant_2D") = declareConstant 2 := by rfl
theorem reg_constant3 : (registry E).filter (·.name = "create_constant_3D") = declareConstant 3 := by rfl
theorem reg_square2 : (registry E).filter (·.name = "create_square_2D") = (declareSquare E 2).take 1 := by rfl
theorem reg_square3 : (registry E).filter (·.name = "create_square_3D") = (declareSquare E 3).take 1 := by rfl
theorem reg_dim_linear : (registry E).filter (·.name = "create_dim_linear") = declareDimLinear E 2 ++ declareDimLinear E 3 := by rfl
theorem reg_transformed :
    (registry E).filter (·.name = "create_affinely_transformed") = declareTransformed E 2 ++ declareTransformed E 3 := by rfl
theorem reg_negative : (registry E).filter (·.name = "create_negative") =
    (declareArithmetic 2).take 1 ++ (declareArithmetic 3).take 1 := by rfl
theorem reg_addition : (registry E).filter (·.name = "create_functions_addition") =
    ((declareArithmetic 2).drop 1).take 1 ++ ((declareArithmetic 3).drop 1).take 1 := by rfl
theorem reg_subtraction : (registry E).filter (·.name = "create_functions_subtraction") =
    (declareArithmetic 2).drop 2 ++ (declareArithmetic 3).drop 2 := by rfl
theorem reg_schoen : (registry E).filter (·.name = "create_Schoen") =
    declareTpms 2 "Schoen" Tpms.schoen ++ declareTpms 3 "Schoen" Tpms.schoen := by rfl
theorem reg_schoenIWP : (registry E).filter (·.name = "create_SchoenIWP") =
    declareTpms 2 "SchoenIWP" Tpms.schoenIWP ++ declareTpms 3 "SchoenIWP" Tpms.schoenIWP := by rfl
theorem reg_schoenFRD : (registry E).filter (·.name = "create_SchoenFRD") =
    declareTpms 2 "SchoenFRD" Tpms.schoenFRD ++ declareTpms 3 "SchoenFRD" Tpms.schoenFRD := by rfl
theorem reg_fischerKochS : (registry E).filter (·.name = "create_FischerKochS") =
    declareTpms 2 "FischerKochS" Tpms.fischerKochS ++ declareTpms 3 "FischerKochS" Tpms.fischerKochS := by rfl
theorem reg_schwarzPrimitive : (registry E).filter (·.name = "create_SchwarzPrimitive") =
    declareTpms 2 "SchwarzPrimitive" Tpms.schwarzPrimitive ++ declareTpms 3 "SchwarzPrimitive" Tpms.schwarzPrimitive := by rfl
theorem reg_schwarzDiamond : (registry E).filter (·.name = "create_SchwarzDiamond") =
    declareTpms 2 "SchwarzDiamond" Tpms.schwarzDiamond ++ declareTpms 3 "SchwarzDiamond" Tpms.schwarzDiamond := by rfl
end

/-! ### Elementary facts -/

theorem check_ok {e : Err} {c : Prop} {k : Except Err CppFunc} {f : CppFunc} : check e c k = .ok f ↔ c ∧ k = .ok f := by
  unfold check
  split_ifs with h <;> simp [h]

theorem check_pos {e : Err} {c : Prop} {k : Except Err CppFunc} (h : c) : check e c k = k := by
  unfold check
  rw [if_pos h]

theorem check_neg {e : Err} {c : Prop} {k : Except Err CppFunc} (h : ¬ c) : check e c k = .error e := by
  unfold check
  rw [if_neg h]

theorem cppAssert_pos {E : Env} {c : Prop} {k : Except Err CppFunc} (h : c) : cppAssert E c k = k := check_pos fun _ => h

/-- A one-dimensional array of `n` numbers. -/
def IsVec (n : Nat) (a : NdArr) : Prop := a.shape = [n] ∧ a.data.length = n

theorem IsVec.size {n : Nat} {a : NdArr} (h : IsVec n a) : a.size = n := by
  simp [NdArr.size, h.1]

/-! ### Every function of the module is well formed -/

/-- Well-formed objects: of dimension two or three, and Bezier polynomials with coefficients for their order. -/
def Good (f : CppFunc) : Prop :=
  (f.dim = 2 ∨ f.dim = 3) ∧ ∀ q, f.rep = .bez q → WellFormed q.order q.coefs ∧ q.order.length = f.dim

/-- `q` has the order and the number of coefficients of a polynomial of order `ord`. -/
def Shape (ord : List Nat) (q : P ℝ) : Prop := q.order = ord ∧ q.coefs.length = listProd ord

theorem listProd_foldl (l : List Nat) (a : Nat) : l.foldl (· * ·) a = a * listProd l := by
  induction l generalizing a with
  | nil => simp [listProd]
  | cons b l ih =>
    rw [List.foldl_cons, ih, mul_assoc]
    simp [listProd]

theorem shape_zero (ord : List Nat) : Shape ord (zeroMon ord) := by
  refine ⟨rfl, ?_⟩
  simp [zeroMon, listProd_foldl]

theorem Shape.set {ord : List Nat} {q : P ℝ} (h : Shape ord q) (t : List Nat) (v : ℝ) : Shape ord (setCoef q t v) := by
  unfold setCoef
  split
  · exact ⟨h.1, by simpa using h.2⟩
  · exact h

theorem Shape.add {ord : List Nat} {q : P ℝ} (h : Shape ord q) (t : List Nat) (v : ℝ) : Shape ord (addCoef q t v) := by
  unfold addCoef
  split
  · exact ⟨h.1, by simpa using h.2⟩
  · exact h

theorem Shape.foldl {α : Type} {ord : List Nat} (step : P ℝ → α → P ℝ) (hs : ∀ q a, Shape ord q → Shape ord (step q a)) (l : List α) :
    ∀ {q : P ℝ}, Shape ord q → Shape ord (l.foldl step q) := by
  induction l with
  | nil => exact fun h => h
  | cons a l ih => exact fun h => ih (hs _ a h)

theorem shape_sphere (dim : Nat) (r : ℝ) (c : List ℝ) : Shape (List.replicate dim 3) (sphereMon dim r c) := by
  unfold sphereMon
  exact Shape.foldl _ (fun q a h => ((h.add _ _).set _ _).set _ _) _ ((shape_zero _).set _ _)

theorem shape_cylinder (r : ℝ) (o : List ℝ) (b : List (List ℝ)) : Shape [3, 3, 3] (cylinderMonOf r o b) := by
  unfold cylinderMonOf
  refine Shape.foldl _ (fun q a h => ?_) _ ((shape_zero _).set _ _)
  exact Shape.foldl _ (fun q a h => Shape.foldl _ (fun q a h => h.add _ _) _ (h.add _ _)) _ (h.add _ _)

theorem shape_ellipsoid (dim : Nat) (s o : List ℝ) (b : List (List ℝ)) : Shape (List.replicate dim 3) (ellipsoidMon dim s o b) := by
  unfold ellipsoidMon
  refine Shape.foldl _ (fun q a h => ?_) _ ((shape_zero _).set _ _)
  exact Shape.foldl _ (fun q a h => Shape.foldl _ (fun q a h => h.add _ _) _ (h.add _ _)) _ (h.add _ _)

theorem shape_setAll {ord : List Nat} (l : List (List Nat × ℝ)) {q : P ℝ} (h : Shape ord q) : Shape ord (setAll q l) :=
  Shape.foldl _ (fun q a h => h.set _ _) l h

theorem shape_annulus (ri ro : ℝ) (c : List ℝ) : Shape [5, 5] (annulusMon ri ro c) := shape_setAll _ (shape_zero _)
theorem shape_torus (norm : List ℝ → ℝ) (R r : ℝ) (c ax : List ℝ) : Shape [5, 5, 5] (torusMon norm R r c ax) :=
  shape_setAll _ (shape_zero _)

theorem shape_plane (norm : List ℝ → ℝ) (dim : Nat) (o n : List ℝ) : Shape (List.replicate dim 2) (planeMon norm dim o n) := by
  unfold planeMon
  exact Shape.foldl _ (fun q a h => (h.add _ _).set _ _) _ (shape_zero _)

theorem good_bez {dim : Nat} (hd : dim = 2 ∨ dim = 3) {ord : List Nat} (hl : ord.length = dim) (hp : ∀ n ∈ ord, 0 < n) {q : P ℝ}
    (h : Shape ord q) : Good ⟨dim, .bez (ofMonomials ℝ q)⟩ := by
  refine ⟨hd, fun p hp' => ?_⟩
  obtain rfl : ofMonomials ℝ q = p := by simpa using hp'
  have hw : WellFormed q.order q.coefs := by
    rw [h.1]
    exact ⟨by rintro rfl; simp at hl; omega, hp, h.2⟩
  refine ⟨(C33_conversion (K := ℝ) q hw (List.replicate q.order.length 0) (by simp)).1, ?_⟩
  rw [show (ofMonomials ℝ q).order = q.order from rfl, h.1, hl]

theorem good_gen {dim : Nat} (hd : dim = 2 ∨ dim = 3) (g : Func ℝ) : Good ⟨dim, .gen g⟩ := ⟨hd, fun q h => by simp at h⟩

theorem good_either {dim : Nat} (hd : dim = 2 ∨ dim = 3) {ord : List Nat} (hl : ord.length = dim) (hp : ∀ n ∈ ord, 0 < n) {q : P ℝ}
    (h : Shape ord q) (bzr : Bool) (g : Func ℝ) {f : CppFunc} (hf : either dim bzr q g = .ok f) : Good f := by
  simp only [either, Except.ok.injEq] at hf
  subst hf
  cases bzr
  · exact good_gen hd g
  · exact good_bez hd hl hp h

theorem rep_pos (n k : Nat) (hk : 0 < k) : ∀ m ∈ List.replicate n k, 0 < m := by
  intro m hm
  rw [List.eq_of_mem_replicate hm]
  exact hk

theorem good_sphere {E : Env} {dim : Nat} (hd : dim = 2 ∨ dim = 3) {r : ℝ} {c : List ℝ} {b : Bool} {f : CppFunc}
    (h : sphereOf E dim r c b = .ok f) : Good f :=
  good_either hd (by simp) (rep_pos _ _ (by omega)) (shape_sphere dim r c) _ _ (check_ok.1 h).2

theorem good_ellipsoid {E : Env} {dim : Nat} (hd : dim = 2 ∨ dim = 3) {s o : List ℝ} {ba : List (List ℝ)} {b : Bool} {f : CppFunc}
    (h : ellipsoidOf E dim s o ba b = .ok f) : Good f :=
  good_either hd (by simp) (rep_pos _ _ (by omega)) (shape_ellipsoid dim s o ba) _ _ (check_ok.1 h).2

theorem good_annulus {E : Env} {ri ro : ℝ} {c : List ℝ} {b : Bool} {f : CppFunc} (h : annulusOf E ri ro c b = .ok f) : Good f :=
  good_either (Or.inl rfl) rfl (by simp) (shape_annulus ri ro c) _ _ (check_ok.1 h).2

theorem good_torus {E : Env} {R r : ℝ} {c ax : List ℝ} {b : Bool} {f : CppFunc} (h : torusOf E R r c ax b = .ok f) : Good f :=
  good_either (Or.inr rfl) rfl (by simp) (shape_torus E.norm R r c ax) _ _ (check_ok.1 h).2

theorem good_plane {E : Env} {dim : Nat} (hd : dim = 2 ∨ dim = 3) {o n : List ℝ} {b : Bool} {f : CppFunc}
    (h : planeOf E dim o n b = .ok f) : Good f :=
  good_either hd (by simp) (rep_pos _ _ (by omega)) (shape_plane E.norm dim o n) _ _ h

theorem good_cylinder {E : Env} {r : ℝ} {o ax : List ℝ} {b : Bool} {f : CppFunc} (h : cylinderOf E r o ax b = .ok f) : Good f := by
  have h := (check_ok.1 h).2
  cases b
  · simp only [Bool.false_eq_true, if_false, Except.ok.injEq] at h
    subst h
    exact good_gen (Or.inr rfl) _
  · simp only [if_true] at h
    split at h
    · rename_i m hm
      simp only [Except.ok.injEq] at h
      subst h
      unfold cylinderMon at hm
      obtain ⟨ba, -, rfl⟩ := Option.map_eq_some_iff.1 hm
      exact good_bez (Or.inr rfl) rfl (by simp) (shape_cylinder r o ba)
    · cases h

theorem good_constant {dim : Nat} (hd : dim = 2 ∨ dim = 3) {v : ℝ} {b : Bool} {f : CppFunc} (h : constantOf dim v b = .ok f) : Good f := by
  simp only [constantOf, Except.ok.injEq] at h
  subst h
  cases b
  · exact good_gen hd _
  · refine ⟨hd, fun q hq => ?_⟩
    obtain rfl : constantBzr dim v = q := by simpa using hq
    refine ⟨⟨?_, rep_pos _ _ (by omega), ?_⟩, by simp [constantBzr]⟩
    · rcases hd with rfl | rfl <;> simp [constantBzr]
    · rcases hd with rfl | rfl <;> simp [constantBzr, List.replicate, listProd]

theorem good_transf {E : Env} {dim : Nat} (hd : dim = 2 ∨ dim = 3) {g : Func ℝ} {t : List ℝ} {f : CppFunc}
    (h : transfOf E dim g t = .ok f) : Good f := by
  unfold transfOf at h
  split at h
  · simp only [Except.ok.injEq] at h
    subst h
    exact good_gen hd _
  · cases h

theorem good_negative {f h : CppFunc} (hf : Good f) (hh : negativeOf f = .ok h) : Good h := by
  unfold negativeOf at hh
  split at hh
  · rename_i q hq
    simp only [Except.ok.injEq] at hh
    subst hh
    refine ⟨hf.1, fun p hp => ?_⟩
    obtain rfl : negate ℝ q = p := by simpa using hp
    obtain ⟨h1, h2⟩ := hf.2 q hq
    exact ⟨(C34_negate (K := ℝ) q h1 (List.replicate q.order.length 0) (by simp)).1, h2⟩
  · simp only [Except.ok.injEq] at hh
    subst hh
    exact good_gen hf.1 _

theorem good_addition {f g h : CppFunc} (hf : Good f) (hg : Good g) (hd : g.dim = f.dim) (hh : additionOf f g = .ok h) : Good h := by
  unfold additionOf at hh
  split at hh
  · rename_i p q hp hq
    obtain ⟨p1, p2⟩ := hf.2 p hp
    obtain ⟨q1, q2⟩ := hg.2 q hq
    obtain ⟨s, hs, so, sw, -⟩ := C34_sum (K := ℝ) p q p1 q1 (by omega) (by rcases hf.1 with h | h <;> omega)
    rw [hs] at hh
    simp only [Except.ok.injEq] at hh
    subst hh
    refine ⟨hf.1, fun p' hp' => ?_⟩
    obtain rfl : s = p' := by simpa using hp'
    refine ⟨sw, ?_⟩
    rw [so]
    simp [p2, q2, hd]
  · simp only [Except.ok.injEq] at hh
    subst hh
    exact good_gen hf.1 _

theorem good_subtraction {f g h : CppFunc} (hf : Good f) (hg : Good g) (hd : g.dim = f.dim) (hh : subtractionOf f g = .ok h) : Good h := by
  unfold subtractionOf at hh
  split at hh
  · rename_i p q hp hq
    obtain ⟨p1, p2⟩ := hf.2 p hp
    obtain ⟨q1, q2⟩ := hg.2 q hq
    obtain ⟨s, hs, so, sw, -⟩ := C34_difference (K := ℝ) p q p1 q1 (by omega) (by rcases hf.1 with h | h <;> omega)
    rw [hs] at hh
    simp only [Except.ok.injEq] at hh
    subst hh
    refine ⟨hf.1, fun p' hp' => ?_⟩
    obtain rfl : s = p' := by simpa using hp'
    refine ⟨sw, ?_⟩
    rw [so]
    simp [p2, q2, hd]
  · simp only [Except.ok.injEq] at hh
    subst hh
    exact good_gen hf.1 _

/-- The function objects a program can obtain from the module: results of calls with any arguments. -/
inductive Built (E : Env) : CppFunc → Prop
  | call (name : String) (args : List Arg) (f : CppFunc) (hargs : ∀ g, Arg.func g ∈ args → Built E g) (h : call E name args = .ok f) :
      Built E f

/-- An overload whose results are well formed. -/
def Fine (o : Overload) : Prop :=
  ∀ given args, fill o.params given = some args → (∀ g, Arg.func g ∈ given → Good g) → ∀ f, o.build args = .ok f → Good f

/-- The results of the overloads that take no functions. -/
macro "fine" l:term : tactic => `(tactic| (
  intro given args _ _ f hf
  dsimp only at hf
  split at hf
  · first | exact $l (Or.inl rfl) hf | exact $l (Or.inr rfl) hf | exact $l hf
  · cases hf))

theorem fine_disk (E : Env) : ∀ o ∈ declareDisk E, Fine o := by
  simp only [declareDisk, List.forall_mem_cons, List.not_mem_nil, false_imp_iff, implies_true, and_true]
  exact ⟨by fine good_sphere, by fine good_sphere⟩
theorem fine_sphere (E : Env) : ∀ o ∈ declareSphere E, Fine o := by
  simp only [declareSphere, List.forall_mem_cons, List.not_mem_nil, false_imp_iff, implies_true, and_true]
  exact ⟨by fine good_sphere, by fine good_sphere⟩
theorem fine_ellipse (E : Env) : ∀ o ∈ declareEllipse E, Fine o := by
  simp only [declareEllipse, List.forall_mem_cons, List.not_mem_nil, false_imp_iff, implies_true, and_true]
  exact ⟨by fine good_ellipsoid, by fine good_ellipsoid⟩
theorem fine_ellipsoid (E : Env) : ∀ o ∈ declareEllipsoid E, Fine o := by
  simp only [declareEllipsoid, List.forall_mem_cons, List.not_mem_nil, false_imp_iff, implies_true, and_true]
  exact ⟨by fine good_ellipsoid, by fine good_ellipsoid⟩
theorem fine_cylinder (E : Env) : ∀ o ∈ declareCylinder E, Fine o := by
  simp only [declareCylinder, List.forall_mem_cons, List.not_mem_nil, false_imp_iff, implies_true, and_true]
  exact ⟨by fine good_cylinder, by fine good_cylinder⟩
theorem fine_annulus (E : Env) : ∀ o ∈ declareAnnulus E, Fine o := by
  simp only [declareAnnulus, List.forall_mem_cons, List.not_mem_nil, false_imp_iff, implies_true, and_true]
  exact ⟨by fine good_annulus, by fine good_annulus⟩
theorem fine_torus (E : Env) : ∀ o ∈ declareTorus E, Fine o := by
  simp only [declareTorus, List.forall_mem_cons, List.not_mem_nil, false_imp_iff, implies_true, and_true]
  exact ⟨by fine good_torus, by fine good_torus, by fine good_torus⟩
theorem fine_plane (E : Env) (dim : Nat) (hd : dim = 2 ∨ dim = 3) (name : String) : ∀ o ∈ declarePlane E dim name, Fine o := by
  simp only [declarePlane, List.forall_mem_cons, List.not_mem_nil, false_imp_iff, implies_true, and_true]
  exact ⟨by fine (good_plane hd), by fine (good_plane hd)⟩
theorem fine_constant (dim : Nat) (hd : dim = 2 ∨ dim = 3) : ∀ o ∈ declareConstant dim, Fine o := by
  simp only [declareConstant, List.forall_mem_cons, List.not_mem_nil, false_imp_iff, implies_true, and_true]
  fine (good_constant hd)
theorem fine_square (E : Env) (dim : Nat) (hd : dim = 2 ∨ dim = 3) : ∀ o ∈ declareSquare E dim, Fine o := by
  simp only [declareSquare, List.forall_mem_cons, List.not_mem_nil, false_imp_iff, implies_true, and_true]
  exact ⟨fun _ _ _ _ f hf => good_transf hd hf, by fine (good_transf hd)⟩
theorem fine_dimLinear (E : Env) (dim : Nat) (hd : dim = 2 ∨ dim = 3) : ∀ o ∈ declareDimLinear E dim, Fine o := by
  simp only [declareDimLinear, List.forall_mem_cons, List.not_mem_nil, false_imp_iff, implies_true, and_true]
  exact ⟨by fine (good_transf hd), by fine (good_transf hd)⟩
theorem fine_transformed (E : Env) (dim : Nat) (hd : dim = 2 ∨ dim = 3) : ∀ o ∈ declareTransformed E dim, Fine o := by
  simp only [declareTransformed, List.forall_mem_cons, List.not_mem_nil, false_imp_iff, implies_true, and_true]
  fine (good_transf hd)
theorem fine_tpms (dim : Nat) (name : String) (s : Tpms.Surface) : ∀ o ∈ declareTpms dim name s, Fine o := by
  unfold declareTpms
  split_ifs
  all_goals
    simp only [List.forall_mem_cons, List.not_mem_nil, false_imp_iff, implies_true, and_true]
    intro given args _ _ f hf
    dsimp only at hf
    split at hf
    · cases hf
      exact good_gen (by simp) _
    · cases hf

theorem fill_func1 {dim : Nat} {given args : List Arg} (h : fill [(.func dim, none)] given = some args) :
    ∃ f, given = [.func f] ∧ args = [.func f] ∧ f.dim = dim := by
  match given with
  | [.func f] =>
    simp only [fill, Kind.accepts, beq_iff_eq] at h
    split_ifs at h with hd
    exact ⟨f, rfl, by simpa using h.symm, hd⟩
  | [.real _] | [.bool _] | [.arr _] | [.sys _ _ _] | [.aff _ _] => simp [fill, Kind.accepts] at h
  | [] => simp [fill] at h
  | a :: b :: l => simp [fill] at h

theorem fill_func2 {dim : Nat} {given args : List Arg} (h : fill [(.func dim, none), (.func dim, none)] given = some args) :
    ∃ f g, given = [.func f, .func g] ∧ args = [.func f, .func g] ∧ f.dim = dim ∧ g.dim = dim := by
  match given with
  | [] => simp [fill] at h
  | a :: rest =>
    have hr : ∃ r, fill [(.func dim, none)] rest = some r ∧ args = a :: r ∧ Kind.accepts (.func dim) a = true := by
      rw [fill] at h
      split_ifs at h with ha
      obtain ⟨r, h1, h2⟩ := Option.map_eq_some_iff.1 h
      exact ⟨r, h1, h2.symm, ha⟩
    obtain ⟨r, h1, rfl, ha⟩ := hr
    obtain ⟨g, rfl, rfl, hg⟩ := fill_func1 h1
    match a with
    | .func f => exact ⟨f, g, rfl, rfl, by simpa [Kind.accepts] using ha, hg⟩
    | .real _ | .bool _ | .arr _ | .sys _ _ _ | .aff _ _ => simp [Kind.accepts] at ha

theorem fine_arithmetic (dim : Nat) : ∀ o ∈ declareArithmetic dim, Fine o := by
  simp only [declareArithmetic, List.forall_mem_cons, List.not_mem_nil, false_imp_iff, implies_true, and_true]
  refine ⟨?_, ?_, ?_⟩
  · intro given args hfill hg f hf
    obtain ⟨g, rfl, rfl, -⟩ := fill_func1 hfill
    exact good_negative (hg g (by simp)) hf
  · intro given args hfill hg f hf
    obtain ⟨a, b, rfl, rfl, ha, hb⟩ := fill_func2 hfill
    exact good_addition (hg a (by simp)) (hg b (by simp)) (hb.trans ha.symm) hf
  · intro given args hfill hg f hf
    obtain ⟨a, b, rfl, rfl, ha, hb⟩ := fill_func2 hfill
    exact good_subtraction (hg a (by simp)) (hg b (by simp)) (hb.trans ha.symm) hf

theorem fine_append {l m : List Overload} (hl : ∀ o ∈ l, Fine o) (hm : ∀ o ∈ m, Fine o) : ∀ o ∈ l ++ m, Fine o :=
  List.forall_mem_append.2 ⟨hl, hm⟩

theorem fine_general (E : Env) (dim : Nat) (hd : dim = 2 ∨ dim = 3) : ∀ o ∈ declareGeneral E dim, Fine o := by
  unfold declareGeneral
  refine fine_append (fine_append (fine_append (fine_append (fine_append (fine_append ?_ ?_) (fine_square E dim hd))
    (fine_constant dim hd)) (fine_dimLinear E dim hd)) (fine_transformed E dim hd)) (fine_arithmetic dim)
  · split_ifs
    · exact fine_append (fine_append (fine_append (fine_disk E) (fine_annulus E)) (fine_plane E 2 (Or.inl rfl) _)) (fine_ellipse E)
    · simp
  · split_ifs
    · exact fine_append (fine_append (fine_append (fine_append (fine_sphere E) (fine_cylinder E)) (fine_torus E))
        (fine_plane E 3 (Or.inr rfl) _)) (fine_ellipsoid E)
    · simp

theorem fine_surfaces (dim : Nat) : ∀ o ∈ declareSurfaces dim, Fine o := by
  unfold declareSurfaces
  exact fine_append (fine_append (fine_append (fine_append (fine_append (fine_tpms _ _ _) (fine_tpms _ _ _)) (fine_tpms _ _ _))
    (fine_tpms _ _ _)) (fine_tpms _ _ _)) (fine_tpms _ _ _)

theorem fine_registry (E : Env) : ∀ o ∈ registry E, Fine o :=
  fine_append (fine_append (fine_append (fine_general E 2 (Or.inl rfl)) (fine_general E 3 (Or.inr rfl))) (fine_surfaces 2))
    (fine_surfaces 3)

theorem built_good {E : Env} {f : CppFunc} (h : Built E f) : Good f := by
  induction h with
  | call name args f _ h ih =>
    unfold call at h
    split at h
    · rename_i r hr
      obtain ⟨o, ho, hb⟩ := List.exists_of_findSome?_eq_some hr
      obtain ⟨as, has, rfl⟩ := Option.map_eq_some_iff.1 hb
      exact fine_registry E o (List.mem_of_mem_filter ho) args as has ih f h
    · cases h

/-! ### Values and gradients -/

/-- The function object has dimension `dim`, the values of the function `V`, and the exact gradients of `V`. -/
def Computes (f : CppFunc) (dim : Nat) (V : List ℝ → ℝ) : Prop :=
  f.dim = dim ∧ ∀ p, p.length = dim → f.value p = V p ∧ IsGradient V p (f.gradient p)

theorem isGradient_congr {F G : List ℝ → ℝ} {x g : List ℝ} (h : IsGradient F x g) (he : ∀ y, y.length = x.length → F y = G y) :
    IsGradient G x g := by
  refine ⟨h.1, fun v hv => (h.2 v hv).congr_of_eventuallyEq (Filter.Eventually.of_forall fun t => ?_)⟩
  exact (he _ (by simp [along, hv])).symm

theorem bez_gradient (q : P ℝ) (hw : WellFormed q.order q.coefs) (x : List ℝ) (hx : x.length = q.order.length) :
    IsGradient (Bez.eval q) x (Bez.grad q x) := by
  obtain ⟨h1, h2⟩ := C30_gradient q hw x hx
  refine ⟨h1, fun v hv => ?_⟩
  refine (h2 v hv).congr_deriv ?_
  simp only [dot]
  rw [List.zipWith_comm]
  simp [mul_comm]

/-- Bezier polynomials compute the functions whose values they have. -/
theorem computes_bez {dim : Nat} {q : P ℝ} (hg : Good ⟨dim, .bez q⟩) {V : List ℝ → ℝ}
    (h : ∀ p, p.length = dim → Bez.eval q p = V p) : Computes ⟨dim, .bez q⟩ dim V := by
  obtain ⟨hw, hl⟩ := hg.2 q rfl
  refine ⟨rfl, fun p hp => ⟨h p hp, ?_⟩⟩
  exact isGradient_congr (bez_gradient q hw p (hp.trans hl.symm)) fun y hy => h y (hy.trans hp)

theorem computes_gen {dim : Nat} {g : Func ℝ} {V : List ℝ → ℝ} (h : ∀ p, p.length = dim → g.eval p = V p)
    (hd : ∀ p, p.length = dim → IsGradient g.eval p (g.grad p)) : Computes ⟨dim, .gen g⟩ dim V :=
  ⟨rfl, fun p hp => ⟨h p hp, isGradient_congr (hd p hp) fun y hy => h y (hy.trans hp)⟩⟩

theorem computes_either {dim : Nat} (hd : dim = 2 ∨ dim = 3) {ord : List Nat} (hl : ord.length = dim) (hp : ∀ n ∈ ord, 0 < n)
    {q : P ℝ} (h : Shape ord q) (bzr : Bool) (g : Func ℝ) {V : List ℝ → ℝ} (hb : ∀ p, p.length = dim → Bez.eval (ofMonomials ℝ q) p = g.eval p)
    (hv : ∀ p, p.length = dim → g.eval p = V p) (hdv : ∀ p, p.length = dim → IsGradient g.eval p (g.grad p)) :
    ∃ f, either dim bzr q g = .ok f ∧ Computes f dim V := by
  refine ⟨_, rfl, ?_⟩
  cases bzr
  · exact computes_gen hv hdv
  · exact computes_bez (good_bez hd hl hp h) fun p hp => (hb p hp).trans (hv p hp)

/-- The environment of the library: a Euclidean norm, tolerances in `[0, 1)`. -/
structure Env.Ok (E : Env) : Prop where
  norm : EuclideanNorm E.norm
  eps0 : 0 ≤ E.eps
  eps1 : E.eps < 1
  tol0 : 0 ≤ E.tol
  tol1 : E.tol < 1

theorem sphereOf_spec (E : Env) {dim : Nat} (hd : dim = 2 ∨ dim = 3) {r : ℝ} (hr : 0 < r) {c : List ℝ} (hc : c.length = dim) (b : Bool) :
    ∃ f, sphereOf E dim r c b = .ok f ∧ Computes f dim (fun p => dist2 p c - r * r) := by
  unfold sphereOf
  rw [cppAssert_pos hr]
  refine computes_either hd (by simp) (rep_pos _ _ (by omega)) (shape_sphere dim r c) b _ (fun p hp => C45_sphere dim hd r c p hc hp)
    (fun p _ => ?_) (fun p hp => (C44_sphere dim hd r c hc p hp).1)
  simp only [sphere, dotp_eq, dist2, vsub]

/-! ### The calls -/

theorem call_disk (E : Env) (r : ℝ) (b : Bool) : call E "create_disk" [.real r, .bool b] = sphereOf E 2 r (zeros 2) b := by
  unfold call
  rw [reg_disk]
  rfl

theorem call_disk_at (E : Env) (r : ℝ) (c : NdArr) (b : Bool) :
    call E "create_disk" [.real r, .arr c, .bool b] = if c.shape = [2] then sphereOf E 2 r c.data b else .error .type := by
  unfold call
  rw [reg_disk]
  by_cases h : c.shape = [2] <;> simp [declareDisk, fill, useBzr, Kind.accepts, h]

theorem call_sphere (E : Env) (r : ℝ) (b : Bool) : call E "create_sphere" [.real r, .bool b] = sphereOf E 3 r (zeros 3) b := by
  unfold call
  rw [reg_sphere]
  rfl

theorem call_sphere_at (E : Env) (r : ℝ) (c : NdArr) (b : Bool) :
    call E "create_sphere" [.real r, .arr c, .bool b] = if c.shape = [3] then sphereOf E 3 r c.data b else .error .type := by
  unfold call
  rw [reg_sphere]
  by_cases h : c.shape = [3] <;> simp [declareSphere, fill, useBzr, Kind.accepts, h]

theorem call_ellipse (E : Env) (s : NdArr) (b : Bool) : call E "create_ellipse" [.arr s, .bool b] =
    if s.shape = [2] then ellipsoidOf E 2 s.data (zeros 2) (RefSystem.cartesian 2) b else .error .type := by
  unfold call
  rw [reg_ellipse]
  by_cases h : s.shape = [2] <;> simp [declareEllipse, fill, useBzr, Kind.accepts, h]

theorem call_ellipse_in (E : Env) (s : NdArr) (d : Nat) (o : List ℝ) (ba : List (List ℝ)) (b : Bool) :
    call E "create_ellipse" [.arr s, .sys d o ba, .bool b] =
    if s.shape = [2] ∧ d = 2 then ellipsoidOf E 2 s.data o ba b else .error .type := by
  unfold call
  rw [reg_ellipse]
  by_cases h : s.shape = [2] <;> by_cases h2 : d = 2 <;> simp [declareEllipse, fill, useBzr, Kind.accepts, h, h2]

theorem call_ellipsoid (E : Env) (s : NdArr) (b : Bool) : call E "create_ellipsoid" [.arr s, .bool b] =
    if s.shape = [3] then ellipsoidOf E 3 s.data (zeros 3) (RefSystem.cartesian 3) b else .error .type := by
  unfold call
  rw [reg_ellipsoid]
  by_cases h : s.shape = [3] <;> simp [declareEllipsoid, fill, useBzr, Kind.accepts, h]

theorem call_ellipsoid_in (E : Env) (s : NdArr) (d : Nat) (o : List ℝ) (ba : List (List ℝ)) (b : Bool) :
    call E "create_ellipsoid" [.arr s, .sys d o ba, .bool b] =
    if s.shape = [3] ∧ d = 3 then ellipsoidOf E 3 s.data o ba b else .error .type := by
  unfold call
  rw [reg_ellipsoid]
  by_cases h : s.shape = [3] <;> by_cases h2 : d = 3 <;> simp [declareEllipsoid, fill, useBzr, Kind.accepts, h, h2]

theorem call_cylinder (E : Env) (r : ℝ) (o : NdArr) (b : Bool) : call E "create_cylinder" [.real r, .arr o, .bool b] =
    if o.shape = [3] then cylinderOf E r o.data axisZ b else .error .type := by
  unfold call
  rw [reg_cylinder]
  by_cases h : o.shape = [3] <;> simp [declareCylinder, fill, useBzr, Kind.accepts, h]

theorem call_cylinder_axis (E : Env) (r : ℝ) (o ax : NdArr) (b : Bool) :
    call E "create_cylinder" [.real r, .arr o, .arr ax, .bool b] =
    if o.shape = [3] ∧ ax.shape = [3] then cylinderOf E r o.data ax.data b else .error .type := by
  unfold call
  rw [reg_cylinder]
  by_cases h : o.shape = [3] <;> by_cases h2 : ax.shape = [3] <;> simp [declareCylinder, fill, useBzr, Kind.accepts, h, h2]

theorem call_annulus (E : Env) (ri ro : ℝ) (b : Bool) :
    call E "create_annulus" [.real ri, .real ro, .bool b] = annulusOf E ri ro (zeros 2) b := by
  unfold call
  rw [reg_annulus]
  rfl

theorem call_annulus_at (E : Env) (ri ro : ℝ) (c : NdArr) (b : Bool) :
    call E "create_annulus" [.real ri, .real ro, .arr c, .bool b] =
    if c.shape = [2] then annulusOf E ri ro c.data b else .error .type := by
  unfold call
  rw [reg_annulus]
  by_cases h : c.shape = [2] <;> simp [declareAnnulus, fill, useBzr, Kind.accepts, h]

theorem call_torus (E : Env) (R r : ℝ) (b : Bool) :
    call E "create_torus" [.real R, .real r, .bool b] = torusOf E R r (zeros 3) axisZ b := by
  unfold call
  rw [reg_torus]
  rfl

theorem call_torus_at (E : Env) (R r : ℝ) (c : NdArr) (b : Bool) :
    call E "create_torus" [.real R, .real r, .arr c, .bool b] =
    if c.shape = [3] then torusOf E R r c.data axisZ b else .error .type := by
  unfold call
  rw [reg_torus]
  by_cases h : c.shape = [3] <;> simp [declareTorus, fill, useBzr, Kind.accepts, h]

theorem call_torus_axis (E : Env) (R r : ℝ) (c ax : NdArr) (b : Bool) :
    call E "create_torus" [.real R, .real r, .arr c, .arr ax, .bool b] =
    if c.shape = [3] ∧ ax.shape = [3] then torusOf E R r c.data ax.data b else .error .type := by
  unfold call
  rw [reg_torus]
  by_cases h : c.shape = [3] <;> by_cases h2 : ax.shape = [3] <;> simp [declareTorus, fill, useBzr, Kind.accepts, h, h2]

theorem call_plane (E : Env) (b : Bool) : call E "create_plane" [.bool b] = planeOf E 3 (zeros 3) (normalX 3) b := by
  unfold call
  rw [reg_plane]
  rfl

theorem call_plane_at (E : Env) (o n : NdArr) (b : Bool) : call E "create_plane" [.arr o, .arr n, .bool b] =
    if o.shape = [3] ∧ n.shape = [3] then planeOf E 3 o.data n.data b else .error .type := by
  unfold call
  rw [reg_plane]
  by_cases h : o.shape = [3] <;> by_cases h2 : n.shape = [3] <;> simp [declarePlane, fill, useBzr, Kind.accepts, h, h2]

theorem call_line (E : Env) (b : Bool) : call E "create_line" [.bool b] = planeOf E 2 (zeros 2) (normalX 2) b := by
  unfold call
  rw [reg_line]
  rfl

theorem call_line_at (E : Env) (o n : NdArr) (b : Bool) : call E "create_line" [.arr o, .arr n, .bool b] =
    if o.shape = [2] ∧ n.shape = [2] then planeOf E 2 o.data n.data b else .error .type := by
  unfold call
  rw [reg_line]
  by_cases h : o.shape = [2] <;> by_cases h2 : n.shape = [2] <;> simp [declarePlane, fill, useBzr, Kind.accepts, h, h2]

theorem call_constant2 (E : Env) (v : ℝ) (b : Bool) : call E "create_constant_2D" [.real v, .bool b] = constantOf 2 v b := by
  unfold call
  rw [reg_constant2]
  rfl

theorem call_constant3 (E : Env) (v : ℝ) (b : Bool) : call E "create_constant_3D" [.real v, .bool b] = constantOf 3 v b := by
  unfold call
  rw [reg_constant3]
  rfl

theorem call_square2 (E : Env) : call E "create_square_2D" [] = transfOf E 2 (Func.square 2) (identity 2) := by
  unfold call
  rw [reg_square2]
  rfl

theorem call_square3 (E : Env) : call E "create_square_3D" [] = transfOf E 3 (Func.square 3) (identity 3) := by
  unfold call
  rw [reg_square3]
  rfl

theorem call_square2_arg (E : Env) (a : Arg) : call E "create_square_2D" [a] = .error .type := by
  unfold call
  rw [reg_square2]
  rfl

theorem call_square3_arg (E : Env) (a : Arg) : call E "create_square_3D" [a] = .error .type := by
  unfold call
  rw [reg_square3]
  rfl

theorem call_dim_linear (E : Env) (c : NdArr) : call E "create_dim_linear" [.arr c] =
    if c.shape = [4] then transfOf E 2 (dimLinear 2 c.data) (identity 2) else
    if c.shape = [8] then transfOf E 3 (dimLinear 3 c.data) (identity 3) else .error .type := by
  unfold call
  rw [reg_dim_linear]
  by_cases h : c.shape = [4] <;> by_cases h2 : c.shape = [8] <;> simp [declareDimLinear, fill, Kind.accepts, h, h2]

theorem call_dim_linear_transf (E : Env) (c : NdArr) (d : Nat) (t : List ℝ) : call E "create_dim_linear" [.arr c, .aff d t] =
    if c.shape = [4] ∧ d = 2 then transfOf E 2 (dimLinear 2 c.data) t else
    if c.shape = [8] ∧ d = 3 then transfOf E 3 (dimLinear 3 c.data) t else .error .type := by
  unfold call
  rw [reg_dim_linear]
  by_cases h : c.shape = [4] <;> by_cases h2 : c.shape = [8] <;> by_cases hd : d = 2 <;> by_cases hd3 : d = 3 <;>
    simp_all [declareDimLinear, fill, Kind.accepts]

theorem call_transformed (E : Env) (f : CppFunc) (d : Nat) (t : List ℝ) : call E "create_affinely_transformed" [.func f, .aff d t] =
    if f.dim = 2 ∧ d = 2 then transfOf E 2 f.func t else
    if f.dim = 3 ∧ d = 3 then transfOf E 3 f.func t else .error .type := by
  unfold call
  rw [reg_transformed]
  by_cases h : f.dim = 2 <;> by_cases h2 : f.dim = 3 <;> by_cases hd : d = 2 <;> by_cases hd3 : d = 3 <;>
    simp_all [declareTransformed, fill, Kind.accepts]

theorem call_negative (E : Env) (f : CppFunc) : call E "create_negative" [.func f] =
    if f.dim = 2 ∨ f.dim = 3 then negativeOf f else .error .type := by
  unfold call
  rw [reg_negative]
  by_cases h : f.dim = 2 <;> by_cases h2 : f.dim = 3 <;> simp_all [declareArithmetic, fill, Kind.accepts]

theorem call_addition (E : Env) (f g : CppFunc) : call E "create_functions_addition" [.func f, .func g] =
    if (f.dim = 2 ∧ g.dim = 2) ∨ (f.dim = 3 ∧ g.dim = 3) then additionOf f g else .error .type := by
  unfold call
  rw [reg_addition]
  by_cases h : f.dim = 2 <;> by_cases h2 : f.dim = 3 <;> by_cases hd : g.dim = 2 <;> by_cases hd3 : g.dim = 3 <;>
    simp_all [declareArithmetic, fill, Kind.accepts]

theorem call_subtraction (E : Env) (f g : CppFunc) : call E "create_functions_subtraction" [.func f, .func g] =
    if (f.dim = 2 ∧ g.dim = 2) ∨ (f.dim = 3 ∧ g.dim = 3) then subtractionOf f g else .error .type := by
  unfold call
  rw [reg_subtraction]
  by_cases h : f.dim = 2 <;> by_cases h2 : f.dim = 3 <;> by_cases hd : g.dim = 2 <;> by_cases hd3 : g.dim = 3 <;>
    simp_all [declareArithmetic, fill, Kind.accepts]

/-- The names of the six surfaces. -/
noncomputable def surfaces : List (String × Tpms.Surface) :=
  [("create_Schoen", Tpms.schoen), ("create_SchoenIWP", Tpms.schoenIWP), ("create_SchoenFRD", Tpms.schoenFRD),
   ("create_FischerKochS", Tpms.fischerKochS), ("create_SchwarzPrimitive", Tpms.schwarzPrimitive),
   ("create_SchwarzDiamond", Tpms.schwarzDiamond)]

theorem call_tpms (E : Env) (name : String) (s : Tpms.Surface) (h : (name, s) ∈ surfaces) (m : NdArr) :
    call E name [.arr m] = if m.shape = [2] then .ok ⟨2, .gen (s.func2 m.data 0)⟩ else
      if m.shape = [3] then .ok ⟨3, .gen (s.func3 m.data)⟩ else .error .type := by
  simp only [surfaces, List.mem_cons, Prod.mk.injEq, List.not_mem_nil, or_false] at h
  rcases h with ⟨rfl, rfl⟩ | ⟨rfl, rfl⟩ | ⟨rfl, rfl⟩ | ⟨rfl, rfl⟩ | ⟨rfl, rfl⟩ | ⟨rfl, rfl⟩
  all_goals
    unfold call
    first | rw [reg_schoen] | rw [reg_schoenIWP] | rw [reg_schoenFRD] | rw [reg_fischerKochS] | rw [reg_schwarzPrimitive] | rw [reg_schwarzDiamond]
    by_cases h : m.shape = [2] <;> by_cases h2 : m.shape = [3] <;> simp_all [declareTpms, fill, Kind.accepts]

theorem call_tpms_z (E : Env) (name : String) (s : Tpms.Surface) (h : (name, s) ∈ surfaces) (m : NdArr) (z : ℝ) :
    call E name [.arr m, .real z] = if m.shape = [2] then .ok ⟨2, .gen (s.func2 m.data z)⟩ else .error .type := by
  simp only [surfaces, List.mem_cons, Prod.mk.injEq, List.not_mem_nil, or_false] at h
  rcases h with ⟨rfl, rfl⟩ | ⟨rfl, rfl⟩ | ⟨rfl, rfl⟩ | ⟨rfl, rfl⟩ | ⟨rfl, rfl⟩ | ⟨rfl, rfl⟩
  all_goals
    unfold call
    first | rw [reg_schoen] | rw [reg_schoenIWP] | rw [reg_schoenFRD] | rw [reg_fischerKochS] | rw [reg_schwarzPrimitive] | rw [reg_schwarzDiamond]
    by_cases h : m.shape = [2] <;> by_cases h2 : m.shape = [3] <;> simp_all [declareTpms, fill, Kind.accepts]

/-- **C78**, `create_disk` and `create_sphere`: positive radii and centres of two (three) coordinates give the function
`|p - c|^2 - r^2`, in both representations, with the centre at the origin if none is given; other radii raise an AssertionError and
other centres an exception. -/
theorem C78_balls (E : Env) (radius : ℝ) (center : Option NdArr) (bzr : Bool) (mk : Env → ℝ → Option NdArr → Bool → Except Err CppFunc)
    (n : Nat) (hmk : (mk = createDisk ∧ n = 2) ∨ (mk = createSphere ∧ n = 3)) :
    (radius ≤ 0 → mk E radius center bzr = .error .assertion) ∧
    (0 < radius → (∀ c, center = some c → IsVec n c) → ∃ f, mk E radius center bzr = .ok f ∧
      Computes f n fun p => dist2 p (center.elim (List.replicate n 0) NdArr.data) - radius * radius) ∧
    (∀ c, center = some c → c.shape ≠ [n] → ∃ e, mk E radius center bzr = .error e) := by
  have hz : ∀ n, (zeros n).length = n := fun n => by simp [zeros]
  rcases hmk with ⟨rfl, rfl⟩ | ⟨rfl, rfl⟩
  · refine ⟨fun h => check_neg (not_lt.2 h), fun h hc => ?_, fun c hc hs => ?_⟩
    · unfold createDisk
      rw [check_pos h]
      cases center with
      | none => exact call_disk E radius bzr ▸ sphereOf_spec E (Or.inl rfl) h (hz 2) bzr
      | some c =>
        have hv := hc c rfl
        simp only [check_pos hv.size, call_disk_at, if_pos hv.1]
        exact sphereOf_spec E (Or.inl rfl) h hv.2 bzr
    · subst hc
      unfold createDisk
      simp only [call_disk_at, if_neg hs]
      unfold check
      split_ifs <;> exact ⟨_, rfl⟩
  · refine ⟨fun h => check_neg (not_lt.2 h), fun h hc => ?_, fun c hc hs => ?_⟩
    · unfold createSphere
      rw [check_pos h]
      cases center with
      | none => exact call_sphere E radius bzr ▸ sphereOf_spec E (Or.inr rfl) h (hz 3) bzr
      | some c =>
        have hv := hc c rfl
        simp only [check_pos hv.size, call_sphere_at, if_pos hv.1]
        exact sphereOf_spec E (Or.inr rfl) h hv.2 bzr
    · subst hc
      unfold createSphere
      simp only [call_sphere_at, if_neg hs]
      unfold check
      split_ifs <;> exact ⟨_, rfl⟩

end Qugar.Py.Impl
