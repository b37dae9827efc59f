import Verif.Props.PyModule
import Verif.Props.PyTextExamples
/-
C88: cases that meet the hypotheses of its theorems, and texts.
-/
namespace Qugar.Py.Module

open Regex Kernel Text Pack

/-! ### Header -/

example : modifyHeader (chars "// comment\n#include <ufcx.h>\nextern int x;") =
    some (chars "// comment\n#include <stddef.h>\n#include <ufcx.h>\nextern int x;") := by decide +kernel

/-! ### Data: four tables of two quadratures -/

/-- Number, quadrature and dimension of the tables. -/
def tablesEx : List (Nat × Nat × Nat) := [(0, 7, 2), (1, 5, 2), (2, 7, 1), (3, 5, 2)]

/-- The quadratures of the form: 5, 6 and 7. -/
def quadsEx (n : Nat) : Option Nat := if n = 5 ∨ n = 6 ∨ n = 7 then some n else none

set_option synthInstance.maxHeartbeats 400000 in
set_option synthInstance.maxSize 1000 in
example : (extract quadsEx (fun t => t.2.1) (fun t => t.2.2) (fun _ : Unit => 2) (chars "integral_ab") .exterior [(), ()] [3] tablesEx).map
    (fun d => (d.name, d.ids, d.mixed, d.quads)) =
    some (chars "ab", [3], true, [(7, [(0, 7, 2), (2, 7, 1)]), (5, [(1, 5, 2), (3, 5, 2)])]) := by decide +kernel

example : ∀ t ∈ tablesEx, ∃ q, quadsEx t.2.1 = some q := by
  intro t ht
  simp only [tablesEx, List.mem_cons, List.not_mem_nil, or_false] at ht
  rcases ht with rfl | rfl | rfl | rfl <;> exact ⟨_, rfl⟩

example : ∀ n q, quadsEx n = some q → id q = n := by
  intro n q h
  rw [quadsEx] at h
  split at h
  · exact (Option.some.inj h).symm
  · exact absurd h (by simp)

/-! ### Two integrals with two quadratures each -/

/-- Names in the code, in the data, and quadratures. -/
def itgsEx : List (List Char × List Char × Quads) :=
  [(chars "0a_triangle", chars "0a", [(chars "1d2", ⟨2, false, false, false⟩), (chars "083", ⟨2, false, false, true⟩)]),
    (chars "0b_triangle", chars "0b", [(chars "1d2", ⟨2, true, false, false⟩), (chars "7f0", ⟨2, true, true, false⟩)])]

theorem itgsEx_ok : (∀ x ∈ itgsEx, x.2.1.length = 2 ∧ x.2.1 <+: x.1) ∧ (itgsEx.map fun x => x.2.1).Nodup ∧
    ∀ x ∈ itgsEx, (x.2.2.map Prod.fst).Nodup ∧ ∀ q ∈ x.2.2, q.1.length = 3 := by decide +kernel

example : (itgsEx.flatMap fun x => functions x.1 x.2.1 x.2.2) = [chars "tabulate_tensor_integral_0a_triangle_original",
    chars "load_points_0a_Q1d2", chars "load_points_0a_Q083", chars "tabulate_tensor_integral_0a_triangle_custom",
    chars "tabulate_tensor_integral_0a_triangle", chars "tabulate_tensor_integral_0b_triangle_original", chars "load_points_0b_Q1d2",
    chars "load_points_0b_Q7f0", chars "tabulate_tensor_integral_0b_triangle_custom", chars "tabulate_tensor_integral_0b_triangle"] := by
  decide +kernel

/-- A coefficient, one point in the first quadrature and none in the second, and other data. -/
def memEx : List (Slot Nat) := [.off 1 0, .num 1, .num 10, .num 11, .num 12, .num 0, .num 99]

example : loadAll id memEx [⟨2, false, false, false⟩, ⟨2, false, false, true⟩] 1 =
    some [⟨1, [10, 11], none, none, [12], none⟩, ⟨0, [], none, none, [], some []⟩] := by decide +kernel

set_option synthInstance.maxHeartbeats 400000 in
set_option synthInstance.maxSize 1000 in
example : (execCalls id memEx (itgsEx.flatMap fun x => loaders x.2.1 x.2.2)
    (callers (chars "0a") [(chars "1d2", ⟨2, false, false, false⟩), (chars "083", ⟨2, false, false, true⟩)])
    ⟨1, fun _ => none, [], fun _ => none⟩).map (fun st => (st.w, st.ints (chars "n_pts_Q1d2"), st.ptrs (chars "points_1d2"),
      st.ptrs (chars "weights_1d2"), st.ints (chars "n_pts_Q083"), st.ptrs (chars "normals_083"), st.ptrs (chars "normals_1d2"))) =
    some (6, some 1, some 2, some 4, some 0, some 6, none) := by decide +kernel

/-! ### Texts -/

example : (loader (chars "0b") ⟨2, true, true, true⟩ (chars "7f0")).text (chars "double") = (chars "\nint load_points_0b_Q7f0(const double* restrict *w_custom,\n" ++
    chars "                        const double* restrict *points_7f0,\n                        const double* restrict *points_side1_7f0,\n" ++
    chars "                        const double* restrict *points_facet_7f0,\n                        const double* restrict *weights_7f0,\n" ++
    chars "                        const double* restrict *normals_7f0)\n{\nconst int n_pts_Q7f0 = (int) **w_custom;\n*w_custom += 1;\n\n" ++
    chars "*points_7f0 = *w_custom;\n*w_custom += 2 * n_pts_Q7f0;\n\n*points_side1_7f0 = *w_custom;\n*w_custom += 2 * n_pts_Q7f0;\n\n" ++
    chars "*points_facet_7f0 = *w_custom;\n*w_custom += 1 * n_pts_Q7f0;\n\n*weights_7f0 = *w_custom;\n*w_custom += n_pts_Q7f0;\n\n" ++
    chars "*normals_7f0 = *w_custom;\n*w_custom += 2 * n_pts_Q7f0;\n\nreturn n_pts_Q7f0;\n}\n\n\n") := by decide +kernel

example : (caller (chars "0a") ⟨2, false, false, true⟩ (chars "083")).text (chars "float") = (chars "const float* restrict points_083;\n" ++
    chars "const float* restrict weights_083;\nconst float* restrict normals_083;\nconst int n_pts_Q083 = load_points_0a_Q083(&w_custom,\n" ++
    chars "                                           &points_083,\n                                           &weights_083,\n" ++
    chars "                                           &normals_083);\n\n") := by decide +kernel

/-- The declarations are those of `qugar_basix_shim.cpp`. -/
example : shimDecls .float64 = (chars "extern int qugar_register_element_f64(int, int, int, int, int, int);\n" ++
    chars "extern int qugar_tabulate_f64(int, int, const double*, int, int, double*, long);\nextern double* qugar_get_scratch_f64(long);\n\n") ∧
    shimDecls .float32 = (chars "extern int qugar_register_element_f32(int, int, int, int, int, int);\n" ++
    chars "extern int qugar_tabulate_f32(int, int, const float*, int, int, float*, long);\nextern float* qugar_get_scratch_f32(long);\n\n") := by
  decide +kernel

example : newFunction (chars "void f(double* A)") (chars "0a") .float64 12 = (chars "void f(double* A)\n{\n" ++
    chars "const ptrdiff_t w_custom_offset = *((const ptrdiff_t *) &w[12]);\nconst bool is_custom = w_custom_offset > 0;\n" ++
    chars "const bool is_full   = w_custom_offset < 0;\n\nif (is_custom)\n{\n" ++
    chars "  const double* restrict w_custom = (const double *)w + w_custom_offset;\n" ++
    chars "  tabulate_tensor_integral_0a_custom(A, w, c, coordinate_dofs, entity_local_index, quadrature_permutation, (void*)w_custom);\n}\n" ++
    chars "else if (is_full)\n{\n" ++
    chars "  tabulate_tensor_integral_0a_original(A, w, c, coordinate_dofs, entity_local_index, quadrature_permutation, custom_data);\n}\n}\n") := by
  decide +kernel

/-! ### Code -/

example : ∃ b rest, fromFfcx exSource.code = some b ∧ newCode b .float64 3 (chars "abc1") [] (b.render (chars "_original")) [] =
    exSource.before ++ shimDecls .float64 ++ (sigText (exSource.name ++ chars "_original") exSource.args ++ b.renderBody ++ chars "\n\n") ++
    [] ++ [] ++ sigText exSource.name exSource.args ++ rest ++ exSource.after ∧ rest = newFunction [] exSource.name .float64 3 := by
  refine C88_code exSource exSource_ok .float64 3 (chars "abc1") [] [] ?_
  intro i hi h
  have h1 : ∀ i < (chars "void tabulate_tensor_integral_").length,
      exSource.name.isPrefixOf ((sigText exSource.name exSource.args).drop i) = false := by decide +kernel
  have h2 := h1 i hi
  rw [List.isPrefixOf_iff_prefix.2 h] at h2
  simp at h2

/-! ### Module -/

example : generate (fun code (ir : Nat) => if ir = 0 then none else some ('x' :: code, ir)) (chars "#include <ufcx.h>") [(1, ['a']), (2, ['b'])]
    [10, 20] = some (chars "#include <stddef.h>\n#include <ufcx.h>", [(1, ['x', 'a']), (2, ['x', 'b'])], [10, 20]) := by decide +kernel

example : generate (fun code (ir : Nat) => if ir = 0 then none else some ('x' :: code, ir)) (chars "#include <ufcx.h>") [(1, ['a']), (2, ['b'])]
    [10, 0] = none := by decide +kernel

/-! ### The data of the example of C87 -/

open Tables Assemble in
example : ∃ d, extract (fun n => if n = 0 then some n else none) (fun _ : Tables.Table Nat => 0) (fun t => t.elemDim) (fun _ : Unit => 1)
    (chars "integral_" ++ chars "ab") .cell [()] [-1] [exampleTable 0] = some d ∧ Linked exampleBasix Assemble.infoEx d.mixed (d.quads.map Prod.snd) inputEx := by
  obtain ⟨d, hd, h⟩ := C88_linked exampleBasix (fun n => if n = 0 then some n else none) (fun _ => 0) (fun _ : Unit => 1) id
    (by intro n q h; split at h; · exact (Option.some.inj h).symm
        · exact absurd h (by simp)) (fun _ => false) (chars "ab") .cell () [()] ⟨by simp, fun _ _ => rfl⟩ [-1] (by decide) [exampleTable 0]
    (fun _ _ => ⟨0, rfl⟩) (by decide) (by
      intro t ht
      exact (exampleQuad_ok 0 []).tables t ht) (by
      intro t ht _
      obtain rfl := List.mem_singleton.1 ht
      exact .inl rfl) (fun _ _ _ _ _ _ => rfl)
  refine ⟨d, hd, ?_⟩
  have hd' : d = ⟨chars "ab", [-1], .cell, 1, false, [(0, [exampleTable 0])]⟩ := by
    rw [extract] at hd
    simp only [List.drop_left] at hd
    exact (Option.some.inj hd).symm
  subst hd'
  refine h inputEx rfl rfl Assemble.infoEx rfl ?_ ?_ rfl rfl ?_ rfl rfl
  · intro t ht; obtain rfl := List.mem_singleton.1 ht; rfl
  · intro t ht; obtain rfl := List.mem_singleton.1 ht; rfl
  · intro e _; rfl

end Qugar.Py.Module
