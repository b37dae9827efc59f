# Formal model of pantolin/qugar (C++ core) in Lean 4

## 1. What is built

`/verif/lean/Verif` contains

* `Verif/Model/*.lean` – executable (total, computable where the number type allows) models of the
  C++ functions; every definition cites the file and lines of `/repo/cpp` it models and says where it
  simplifies.
* `Verif/Spec/*.lean` – small specifications written without the helpers of the model (boxes, partial
  derivatives, polynomials, sortedness...).
* `Verif/Lemmas/*.lean` – helper lemmas.
* `Verif/Props/*.lean` – the property theorems (named `Cnn_...`), with non-vacuity examples beside them.

`MANIFEST.json` maps every property of `properties.jsonl` to the exact theorem names.

## 2. Trusted base

* Lean 4.33.0's kernel, and the axioms `propext`, `Classical.choice`, `Quot.sound` (each property
  theorem depends on a subset of these). No own axioms, no compiled-code oracles.
* The reading of the C++ source (the code is never run here): each definition cites its source lines.
* The numbers. `qugar::real` is `double`; the model uses an arbitrary linearly ordered field, or the reals
  where trigonometry/square roots/derivatives occur. Floating-point rounding is *not* modelled; no claim is made about
  it. `int`, `std::int64_t`, `std::size_t` are modelled by `Nat`/`Int`: overflow is not modelled.
* External code that is not in the repository and only enters as a parameter with the behaviour stated in the theorem:
  `algoim` (`ImplicitPolyQuadrature`, `bernstein::*`, `uvector`, `MultiLoop`, interval arithmetic signs), `std::sort`
  (some sorted permutation), `std::unordered_map` (a finite map with unspecified iteration order), `std::set`,
  `std::map`.
* Assertions. The C++ code states its preconditions with `assert`. Where a property is about those
  preconditions the model returns `Option` (`none` = the assertion fails / undefined behaviour);
  elsewhere the precondition is an explicit hypothesis of the theorem, and a concrete instance is given.
* Not modelled: memory management, nanobind layers and the Python files not listed in section 4, parallelism (the code has none),
  performance.

## 3. Plan per property

| id | what is modelled | how it is proved |
|----|------------------|------------------|
| C01 | `TensorIndexTP` flat loop and constructor-from-flat loop, over lists (any dimension) | induction on the dimension |
| C02 | iterator `++`, begin/end, the loop `for (it : range)` | induction on the dimension; the odometer enumerates the recursive product list |
| C03 | `split` incl. `argmax` | case analysis on the split direction; sizes decrease |
| C04 | `is_in_range`, `size`, flat version | induction |
| C05 | `get_cell_id` (per direction `upper_bound`) over an ordered field | list induction on the breaks |
| C06 | `get_boundary_cells`, `on_boundary` | via C01/C02 |
| C07 | `get_cell_domain`, sub grid domain, equispaced breaks | telescoping sums |
| C08 | binary tree with `branch`, `set_status`, `reduce`, `find_leaf` and histories of operations | invariant by induction over operations |
| C09 | `get_cell_ids`, `get_num_cells`, per-cell predicates | induction on the tree |
| C10 | target version | induction |
| C11 | `reduce` | induction on the tree |
| C12 | `create_decomposition` recursion with sign oracle | induction on sub-grid size |
| C13 | same, with target cells | the assertion in `insert_cells` makes the full statement false: negation + partial |
| C14 | `classify_cell_from_quad` thresholds | linear arithmetic |
| C15 | status table and predicates | finite case analysis (whole domain) |
| C16 | facet lists built from a map | finite-map reasoning |
| C17 | `init_full_cells_with_unf_bdry` | list reasoning |
| C18/C19 | quadrature creation loops as folds | fold invariants |
| C20 | `erase_points_in_quad`, `purge_facet_points` | induction on indices |
| C21 | static caches as state | refinement over request histories |
| C22 | `create_tp_quadrature` | sums over products; 3D code is wrong when the lower corner is not 0: negation + partial |
| C23 | the tables, generated from `quadrature_lib.cpp` as integers | kernel evaluation over the whole finite table |
| C24 | scaling wrappers | field algebra |
| C25 | `BoundBox` | field algebra |
| C26 | affine transformations | ring identities |
| C27 | gradient/Hessian transformations | chain rule as ring identities / `HasDerivAt` |
| C28 | ref systems | algebra over the reals; `create_reference_system_around_axis` fallback is wrong: negation |
| C29 | Horner | induction on degree and dimension; negations for derivative of degree 0 and for facets on side 1 |
| C30, C31, C32 | de Casteljau, Bernstein recurrences | induction |
| C33, C34 | basis conversion, product, sum | sums of binomials |
| C35 | Lagrange basis | products over node lists; flag inversion recorded |
| C36 | image transforms | algebra |
| C37 | `find_coincident_points`, `make_points_unique` | induction on coordinates, any sorted permutation |
| C38 | `ReparamMesh` operations (new, full cells, allocate/insert, merge, merge coincident, scale, permute, orient, wirebasket) | invariant by induction over histories of operations (`Built`); merging meshes with unfilled cells: negation |
| C39 | VTU masks | per order formulas, all orders, against a table-driven specification |
| C40 | edge sorting and purging of the wirebasket | list induction; closed edges: negation + partial |
| C41 | `permute_cell_directions`, `orient_*` | index arithmetic; Jacobian determinant as a polynomial identity; wrong nodes for orders 4-6: negation + partial; several level set functions: negation + partial |
| C42 | `adjust_roots` | list induction; chains: negation + partial |
| C43–C46 | function libraries over the reals | `HasDerivAt` along coordinate lines; negations with witnesses where the code is wrong |
| C47 | tolerance functions | linear arithmetic, list induction |
| C48 | numbering | arithmetic / finite check of the whole domain |
| C49 | `operator<` | the code is not a strict weak order: negation + partial |
| C50 | tanh-sinh tables as integers | kernel evaluation of the whole finite table |
| C51 | unfitted boundary quadrature | fold invariants as in C18/C19 |
| C52 | `generate_wirebasket` | exact characterisation of the appended edges; negation for curved edges |
| C53 | `ImplicitPolyReparam::create/reparameterize` (impl_reparam_bezier.cpp) | induction over the elimination levels and over the reference intervals; Algoim (elimination, masks, root finder) is a parameter |
| C54 | number of appended cells | same induction: towers of intervals |
| C55 | domains without interfaces | case analysis; positive polynomials: negation + partial |
| C56 | classification of reference intervals | intermediate value theorem over the reals, root finder complete |
| C57 | origin of the vertices | provenance relation propagated through `process` |
| C58 | `create_reparameterization` (impl_reparam.cpp) | the mesh is a sequence of blocks, one per processed cell; fold invariants |
| C59 | `ImplicitGeneralReparam` (impl_reparam_general.cpp) | induction over dimensions, subdivisions and reference intervals; each constructor is a list of actions that fills whole cells |
| C60 | the same, region of the vertices | plane: monotone columns, transfer of the topology from the reference column with the intermediate value property; coverage in the plane: the cells of a box are columns (Spec/Column.lean), by induction over the subdivisions; coverage in 3D: negation by evaluation |
| C61 | `python/qugar/mesh/utils.py` numberings | reference position of every node number in each convention; closed forms for all degrees; facet tables by evaluation of the finite tables |
| C62 | `tp_index.py` | membership by tensor components, all sizes; negations by evaluation |
| C63 | `tp_mesh.py` connectivity and nodes | closed form of the node of a cell at a reference position; injectivity; common facet |
| C64 | `mesh.py`, `tp_mesh.py` queries | `argsort` any sorting permutation, DOLFINx renumbering any permutation; binary search against membership |
| C65 | `mesh_facets.py` | list-of-pairs as sets; topology with inverse incidence relations as hypothesis |
| C66 | `unfitted_domain.py`, `unfitted_domain_abc.py`, `unfitted_cart_mesh.py` | queries as functions on caches, invariant over histories; on top of C09/C10/C64/C65 and the facts of the C++ domain |
| C67 | `dolfinx/custom_coefficients.py`, loaders and kernel entry generated by `dolfinx/codegeneration.py` | memory as a list of slots (numbers and parts of offsets); slice writes with frame conditions; `pack` then `run` evaluated for every entity; update = repack by agreement outside the columns of DOLFINx |
| C68 | `dolfinx/custom_quad_utils.py`, `_map_facet_quadrature` | gather/scatter loops over distinct facets and permutations with a frame lemma; maps and permutations by evaluation of the finite tables for symbolic points |
| C69 | `utils.py`: `_compare_version_lt/le`, `check_version_in_range`, `check_*`, `has_FEniCSx` on parsed versions | `Older` is an inductive lexicographic order; case analysis. |
| C70 | `dolfinx/boundary.py`: `mapped_normal`, `ds_bdry_unf.__rmul__` (with UFL's product for tuples of subdomains) | linear algebra over ℝ: `(J v)·n = v·N`, uniqueness; Nanson through the adjugate of the Gram matrix in 2D and 3D for any dimension of the space. |
| C71 | `dolfinx/codegeneration.py`: `_resolve_mixed_component`, `_table_codegen_info`, `_create_custom_data_callers` (the statements that tabulate and repack); `_shim/qugar_basix_shim.cpp`; `fe_table.py`: `create_new_access_code` | the generated statements are a program over the thread's state, executed by a small interpreter that fails on out-of-bounds writes; frame invariants group by group; total size = final offset; layout of `tabulate` with an inverse of `basix.index` |
| C72 | `dolfinx/forms.py`: `_modify_everywhere_exterior_facet_integrals`, the subdomains and lists of forms in `form_custom`; `quadrature_data.py`: `extract_quadrature_data`; `integral_data.py`: `_get_integral_subdomain_ids` | the in-place loop equals a renumbering with consecutive fresh numbers; membership of every pair (number, entities); negations for symbolic forms |
| C73 | `_shim/__init__.py`: `ensure_built` | transition system with any number of workers, lock, clock, crashes and source changes; inductive invariants; negations by explicit executions |
| C74 | `dolfinx/jit.py`: `compile_forms`, `_compile_objects`, `_deduped_ldshared` | transition system with any number of processes over the files of the cache (C file, ready file, module); inductive invariants; negations by explicit executions and by invariants of the blocked states |
| C75 | `dolfinx/_kernel_body.py`, `parsing_utils.py`, variants in `codegeneration.py` | text as lists of characters; kernels as statements with C scopes (an undeclared name is `none`), blocks, loops over functions and local arrays; the transformed kernel is executed and compared, by induction over loops, points and statements, with an ideal meaning of the code of FFCx |
| C76 | `mesh/unfitted_domain.py` (`create_quad_*`), `quad/custom_quad.py`, `nanobind_wrappers/cut_quad.cpp` | composition of the models of C++ quadratures, of the mesh and of facets; NumPy arrays passed to C++ as views of a buffer with a stride |
| C77 | `reparam/reparam.py`, `nanobind_wrappers/reparam.cpp` | the connectivity given to DOLFINx for every history of a mesh; the map of a DOLFINx cell as sum over basix nodes, for any nodes of the element; Gauss-Lobatto-Legendre nodes specified by Mathlib's shifted Legendre polynomials; processes as a list of inputs of `create_mesh` |
| C78 | `impl/impl_function.py`, `nanobind_wrappers/impl_functions.cpp` | the registry of overloads as a list, `call` tries them in order; function objects as C++ models (general or Bezier) with a dimension; `Built` = objects obtained by any calls; values and gradients by C27, C33, C34, C43-C46 |
| C79 | `dolfinx/petsc.py`, `custom_coefficients.py` (`CustomCoeffsPacker`), `_dolfinx_patches.py` | problems as state machines over a `Backend` (DOLFINx and PETSc as parameters), the world `W` changes freely between calls; invariant: the cache is none or packed at some time; update by C67 |
| C80 | `write_reparam_to_VTK_cells`, `write_VTK_file` | texts as lists of characters; an independent reader of VTK's XML (Spec/VtkFile) recovers the mesh; files as a function from names to texts; induction on words, offsets and tags; wrong relative names: negation + partial |
| C81 | `tp_mesh.py`, `unfitted_cart_mesh.py`: creation of meshes, boxes of cells, boundary tags | composition of C63, C64, C66 and C12; accepted inputs as an equivalence; positional arguments as a sum type; numpy arrays without dimensions as a case of their own |
| C82 | `plot/pyvista_tools.py` | data sets as lists of points and cells with their data (PyVista external); loops with offsets by induction over the blocks of C76's rules; status arrays by a lemma on repeated assignment; renumbered meshes: negation + partial when the order is kept |
| C83 | `_kernel_body.py` (`from_ffcx`, `render`), text level | a small type of regular expressions (Model/PyRegex) run with continuations as Python's backtracking matcher does; soundness (`run_sound`) and, for patterns whose texts do not overlap (`Token`), exactness of `finditer`; then the loops by induction |
| C84 | the transformations of `_kernel_body.py`, `create_new_access_code`, `_check_FFCx_input` | texts as sequences of chunks; each substitution changes the operands of the chunks only, by induction; counterexamples by evaluation |
| C85 | `fe_table.py`: parsing of the tables and their order | declarations as records with a printer; the reader inverts the printer; sorting: stable sort, uniqueness of a list sorted by key with given entries per key |
| C86 | the memory of the objects and arrays of `nanobind_wrappers` | heap of reference-counted objects, views and owners; invariant: counts = references, references point to older objects, views are kept alive by their owner; simulation by a semantics of values (Spec/Views); leaks: induction from the newest object |
| C87 | a whole call: dispatcher, loaders, tabulation and kernel (Model/PyAssemble) | composition of C67, C71 and C75: the values in memory agree with the data of the entity (Spec: `exact`) in all that the kernel accesses; congruence of the executions; sums by induction over the points |
| C88 | the generated module and the data of its integrals (Model/PyModule): header, names, loaders and calls as programs with texts, dispatch, `generate_code` | loops by induction over tables, quadratures and integrals; names by comparison of prefixes; a symbolic execution of the loaders for all flags, frames between quadratures; refinement of `Pack.loadAll` |
| C89 | `form_custom` with UFL objects in memory (Model/PyFormsHeap): objects and dictionaries with addresses, histories of calls and failures | invariant of histories: each form looks as at the start, restored or modified, and the modification is idempotent; frame conditions of the loop in memory; counterexamples for shared objects by evaluation in the kernel |
| C90 | an integral over cells from the domain to the global tensor (Model/PyIntegral): queries of the domain, quadratures, packer, the loop of DOLFINx with the generated function | composition of C64, C66, C67, C76 and C87; element tensors are accumulated (induction over the code of a kernel), so a call is a sum over nodes; induction over the cells with the reachable states of the thread; concrete case in Props/PyIntegralEx |
| C91 | an integral over exterior facets from the domain to the global tensor (Model/PyIntegral: `facetInput`, `createFacetQuad`) | as C90, with C65, C66 (facets), C68 and C76 (facets); the mapped points of a facet are the points of its side of the unit cell; uniqueness of the rule of a facet; concrete case in Props/PyIntegralFacetEx |
| C92 | integrals over the domain (Spec/Integrals: Lebesgue integrals of Mathlib over boxes and the negative region; no new model: Model/Domain, Model/Quad, Model/Gauss with real numbers) | closed cells tile the domain up to null sets (Lemmas/BoxMeasure); tensor products of monomials by Fubini (Lemmas/BoxMonomial); the verdict of each cell by C12, C14 and C17, its rule by C18, the Gauss table by C23; triangle inequality cell by cell; concrete case in Props/IntegralsEx |
| C93 | `create_affine_transformation`, `create_ref_system` of the Python module (Model/PySystems): binding of positional and keyword arguments, overloads | a binding succeeds iff the call supplies the parameters with values of their types (induction over the parameters); overloads are told apart by the types of their parameters, as multisets; then C26 and C28 |
| C94 | functionals assembled over cells of an unfitted domain (no new model: Model/PyIntegral with real numbers; `Computes`: what a kernel of FFCx does in a cell) | composition of C90 (assembly) with the errors of each cell of C92, for any subset of the cells, each once; for the kernel of a finite element function with any number of functions, `Computes` by induction over its loop; concrete case in Props/PyIntegralFEEx: the integral of `x₀` over `[0,3) × [0,1]` is 9/2; vectors and matrices through the numbers of the degrees of freedom (`C94_tensor`), with the load vector of any finite element function as instance (`C94_load_vector`) and the integrals of four hat functions as concrete case (Props/PyIntegralLoadEx) |
| C95 | functionals, vectors and matrices assembled over facets of the boundary of the grid (no new model; `facetPart`, `sidePart`: parts of facets and sides in the domain, `ComputesFacet`: what a kernel of FFCx does in a facet) | composition of C91 (assembly over facets) with the errors of each facet (classification of the facets, C76 rules); the facets of a side are the cells of a grid with one direction less (Lemmas/GridSide), so that their parts tile the part of the side (`C95_side_sum`); kernels of finite element functions on the sides (`C95_finite_element`); concrete case in Props/PyIntegralSideEx: the integral of `x₀` over the part `x₀ < 3` of the lower side of `[0,6] × [0,1]` is 9/2 |
| C96 | functionals, vectors and matrices assembled over the unfitted boundary (no new model; `surfaceSum`: what points with weights and normals in the unit cube give in a box, `OnSurface`: a measure on the surface, `SurfaceAccurate`: errors of Algoim and of the classification, `ComputesSurface`: what a kernel of FFCx does) | composition of C90 (assembly over cells) with the rule of the unfitted boundary (C39 in cut cells, filtered by the classified facets), the soundness of the classification (C12) and the additivity of the measure over the cells (faces have measure zero); static branch: the skip of boundary quadratures adds nothing; `C96_points`: the scaling of weights and normals is that of areas and normals under the map to the box; kernels of functions and fluxes with Nanson's factor (`C96_finite_element`), load vectors (`C96_load_vector`); the measure and the mapped normal of boundary.py (model of C70) in the cells of a grid of any dimension are those areas and normals (`C96_nanson`); concrete case in Props/PyIntegralSurfaceEx: the integrals of `x₀`, `x₀ n₀` and `x₀ n₁` over the line `x₀ = 3` in `[0,6] × [0,1]` are 3, 3 and 0; Props/PyIntegralSurfaceLoadEx: the vector of the hat functions on that line |

## 4. Parts of the code modelled and not modelled

Modelled (all under `/repo/cpp`): tensor_index_tp, cart_grid_tp, bbox, tolerance, point/vector helpers used by them,
affine_transf, ref_system, lagrange_tp, monomials_tp (+ utils), bezier_tp (+ utils), domain_function,
impl_funcs_lib, primitive_funcs_lib (analytic and Bezier), tpms_lib, impl_utils (`RootsIntervals`), quadrature, quadrature_lib (tables),
unfitted_domain, unfitted_domain_binary_part, unfitted_domain_kd_tree operations, impl_unfitted_domain,
cut_quadrature, impl_quadrature, reparam_mesh, impl_reparam_mesh, impl_reparam_bezier,
impl_reparam_general, impl_reparam, the VTK files of reparam_mesh, cube numbering utilities.
Under `/repo/python/qugar/mesh`: utils.py, tp_index.py, tp_mesh.py, mesh.py, mesh_facets.py, unfitted_domain.py, unfitted_domain_abc.py,
unfitted_cart_mesh.py; quad/custom_quad.py and reparam/reparam.py with the wrappers of nanobind_wrappers/cut_quad.cpp and reparam.cpp; impl/impl_function.py with nanobind_wrappers/impl_functions.cpp; create_affine_transformation and create_ref_system of nanobind_wrappers/common.cpp; the lifetimes of the objects of nanobind_wrappers (common, quad, cut_quad, reparam, unf_domain .cpp); dolfinx/petsc.py and _dolfinx_patches.py; plot/pyvista_tools.py; under `/repo/python/qugar/dolfinx`: boundary.py, custom_coefficients.py, custom_quad_utils.py, forms.py, quadrature_data.py, integral_data.py, fe_table.py (accesses), jit.py, _kernel_body.py, parsing_utils.py, _shim/__init__.py, _shim/qugar_basix_shim.cpp and codegeneration.py (texts, loaders, tables, module) (NumPy arrays are lists, an exception is
`none`; DOLFINx meshes enter as their numberings and incidence tables).

Parameters (external code, behaviour stated as a hypothesis of the theorem):

* Algoim: quadrature nodes of cut cells, interval arithmetic, `uniformSign`, elimination (`ImplicitPolyQuadrature`-like
  resultant/discriminant hierarchy, masks), the univariate root finder, `Binomial`, `modifiedChebyshevNode`, `bernstein::deCasteljau` on
  a sub-box (used by `rescale_domain`).
* `std::sort` and friends: any function that returns a sorted permutation. The Euclidean norm in mesh orientation: any function.
* `Point`/`Vector` default constructors are taken to give zeros, as `algoim::uvector`-free code paths of the library assume.

Not modelled: other Python files, nanobind and DOLFINx, memory management (but for C86), exceptions other than failed
assertions and `at`, floating-point rounding, integer overflow, performance.

## 5. Deviations of the code found while modelling (each with a negation theorem or a recorded note)

1. `operator<` of tensor indices is not a strict weak order (C49); iterating a range empty in one direction visits a
   spurious index (C02).
2. `get_cell_id` assigns a point on a shared boundary to the upper cell; the documentation says the lowest (C05).
3. `get_status` of a tree node asserts that both children exist, also for leaves (C08).
4. `insert_cells` asserts that no targets are given: a debug build with target cells aborts (C13); `classify_cell_Bezier` checks the
   sign of the Bezier that is not rescaled; absolute volume tolerance: tiny cells are always empty (C14).
5. The facet quadrature asserts `is_cut_facet` for facets with only unfitted boundary (C19); external-boundary points are only
   purged from facets that have unfitted boundary (C19).
6. `create_tp_quadrature` in 3D adds the lower corner to the weights (C22).
7. `create_reference_system_around_axis`: wrong fallback for axes close to x (C28).
8. Monomials: derivative of degree 0 is a clone, facet restriction on side 1 is wrong, gradient for order 1 is wrong (C29).
9. Lagrange: the `chebyshev` flag is inverted (C35), which makes the orientation of cells use the wrong nodes (C41).
10. `sort_edge_points` is not canonical for closed edges (C40).
11. 3D multilinear function: wrong mixed second derivative (C43).
12. Cylinder Hessian, annulus gradient and Hessian are wrong (C44). `PlaneBzr` normalises its normal, `Plane` does not (C45).
13. Schoen gyroid Hessian, Schoen IWP gradient are wrong (C46).
14. `adjust_roots` does not merge chains of close roots (C42); coincident points are merged along chains (C37).
15. Bezier reparameterization: a polynomial positive on the whole cell gives the full cell (C55); the backup
    strategy indexes a point out of bounds when the base has no polynomials (C53); degenerate intervals give two coincident
    surface cells; `generate_wirebasket` asserts exactly one function.
16. Merging a mesh with allocated, unfilled cells gives dangling connectivity (C38).
17. `check_edge_in_subdomain` compares each point with the first one only (C52).
18. Level-set reparameterization goes over the cut cells only: pieces of the unfitted boundary on facets of full cells are not in it.
19. impl_reparam_general.cpp: `get_ref_intervals_roots` pushes `roots[psi_id]` where `roots[i]` is meant; the branch for too
    deep subdivisions loops over all the facet functions instead of the active ones.
20. impl_reparam_general.cpp:807: the signs of the functions restricted to the two faces are determined with the gradient of the
    first function instead of the gradient of each one; in 3D part of the negative region gets no cells (C60_region_covered_fails).
21. Python `lexicg_to_VTK_faces(3)` is not the face order of `vtkHexahedron` (C61).
22. `TensorProdIndex.get_all_internal` is wrong (or raises) in 3D; `lexicg_to_DOLFINx_edges(3)` has entries 4 and 6 swapped (C62).
23. mesh.py: searching in an empty array raises instead of giving -1; in the processes other than 0, active cells and merged nodes
    are not applied, so original numbers differ (C64). `get_face_facets` indexes the DOLFINx cell facets by the lexicographical face id
    (C64).
24. `create_interior_mesh_facets`/`create_all_mesh_facets` use the range of global facet numbers as local ones (C65).
25. `_get_empty_facets_int_integral` stores the joined list in the cache of the interior *cut* facets (unfitted_domain.py:459): the
    answer lacks the uncut facets with unfitted boundary and later queries of the interior cut facets are wrong (C66).
26. `create_facet_tags` gives the empty facets the tag of the cut ones (unfitted_domain_abc.py:498) (C66).
27. The numbers of the empty interior facets are used as row numbers (custom_coefficients.py:422) although every interior facet has two
    rows: empty facets are integrated as full ones and cut ones may be skipped (C67).
28. Interior facets: the extra columns are put in each of the two rows of a facet, so the coefficients of the second side are not
    where the kernel expects them (C67).
29. `_compute_coeffs_offset` is not the column of the offset for interior facets with two or more coefficients (C67).
30. `_create_permutation_operators` compares the UFL cell (not its name) with "quadrilateral" (custom_quad_utils.py:150): the operators
    of permutations 6 and 7 are missing and facets with them raise an exception (C68).
31. The quadratures of interior (and mixed dimensional) facets are given in the coordinates of the cell but permuted as if they were
    given in the reference orientation of DOLFINx (custom_coefficients.py:624): with a permutation in the first side the points are
    moved to another part of the facet (C68).
32. `ds_bdry_unf` with a tuple of subdomains (boundary.py:204-215 with 217-244): `__rmul__` multiplies the integrand by the norm of the normal and then calls UFL's product, which for tuples multiplies the (already corrected) integrand by the reconstructed measures; as `reconstruct` keeps the class, the norm is applied again (`C70_tuples_fail`): in a uniform mesh of size h the integral is off by a factor 1/h.
33. `_compare_version_le` (utils.py:94-113) compares component by component: 0.9.5 <= 0.10.0 and 0.10.0 <= 1.0.0 are wrong when revisions or minor numbers decrease (`C69_le_fails`); versions such as 0.11.0.dev0 make `import qugar` raise instead of disabling the layer (`C69_other_versions_raise`).
34. All the quadratures of an integral take their scratch memory with `qugar_get_scratch`, which returns the same thread-local vector each time (qugar_basix_shim.cpp:116-126, codegeneration.py:522-528), and all the tables are computed before the loops: with two custom quadratures in one integral (e.g. two degrees, or `dx` and `ds_bdry_unf` in cut cells) the tables of the first one are overwritten by those of the second or, if it needs more memory, point to released memory (`C71_two_quadratures_fail`).
35. `create_new_access_code` (fe_table.py:426-441) computes the index with parentheses (`new_index`) but uses the one without (`index`): a sum as point index is multiplied only in its first term; two literal zeros give an empty index, which is not valid C (`C71_access_fails`).
36. `is_constant_for_pts` is false for rules of one point, but FFCx reads the tables of such rules at the literal point 0 (they are piecewise for it), and finds that they do not depend on the permutation: only the first custom point is used in every iteration, and interior facets evaluate both sides at the points of the first (fe_table.py:196-222; consequence of `C71_tables_partial` with the point index 0).
37. Elements of facets (mixed dimension) in interior facet integrals with two sides are tabulated at the points of the second cell (`points_side1`), which have another dimension (codegeneration.py:566-575): excluded by the hypothesis on dimensions in C71.
38. `form_custom` of a list of forms always returns an empty list: `_flatten_list` (forms.py:356-361) drops everything that is not a list (`C72_lists_fail`).
39. `reconstruct` gets the subdomain id in the place of the subdomain data (forms.py:165-172): after compilation the integrals over the whole boundary of the user's form have the string "everywhere" as data (`C72_restored_fails`).
40. If the first exterior integral is over the whole boundary and another has tags, the assertion of forms.py:261 fails, because the data of the first was removed (`C72_order_fails`); numbers in tuples are ignored by `_get_max_subdomain_id` (forms.py:155), so the fresh number may be in use (`C72_tuple_fails`).
41. All the integrals with `ds_bdry_unf` have the same rule, so the dictionary by rule name keeps only the degree of the last one (quadrature_data.py:142): the others are integrated with that degree (`C72_degrees_fail`).
42. `ensure_built`: the compiler writes the library in its final place, and the first check is done without the lock (_shim/__init__.py:138): another worker may load a library that is being linked (`C73_fast_fails`); a kill while linking leaves it incomplete forever (`C73_crash_fails`); the cache is not keyed by environment or Basix version, only times are compared (`C73_stale_fails`).
43. jit.py:175-194: the handlers of the root logger are not restored when the compilation raises (`C74_handlers_fail`); `LDSHARED` set by the user is ignored during compilation (jit.py:78-82), and removing repeated tokens breaks options of two tokens such as `-arch a -arch b` (`C74_ldshared_fails`).
44. The name of the compiled module does not depend on the version of QUGaR (jit.py:239-243): kernels of an older version are loaded with integral data of the new one (`C74_version_fails`). A kill while compiling leaves the C file without ready file: all later calls time out (`C74_crash_fails`). If the ready file cannot be written it remains, while the C file is removed: later compilations end in FileExistsError, and incomplete modules may be loaded meanwhile (jit.py:188-190, 286-293, `C74_ready_fails`).
45. `get_pairing_brackets` counts a closing bracket before the first opening one and then finds nothing (parsing_utils.py:50-61, `C75_brackets_fail`). Loops over points inside others would be repeated (`C75_nested_fails`).
46. A quadrature for which the integral has no tables (constant integrand, affine cells) is not in `quad_by_name`: the bound of its loop becomes a name that is never declared, and the C code does not compile (`C75_no_tables_fails`).
47. _kernel_body.py:166: the end of the function is one character too far (`C75_end`); it works because the next line is blank.
48. The wrappers of cut_quad.cpp (176-177, 194, 219-220) accept arrays that are not contiguous and read `size()` consecutive entries from `data()`: with the cells of a `MeshFacets` after `unique()` (a column of an array of pairs) they use wrong cells (`C76_strided_arrays_fail`). The methods of `UnfittedDomain` always pass new arrays.
49. `create_mesh` uses elements of the variant `gll_warped` (reparam.py:147) for points that are equidistant (degree <= 5): from degree 3, which is the default, full cells are not mapped affinely (`C77_full_cells_partial`) and cells on a parabola leave it although the points are on it and the degree is 3 (`C77_curved_cells_fail`): the geometry is only accurate to second order.
50. `identity_partitioner` keeps all the cells of every process, but every process holds the whole reparameterization: with P processes every cell is created P times and integrals are multiplied by P (`C77_processes_fail`).
51. `create_box` with a transformation always raises: `create_square_2D/3D` are registered without arguments (impl_functions.cpp:516-521, the version with a transformation is called `create_square`), and without `dim` the assertion of impl_function.py:563 fails (`C78_transformed_box_fails`).
52. `create_ellipsoid` does not check the signs of the semi-axes (impl_function.py:214-216, unlike `create_ellipse`, `C78_ellipsoid_axes_fail`); `create_annulus` and `create_torus` do not compare the radii (`C78_radii_order_fails`): a debug build terminates the process. `create_torus` does not check the sizes of centre and axis (TypeError instead of the documented AssertionError, `C78_torus`). `create_cylinder` accepts the zero axis and returns a sphere (`C78_zero_axis_fails`).
53. The arguments `periods` of the triply periodic surfaces are numbers of periods per unit of length: a surface with `periods = p` has the period 1/p (`C78_periods_fail`).
54. common.cpp (wrappers, not modelled): `create_affine_transformation()` and `create_ref_system()` without arguments always give the 2D object, as both are registered under the same name; `BoundBox.mid_point` returns an array that points to a temporary.
55. petsc.py:79-108: `_update_coefficients` passes the whole list `old_coeffs` to every form of a list: the second residual of a `NonlinearProblem` with a list of forms raises (`C79_lists_fail`).
56. petsc.py:214: the prefix of the options contains `id(self)`, and the options stay in the database of PETSc: a problem created after another one was deleted can have the same address and then solves with its options (`C79_options_fail`).
57. petsc.py:127, 285: the default value of `bcs` is a mutable list, stored in the problem: appending a condition to `problem.bcs` adds it to all the problems created without conditions (`C79_default_bcs_fail`).
58. _dolfinx_patches.py:72-73 replaces the attributes of the modules: names imported from `dolfinx.fem` before `qugar.dolfinx` are still the ones that ignore the coefficients (`C79_early_import_fails`).
59. impl_reparam_mesh.cpp:291-294: with several level set functions the cell is oriented along the gradient of the smallest function at its centre; the function that vanishes at the boundary of the negative region is the largest one (`C41_several_functions_fail`).
60. reparam_mesh.cpp:749-750: the `.vtmb` file refers to `filename.vtu` with its directory, but readers look for relative names in the directory of the `.vtmb` file: it cannot be read for a name such as `out/mesh` (`C80_directory_fails`).
61. reparam_mesh.cpp:736-758: three files are written also without wires (documented: a single one; `C80_no_wires_fails`), and a file that cannot be opened is not reported (`C80_unwritable_fails`).
62. tp_mesh.py:609: `create_Cartesian_mesh` passes `ghost_mode` and `dtype` by position as `active_cells` and `ghost_mode`: as an enumerator has no `size` (mesh.py:362), it raises for all arguments (`C81_create_Cartesian_mesh_fails`).
63. tp_mesh.py:450: `np.array` of a number has no dimensions, so `[0]` raises: `get_cell_tensor_index` and `get_cell_bbox` only work for one-element arrays (`C81_cell_box_fails`).
64. `create_facet_bdry_tags` (tp_mesh.py:361-393) inherits the wrong order of the facets of `get_face_facets`: the tags of all the faces but the last are those of other facets, interior facets are tagged, even twice, although DOLFINx requires unique entities (`C81_boundary_tags_fail`, `C81_boundary_tags_twice`).
65. unfitted_cart_mesh.py:150-164: in single precision the domain is described in the grid with double precision breaks, and the mesh has the rounded ones (`C81_single_precision_fails`). `n_cells` as a numpy integer is refused (C81_inputs).
66. pyvista_tools.py:265-269: the points are moved to physical space but the normals are not: they are those of the reference cell, wrong unless the cell is a cube (`C82_normals_fail`). Facets that are cut and have unfitted boundary appear in both lists (480-486): their points and weights are in the data set twice (`C82_facets_twice`).
67. pyvista_tools.py:617-634: the ids of the cells of an unfitted mesh are DOLFINx's, the cells of the grid are in the lexicographical order: if DOLFINx renumbers them, the wrong cells are drawn, with the wrong status (`C82_mesh_cells_fail`).
68. pyvista_tools.py:541-561: `tdim` does not exist in the C++ domains: their facets cannot be drawn (`C82_facets_cpp_fail`). For meshes the facet numbers of DOLFINx are taken as lexicographical ones: other facets are drawn (`C82_facets_fail`).
69. nanobind_wrappers/unf_domain.cpp (not modelled): the lambdas given to `def` capture the local lambdas `get_cells` and `get_facets` by reference, which no longer exist when Python calls them; line 86 names an undeclared identifier inside `assert` (a debug build does not compile); cells without facets are not refused but throw `bad_optional_access`.
70. _kernel_body.py:437-443: a constant is replaced by the normal only after an operator, a space or `(`: `pow(c[0],c[1])` keeps `c[1]` (`C84_normals_comma_fails`). (FFCx writes a space after commas.)
71. _kernel_body.py:382-393: an index of a table that contains brackets and is not a single entry of an array is not understood: the access stays as it was although its table is erased (`C84_index_fails`).
72. codegeneration.py:217-237: integrals over interior facets that use one side only (for instance only `'+'` terms), and integrals over exterior facets with only piecewise constant tables, which do not use the number of the facet, raise (`C84_one_sided_fails`, `C84_no_index_fails`).
73. _kernel_body.py:353-365: everything between the comment `// Quadrature rules` and the last table is removed, whatever it is (`C84_erase`).
74. nanobind_wrappers/common.cpp:81-87: `BoundBox.mid_point` gives Python a view of the temporary returned by `mid_point()`: its entries are whatever later calls leave on the stack (`C86_mid_point_fails`).
75. nanobind_wrappers/common.cpp:204, 305 (`C93_no_arguments`): `create_affine_transformation()` and `create_ref_system()` without arguments always give the 2D object (the overload defined first); `create_cart_grid` with strided arrays of breaks reads consecutive entries (as in finding 48 for cells).
76. The declarations before the loops over points are moved into every loop (_kernel_body.py). A loop that changed a variable declared there would find it set again at each point (`C75_shared_variables_fail`). FFCx does not write such code; `C75_original` and `C75_same_rule` assume so (`Local`), `C75_custom` does not.
77. integral_data.py:135-140: `IntegralData.dtype` raises `StopIteration` for an integral without tables (`C88_dtype`: it is that of the first table), so that forms such as `1*dx` with a constant integrand and affine geometry cannot be compiled if FFCx writes no table.
78. forms.py:161-178: the integrals are objects of UFL that sums of forms share. After `form_custom(a)`, a form `F = b + a` made before has the number given to `a`'s integral in place of "everywhere": if `b` uses that number as a tag, `F` integrates `a`'s term over the facets with that tag instead of the whole boundary (`C89_shared_fails`).
79. forms.py:176: the mark `ext_facet_everywhere` is written in the dictionary of the measure, which its other integrals share: `v*ds(1)` without tags is integrated over the whole boundary once `v*ds` of the same measure is compiled (`C89_metadata_fails`).
80. forms.py:264-340: if `ffcx_jit` raises, the integrals of the form are not put back (`C89_failure_fails`).
81. forms.py:229-232: `form_compiler_options["scalar_type"]` is set in the dictionary of the caller (`C89_options_fails`).
82. quadrature_data.py:71-73: `ufl_integrand.integral_type == "cell"` compares the method `integral_type` (called on line 96) with a string, so it is always false: with the option `sum_factorization` the rules of QUGaR never have the tensor factors that the option asks for (read from the text; not modelled, the models of the kernels have no tensor factors).
